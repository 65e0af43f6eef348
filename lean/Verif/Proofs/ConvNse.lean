import Verif.Proofs.ConvSplit
/-!
# Consistency of the discretizations of the NSE
-/
set_option linter.unusedSectionVars false
set_option linter.unusedVariables false
namespace FNFT.Conv
open NormedSpace
attribute [local instance] Matrix.linftyOpNormedRing Matrix.linftyOpNormedAlgebra

theorem linf_le {X : Spec.M2} {c : ℝ} (h : ∀ i, ‖X i 0‖ + ‖X i 1‖ ≤ c) : ‖X‖ ≤ c := by
  have hc : 0 ≤ c := (add_nonneg (norm_nonneg _) (norm_nonneg _)).trans (h 0)
  lift c to NNReal using hc
  rw [← coe_nnnorm, NNReal.coe_le_coe, Matrix.linfty_opNNNorm_def]
  refine Finset.sup_le fun i _ => ?_
  rw [Fin.sum_univ_two]
  exact_mod_cast h i

theorem entry_le (X : Spec.M2) (i j : Fin 2) : ‖X i j‖ ≤ ‖X‖ := by
  rw [← coe_nnnorm, ← coe_nnnorm, NNReal.coe_le_coe, Matrix.linfty_opNNNorm_def]
  refine le_trans ?_ (Finset.le_sup (f := fun i => ∑ j, ‖X i j‖₊) (Finset.mem_univ i))
  exact Finset.single_le_sum (f := fun j => ‖X i j‖₊) (fun _ _ => zero_le) (Finset.mem_univ j)

variable {h Q : ℝ} {q r l : ℂ}

theorem norm_akA (hh : 0 ≤ h) : ‖Spec.akA h l‖ ≤ h * ‖l‖ := by
  refine linf_le fun i => ?_
  fin_cases i <;> simp [Spec.akA, abs_of_nonneg hh, mul_comm]

theorem norm_akB (hh : 0 ≤ h) (hq : ‖q‖ ≤ Q) (hr : ‖r‖ ≤ Q) : ‖Spec.akB h q r‖ ≤ h * Q := by
  refine linf_le fun i => ?_
  fin_cases i <;> simp [Spec.akB, abs_of_nonneg hh]
  · rw [mul_comm]; exact mul_le_mul_of_nonneg_left hq hh
  · rw [mul_comm]; exact mul_le_mul_of_nonneg_left hr hh

theorem akA_add_akB : Spec.akA h l + Spec.akB h q r = (h : ℂ) • Spec.aknsP q r l := by
  ext i j
  fin_cases i <;> fin_cases j <;> simp [Spec.akA, Spec.akB, Spec.aknsP] <;> ring

theorem norm_aknsP (hq : ‖q‖ ≤ Q) (hr : ‖r‖ ≤ Q) : ‖Spec.aknsP q r l‖ ≤ ‖l‖ + Q := by
  refine linf_le fun i => ?_
  fin_cases i <;> simp [Spec.aknsP]
  · exact hq
  · linarith

theorem tail_ge {x : ℝ} (hx : 0 ≤ x) : x ^ 3 / 6 ≤ tail x := by
  have := (tail_hasSum x).summable.sum_le_tsum {0} (fun n _ => by positivity)
  rw [(tail_hasSum x).tsum_eq] at this
  have e : (x ^ 3 / 6 : ℝ) = x ^ 3 / ((2 + 1) * (1 + 1)) := by norm_num
  rw [e]
  simpa [Nat.factorial] using this

theorem min_small {x y : ℝ} (hx : 0 ≤ x) (hy : 0 ≤ y) (hyx : y ≤ x ^ 2) : 2 * (min 1e-33 (y ^ 2) * x) ≤ x ^ 3 := by
  have h1 : 2 * min 1e-33 (y ^ 2) ≤ x ^ 2 := by
    rcases le_total (x ^ 2) (1 / 2) with hc | hc
    · have : min 1e-33 (y ^ 2) ≤ y ^ 2 := min_le_right _ _
      nlinarith
    · have : min 1e-33 (y ^ 2) ≤ (1e-33 : ℝ) := min_le_left _ _
      have h2 : (1e-33 : ℝ) ≤ 1 / 4 := by norm_num
      linarith [this.trans h2]
  nlinarith

/-- The splitting methods that use every sample once. -/
def Split (a : AknsDisc) : Prop := a ∈ [AknsDisc.D2SPLIT2A, .D2SPLIT2B, .D2SPLIT2S, .D2SPLIT3S, .D2SPLIT3A, .D2SPLIT3B, .D2SPLIT4A, .D2SPLIT4B,
    .D2SPLIT5A, .D2SPLIT5B, .D2SPLIT6A, .D2SPLIT6B, .D2SPLIT8A, .D2SPLIT8B]

theorem order1_splittings (a : AknsDisc) (ha : Split a ∨ a = .D2SPLIT1A ∨ a = .D2SPLIT1B) :
    Order1 (Spec.splitting a) ∧ akns_upsampling_factor a = 1 ∧ Spec.splitting a ≠ [] ∧ ¬ Spec.slow a := by
  rcases ha with ha | rfl | rfl
  · refine ⟨(order2_splittings a ha).1, ?_⟩
    unfold Spec.slow
    simp only [Split, List.mem_cons, List.not_mem_nil, or_false] at ha
    rcases ha with rfl | rfl | rfl | rfl | rfl | rfl | rfl | rfl | rfl | rfl | rfl | rfl | rfl | rfl <;> decide
  · unfold Order1 Spec.slow; decide +kernel
  · unfold Order1 Spec.slow; decide +kernel

theorem splitting_err {a : AknsDisc} {eps : ℝ} {qf rf : ℕ → ℂ} {U : ℂ → ℕ → Spec.M2} (hU : Spec.NseSteps a eps qf rf U) (he : 0 ≤ eps)
    (ha : Split a ∨ a = .D2SPLIT1A ∨ a = .D2SPLIT1B) {n : ℕ} (hq : ‖qf n‖ ≤ Q) (hr : ‖rf n‖ ≤ Q) (l : ℂ) :
    ‖U l n - exp ((eps : ℂ) • Spec.aknsP (qf n) (rf n) l)‖ ≤ 8 * (tail (eps * ‖l‖ + eps * (2 * Q)) + (eps * ‖l‖ + eps * (2 * Q)) ^ 2 / 2) ∧
    (Split a → ‖U l n - exp ((eps : ℂ) • Spec.aknsP (qf n) (rf n) l)‖ ≤ 8 * tail (eps * ‖l‖ + eps * (2 * Q))) := by
  obtain ⟨o1, o2, o3, o4⟩ := order1_splittings a ha
  obtain ⟨EB, h1, -, h2⟩ := hU.2.2 o3
  rw [o2] at h1 h2
  simp only [Nat.cast_one, div_one] at h1 h2
  have hQ : 0 ≤ Q := (norm_nonneg _).trans hq
  have hB0 := norm_akB he hq hr
  have hB : ∀ w : ℚ, 0 ≤ w → Maj (EB n w) ((w : ℂ) • Spec.akB eps (qf n) (rf n))
      (((w : ℂ) ^ 2 / 2) • (Spec.akB eps (qf n) (rf n) * Spec.akB eps (qf n) (rf n))) (w * (eps * (2 * Q))) := by
    intro w hw
    have hw' : (0 : ℝ) ≤ w := by exact_mod_cast hw
    have hm := Maj.wexp hB0 hw
    have := hm.perturb (G := EB n w) (by
      have hx : 0 ≤ w * (eps * Q) := by positivity
      refine le_trans ?_ (min_small hx (y := (w * eps) ^ 2 * ‖qf n * rf n‖) (by positivity) ?_)
      · have hb : ∀ i j, ‖(EB n w - exp ((w : ℂ) • Spec.akB eps (qf n) (rf n))) i j‖ ≤
            min 1e-33 (((w * eps) ^ 2 * ‖qf n * rf n‖) ^ 2) * (w * (eps * Q)) := by
          intro i j
          refine (h1 n w i j).trans (mul_le_mul_of_nonneg_left ?_ (le_min (by norm_num) (by positivity)))
          rw [abs_of_nonneg (by positivity), ← mul_assoc]
          exact mul_le_mul_of_nonneg_left (max_le hq hr) (by positivity)
        refine linf_le fun i => ?_
        rw [two_mul]; exact add_le_add (hb i 0) (hb i 1)
      · rw [norm_mul]
        have : ‖qf n‖ * ‖rf n‖ ≤ Q * Q := mul_le_mul hq hr (norm_nonneg _) hQ
        calc (w * eps) ^ 2 * (‖qf n‖ * ‖rf n‖) ≤ (w * eps) ^ 2 * (Q * Q) := by gcongr
          _ = _ := by ring)
    convert this using 1
    ring
  have key := combine_err (A := Spec.akA eps l) (B := Spec.akB eps (qf n) (rf n)) (EA := fun w => exp ((w : ℂ) • Spec.akA eps l)) (EB := EB n) o1
    (norm_akA he) (hB0.trans (mul_le_mul_of_nonneg_left (by linarith) he)) (fun w hw => Maj.wexp (norm_akA he) hw) hB
  rw [akA_add_akB] at key
  rw [h2, Spec.combine]
  exact ⟨key.1, fun hs => key.2 (order2_splittings a hs)⟩

theorem bo_err {eps : ℝ} {qf rf : ℕ → ℂ} {U : ℂ → ℕ → Spec.M2} (hU : Spec.NseSteps .BO eps qf rf U) (he : 0 ≤ eps)
    {n : ℕ} (hq : ‖qf n‖ ≤ Q) (hr : ‖rf n‖ ≤ Q) (l : ℂ) :
    ‖U l n - exp ((eps : ℂ) • Spec.aknsP (qf n) (rf n) l)‖ ≤ 8 * tail (eps * ‖l‖ + eps * (2 * Q)) := by
  obtain ⟨E, hE, h2⟩ := hU.1 (Or.inl rfl)
  have hQ : 0 ≤ Q := (norm_nonneg _).trans hq
  have e : U l n = E ((eps : ℂ) • Spec.aknsP (qf n) (rf n) l) := by
    rw [h2]; simp [Spec.slowStep, Spec.cfWeight]
  obtain ⟨X, hX⟩ : ∃ X, X = (eps : ℂ) • Spec.aknsP (qf n) (rf n) l := ⟨_, rfl⟩
  rw [e, ← hX]
  have hx : ‖X‖ ≤ eps * (‖l‖ + Q) := by
    rw [hX, norm_smul, Complex.norm_real, Real.norm_eq_abs, abs_of_nonneg he]
    exact mul_le_mul_of_nonneg_left (norm_aknsP hq hr) he
  have h0 : 0 ≤ eps * (‖l‖ + Q) := by positivity
  have hn := (hE X (by rw [hX]; simp [Spec.aknsP])).2
  have hdet : ‖X.det‖ ≤ (eps * (‖l‖ + Q)) ^ 2 := by
    have e1 : X.det = (eps : ℂ) ^ 2 * (l ^ 2 - qf n * rf n) := by
      rw [hX, Matrix.det_fin_two]; simp [Spec.aknsP]
      linear_combination (-(eps : ℂ) ^ 2 * l ^ 2) * Complex.I_sq
    rw [e1, norm_mul, norm_pow, Complex.norm_real, Real.norm_eq_abs, abs_of_nonneg he, mul_pow]
    gcongr
    refine (norm_sub_le _ _).trans ?_
    rw [norm_pow, norm_mul]
    have : ‖qf n‖ * ‖rf n‖ ≤ Q * Q := mul_le_mul hq hr (norm_nonneg _) hQ
    nlinarith [norm_nonneg l, mul_nonneg (norm_nonneg l) hQ]
  have h1 : ‖E X - exp X‖ ≤ 2 * (min 1e-33 (‖X.det‖ ^ 2) * (eps * (‖l‖ + Q))) := by
    have hb : ∀ i j, ‖(E X - exp X) i j‖ ≤ min 1e-33 (‖X.det‖ ^ 2) * (eps * (‖l‖ + Q)) := fun i j =>
      (hn i j).trans (mul_le_mul_of_nonneg_left ((entry_le X i j).trans hx) (le_min (by norm_num) (by positivity)))
    refine linf_le fun i => ?_
    rw [two_mul]; exact add_le_add (hb i 0) (hb i 1)
  refine h1.trans ((min_small h0 (norm_nonneg _) hdet).trans ?_)
  have h3 : eps * (‖l‖ + Q) ≤ eps * ‖l‖ + eps * (2 * Q) := by nlinarith
  have h4 := pow_le_pow_left₀ h0 h3 3
  have h5 := tail_ge (h0.trans h3)
  have h6 := pow_nonneg (h0.trans h3) 3
  linarith

theorem sqrt_bounds {s u : ℂ} {x : ℝ} (hs : s ^ 2 = 1 - u) (hre : 0 ≤ s.re) (hu : ‖u‖ ≤ x ^ 2) (hx0 : 0 ≤ x) (hx : x ≤ 1 / 2) :
    ‖1 / s - 1‖ ≤ 4 / 5 * x ^ 2 ∧ ‖1 / s - 1 - u / 2‖ ≤ 1 / 2 * x ^ 3 := by
  have hx2 : x ^ 2 ≤ 1 / 4 := by nlinarith
  have e1 : (s - 1) * (s + 1) = -u := by linear_combination hs
  have n1 : ‖s - 1‖ * ‖s + 1‖ = ‖u‖ := by rw [← norm_mul, e1, norm_neg]
  have r1 : s.re + 1 ≤ ‖s + 1‖ := by
    have := Complex.re_le_norm (s + 1)
    simpa using this
  have d1 : ‖s - 1‖ ≤ ‖u‖ := by nlinarith [norm_nonneg (s - 1)]
  have r2 : 3 / 4 ≤ s.re := by
    have h1 := Complex.abs_re_le_norm (s - 1)
    have h2 := (abs_le.mp h1).1
    simp at h2
    linarith
  have d2 : ‖s - 1‖ * (7 / 4) ≤ ‖u‖ := by nlinarith [norm_nonneg (s - 1)]
  have s1 : 3 / 4 ≤ ‖s‖ := r2.trans (Complex.re_le_norm s)
  have s0 : s ≠ 0 := norm_pos_iff.mp (by linarith)
  have hd := norm_nonneg (s - 1)
  constructor
  · have e2 : 1 / s - 1 = -(s - 1) / s := by field_simp; ring
    rw [e2, norm_div, norm_neg, div_le_iff₀ (by linarith)]
    nlinarith
  · have e2 : 1 / s - 1 - u / 2 = (s - 1) ^ 2 * (s + 2) / (2 * s) := by
      have : u = 1 - s ^ 2 := by linear_combination hs
      rw [this]; field_simp; ring
    have s2 : ‖s + 2‖ ≤ 13 / 4 := by
      have : s + 2 = (s - 1) + 3 := by ring
      rw [this]
      refine (norm_add_le _ _).trans ?_
      have : ‖(3 : ℂ)‖ = 3 := by simp
      rw [this]; linarith
    rw [e2, norm_div, norm_mul, norm_pow, norm_mul, div_le_iff₀ (by simpa using s0)]
    have : ‖(2 : ℂ)‖ = 2 := by simp
    rw [this]
    have h4 : ‖s - 1‖ ≤ 4 / 7 * x ^ 2 := by linarith
    have h5 : ‖s - 1‖ ^ 2 ≤ (4 / 7 * x ^ 2) ^ 2 := pow_le_pow_left₀ hd h4 2
    have h6 : ‖s - 1‖ ^ 2 * ‖s + 2‖ ≤ (4 / 7 * x ^ 2) ^ 2 * (13 / 4) := mul_le_mul h5 s2 (norm_nonneg _) (by positivity)
    have h7 : (4 / 7 * x ^ 2) ^ 2 * (13 / 4) ≤ 1 / 2 * x ^ 3 * (2 * (3 / 4)) := by
      have h8 : 0 ≤ x ^ 3 := by positivity
      have : (4 / 7 * x ^ 2) ^ 2 * (13 / 4) = (52 / 49 * x) * x ^ 3 := by ring
      rw [this]
      nlinarith
    refine h6.trans (h7.trans ?_)
    have h8 : 0 ≤ x ^ 3 := by positivity
    nlinarith

theorem akB_sq (h : ℝ) (q r : ℂ) : Spec.akB h q r * Spec.akB h q r = ((h * q) * (h * r)) • (1 : Spec.M2) := by
  ext i j
  fin_cases i <;> fin_cases j <;> simp [Spec.akB, Matrix.mul_apply, Fin.sum_univ_two] <;> ring

theorem modal_err {eps : ℝ} {qf rf : ℕ → ℂ} {U : ℂ → ℕ → Spec.M2} (hU : Spec.NseSteps .D2SPLIT2_MODAL eps qf rf U) (he : 0 ≤ eps)
    {n : ℕ} (hq : ‖qf n‖ ≤ Q) (hr : ‖rf n‖ ≤ Q) (hx : eps * Q ≤ 1 / 2) (l : ℂ) :
    ‖U l n - exp ((eps : ℂ) • Spec.aknsP (qf n) (rf n) l)‖ ≤ 8 * tail (eps * ‖l‖ + eps * (2 * Q)) := by
  obtain ⟨s, hs, h2⟩ := hU.2.1 rfl
  have hQ : 0 ≤ Q := (norm_nonneg _).trans hq
  have hB0 := norm_akB he hq hr
  have hx0 : 0 ≤ eps * Q := by positivity
  have hu : ‖(eps * qf n) * (eps * rf n)‖ ≤ (eps * Q) ^ 2 := by
    rw [norm_mul, norm_mul, norm_mul, Complex.norm_real, Real.norm_eq_abs, abs_of_nonneg he, sq]
    gcongr
  obtain ⟨b1, b2⟩ := sqrt_bounds (hs n).1 (hs n).2 hu hx0 hx
  have h1n : ‖(1 : Spec.M2)‖ ≤ 1 := linf_le fun i => by fin_cases i <;> simp [Matrix.one_apply]
  have hG : Maj ((1 / s n) • (1 + Spec.akB eps (qf n) (rf n))) (Spec.akB eps (qf n) (rf n))
      ((1 / 2 : ℂ) • (Spec.akB eps (qf n) (rf n) * Spec.akB eps (qf n) (rf n))) (eps * (2 * Q)) := by
    have h2x : eps * (2 * Q) = 2 * (eps * Q) := by ring
    refine ⟨hB0.trans (by rw [h2x]; linarith), ?_, ?_⟩
    · rw [norm_smul]
      have : ‖(1 / 2 : ℂ)‖ = 1 / 2 := by simp
      rw [this]
      have h4 := (norm_mul_le (Spec.akB eps (qf n) (rf n)) (Spec.akB eps (qf n) (rf n))).trans (mul_le_mul hB0 hB0 (norm_nonneg _) hx0)
      rw [h2x]
      nlinarith
    · have e : (1 / s n) • (1 + Spec.akB eps (qf n) (rf n)) - 1 - Spec.akB eps (qf n) (rf n) -
          (1 / 2 : ℂ) • (Spec.akB eps (qf n) (rf n) * Spec.akB eps (qf n) (rf n)) =
          (1 / s n - 1 - ((eps * qf n) * (eps * rf n)) / 2) • (1 : Spec.M2) + (1 / s n - 1) • Spec.akB eps (qf n) (rf n) := by
        rw [akB_sq]
        module
      rw [e]
      refine (norm_add_le _ _).trans ?_
      rw [norm_smul, norm_smul]
      have k1 := mul_le_mul b2 h1n (norm_nonneg _) (by positivity)
      have k2 := mul_le_mul b1 hB0 (norm_nonneg _) (by positivity)
      have k3 := tail_ge (x := eps * (2 * Q)) (by positivity)
      rw [h2x] at k3 ⊢
      have k4 : 0 ≤ (eps * Q) ^ 3 := by positivity
      refine (add_le_add k1 k2).trans (le_trans ?_ k3)
      nlinarith
  obtain ⟨o1, o2⟩ := order2_splittings .D2SPLIT2A (by simp)
  have key := combine_err (s := Spec.splitting .D2SPLIT2A) (A := Spec.akA eps l) (B := Spec.akB eps (qf n) (rf n)) (EA := fun w => exp ((w : ℂ) • Spec.akA eps l))
    (EB := fun w => if w = 1 then (1 / s n) • (1 + Spec.akB eps (qf n) (rf n)) else exp ((w : ℂ) • Spec.akB eps (qf n) (rf n)))
    (zb := eps * (2 * Q)) o1 (norm_akA he) (hB0.trans (mul_le_mul_of_nonneg_left (by linarith) he)) (fun w hw => Maj.wexp (norm_akA he) hw)
    (fun w hw => by
      by_cases h1 : w = 1
      · subst h1
        rw [if_pos rfl]
        simpa using hG
      · rw [if_neg h1]
        exact Maj.wexp (hB0.trans (mul_le_mul_of_nonneg_left (by linarith) he)) hw)
  have k2 := key.2 ⟨o1, o2⟩
  rw [akA_add_akB] at k2
  have e : U l n = (((Spec.splitting .D2SPLIT2A).map fun t => (t.1 : ℂ) • (t.2.map fun f => if f.1 then exp ((f.2 : ℂ) • Spec.akA eps l) else
      if f.2 = 1 then (1 / s n) • (1 + Spec.akB eps (qf n) (rf n)) else exp ((f.2 : ℂ) • Spec.akB eps (qf n) (rf n))).prod).sum) := by
    rw [h2]
    simp [Spec.splitting, Spec.strang, Spec.alternate, mul_assoc]
  rw [e]
  exact k2
end FNFT.Conv

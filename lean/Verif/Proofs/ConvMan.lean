import Verif.Spec.ManConverge
import Verif.Spec.Manakovv
import Verif.Proofs.ConvPert
import Verif.Proofs.ConvZS
/-!
# Convergence of the discretizations of the Manakov scattering problem
-/
set_option linter.unusedSectionVars false
set_option linter.unusedVariables false
namespace FNFT.Conv
open Set Complex
attribute [local instance] Matrix.linftyOpNormedRing
noncomputable local instance m3Algebra : NormedAlgebra ℂ Spec.M3 := Matrix.linftyOpNormedAlgebra

theorem linf3_le {X : Spec.M3} {c : ℝ} (h : ∀ i, ‖X i 0‖ + ‖X i 1‖ + ‖X i 2‖ ≤ c) : ‖X‖ ≤ c := by
  have hc : 0 ≤ c := (add_nonneg (add_nonneg (norm_nonneg _) (norm_nonneg _)) (norm_nonneg _)).trans (h 0)
  lift c to NNReal using hc
  rw [← coe_nnnorm, NNReal.coe_le_coe, Matrix.linfty_opNNNorm_def]
  refine Finset.sup_le fun i _ => ?_
  rw [Fin.sum_univ_three]
  exact_mod_cast h i

theorem entry3_le (X : Spec.M3) (i j : Fin 3) : ‖X i j‖ ≤ ‖X‖ := by
  rw [← coe_nnnorm, ← coe_nnnorm, NNReal.coe_le_coe, Matrix.linfty_opNNNorm_def]
  refine le_trans ?_ (Finset.le_sup (f := fun i => ∑ j, ‖X i j‖₊) (Finset.mem_univ i))
  exact Finset.single_le_sum (f := fun j => ‖X i j‖₊) (fun _ _ => zero_le) (Finset.mem_univ j)

/-- The matrix of the system. -/
noncomputable def manP (κ : ℤ) (q1 q2 l : ℂ) : Spec.M3 := Spec.manA l + Spec.manB κ q1 q2

variable {κ : ℤ} {q1 q2 l : ℂ} {Q : ℝ}

theorem norm_kap (hκ : |κ| = 1) : ‖(κ : ℂ)‖ = 1 := by
  rw [Complex.norm_intCast]
  exact_mod_cast hκ

theorem norm_manA (l : ℂ) : ‖Spec.manA l‖ ≤ ‖l‖ := by
  refine linf3_le fun i => ?_
  fin_cases i <;> simp [Spec.manA]

theorem norm_manB (hκ : |κ| = 1) (h1 : ‖q1‖ ≤ Q) (h2 : ‖q2‖ ≤ Q) : ‖Spec.manB κ q1 q2‖ ≤ 2 * Q := by
  have hQ := (norm_nonneg _).trans h1
  refine linf3_le fun i => ?_
  fin_cases i <;> simp [Spec.manB]
  · linarith
  · have : |(κ : ℝ)| = 1 := by exact_mod_cast hκ
    rw [this]; linarith
  · have : |(κ : ℝ)| = 1 := by exact_mod_cast hκ
    rw [this]; linarith

theorem manB_sub (κ : ℤ) (q1 q2 p1 p2 : ℂ) : Spec.manB κ q1 q2 - Spec.manB κ p1 p2 = Spec.manB κ (q1 - p1) (q2 - p2) := by
  ext i j; fin_cases i <;> fin_cases j <;> simp [Spec.manB] <;> ring

theorem norm_manP (hκ : |κ| = 1) (h1 : ‖q1‖ ≤ Q) (h2 : ‖q2‖ ≤ Q) (l : ℂ) : ‖manP κ q1 q2 l‖ ≤ ‖l‖ + 2 * Q :=
  (norm_add_le _ _).trans (add_le_add (norm_manA l) (norm_manB hκ h1 h2))

theorem norm_manP_sub (hκ : |κ| = 1) {p1 p2 : ℂ} {c : ℝ} (h1 : ‖q1 - p1‖ ≤ c) (h2 : ‖q2 - p2‖ ≤ c) : ‖manP κ q1 q2 l - manP κ p1 p2 l‖ ≤ 2 * c := by
  unfold manP
  rw [add_sub_add_left_eq_sub, manB_sub]
  exact norm_manB hκ h1 h2

/-- The cut-off. -/
theorem trunc_close (q1 q2 : ℂ) : ‖(Spec.manTrunc q1 q2).1 - q1‖ ≤ 2 ^ (-52 : ℤ) ∧ ‖(Spec.manTrunc q1 q2).2 - q2‖ ≤ 2 ^ (-52 : ℤ) ∧
    ‖(Spec.manTrunc q1 q2).1‖ ≤ ‖q1‖ ∧ ‖(Spec.manTrunc q1 q2).2‖ ≤ ‖q2‖ := by
  unfold Spec.manTrunc
  split_ifs with h
  · simp
    exact ⟨by simpa using h.1.le, by simpa using h.2.le⟩
  · simp

/-- The methods of second order that use every sample once. -/
def _root_.FNFT.Spec.manSecond : List ManDisc := [.BO, .D2SPLIT3A, .D2SPLIT3B, .D2SPLIT4A, .D2SPLIT4B, .D2SPLIT6B]

theorem man_split (d : ManDisc) (h : d ∈ [ManDisc.D2SPLIT3A, .D2SPLIT3B, .D2SPLIT4A, .D2SPLIT4B, .D2SPLIT6B]) :
    Order2 (Spec.manSplitting d) ∧ (∀ t ∈ Spec.manSplitting d, ∀ f ∈ t.2, 0 < f.2) ∧ man_upsampling_factor d = 1 ∧ ¬ (d = .BO ∨ d = .CF4_2) ∧ ¬ Spec.manSandwich d := by
  simp only [List.mem_cons, List.not_mem_nil, or_false] at h
  unfold Order2 Order1
  rcases h with rfl | rfl | rfl | rfl | rfl <;> decide +kernel

/-- One step: a step that differs from the exponential by terms of third order, and a small perturbation. -/
theorem man_step_errC {d : ManDisc} (hd : d ∈ Spec.manSecond) (hκ : |κ| = 1) {h : ℝ} (hh : 0 ≤ h) {N : ℕ} {p1 p2 : ℕ → ℂ} {U : ℂ → ℕ → Spec.M3}
    (hU : Spec.ManSteps d κ h N p1 p2 U) {n : ℕ} (h1 : ‖p1 n‖ ≤ Q) (h2 : ‖p2 n‖ ≤ Q) (xi : ℂ) :
    ∃ U' : Spec.M3, ‖U' - NormedSpace.exp ((h : ℂ) • manP κ (p1 n) (p2 n) xi)‖ ≤ 8 * tail (h * (‖xi‖ + 2 * (2 * Q))) ∧
      ‖U xi n - U'‖ ≤ h * Spec.manDelta Q h ‖xi‖ := by
  have hQ := (norm_nonneg _).trans h1
  obtain ⟨t1, t2, t3, t4⟩ := trunc_close (p1 n) (p2 n)
  set B := Spec.manB κ (Spec.manTrunc (p1 n) (p2 n)).1 (Spec.manTrunc (p1 n) (p2 n)).2 with hB
  have hBn : ‖B‖ ≤ 2 * Q := norm_manB hκ (t3.trans h1) (t4.trans h2)
  have hnx : ‖xi‖ = |‖xi‖| := (abs_norm xi).symm
  -- the cut-off
  have hcut : ‖NormedSpace.exp ((h : ℂ) • (Spec.manA xi + B)) - NormedSpace.exp ((h : ℂ) • manP κ (p1 n) (p2 n) xi)‖ ≤ (h * 2 ^ (-51 : ℤ)) * Real.exp (2 * h * (|‖xi‖| + 4 * Q)) := by
    have hs : ∀ X : Spec.M3, ∀ c, ‖X‖ ≤ c → ‖(h : ℂ) • X‖ ≤ h * c := fun X c hX => by
      rw [norm_smul, Complex.norm_real, Real.norm_eq_abs, abs_of_nonneg hh]; exact mul_le_mul_of_nonneg_left hX hh
    have key := exp_lip (X := (h : ℂ) • (Spec.manA xi + B)) (Y := (h : ℂ) • manP κ (p1 n) (p2 n) xi) (m := h * (‖xi‖ + 2 * Q)) (d := h * 2 ^ (-51 : ℤ))
      (hs _ _ (norm_manP hκ (t3.trans h1) (t4.trans h2) _)) (hs _ _ (norm_manP hκ h1 h2 _)) (by
        rw [← smul_sub]
        refine hs _ _ ((norm_manP_sub (l := xi) hκ t1 t2).trans (le_of_eq ?_))
        norm_num)
    refine key.trans (mul_le_mul_of_nonneg_left (Real.exp_le_exp.mpr ?_) (by positivity))
    rw [← hnx]
    nlinarith [mul_nonneg hh hQ]
  have hz : 0 ≤ tail (h * (‖xi‖ + 2 * (2 * Q))) := tail_nonneg (by positivity)
  simp only [Spec.manSecond, List.mem_cons, List.not_mem_nil, or_false] at hd
  by_cases hbo : d = .BO
  · subst hbo
    rw [Spec.ManSteps, if_pos (Or.inl rfl)] at hU
    refine ⟨NormedSpace.exp ((h : ℂ) • manP κ (p1 n) (p2 n) xi), by rw [sub_self, norm_zero]; positivity, ?_⟩
    rw [hU, Spec.manStep, show (man_upsampling_factor .BO : ℂ) = 1 by norm_num [man_upsampling_factor], div_one]
    refine hcut.trans ?_
    unfold Spec.manDelta
    have : 0 ≤ h * (1e-31 * Q) * Real.exp (2 * h * (|‖xi‖| + 4 * Q)) := by positivity
    linarith
  · obtain ⟨o1, o2, o3, o4, o5⟩ := man_split d (by simp only [List.mem_cons, List.not_mem_nil, or_false]; tauto)
    rw [Spec.ManSteps, if_neg o4, o3] at hU
    obtain ⟨EB, EL, ER, e1, -, e2, e3⟩ := hU
    obtain ⟨eL, eR⟩ := e2 n o5
    have e3 := e3 xi n
    rw [eL, eR, one_mul, mul_one, Nat.cast_one, div_one, Spec.combine3] at e3
    have hza : ‖(h : ℂ) • Spec.manA xi‖ ≤ h * ‖xi‖ := by
      rw [norm_smul, Complex.norm_real, Real.norm_eq_abs, abs_of_nonneg hh]; exact mul_le_mul_of_nonneg_left (norm_manA _) hh
    have hzb : ‖(h : ℂ) • B‖ ≤ h * (2 * Q) := by
      rw [norm_smul, Complex.norm_real, Real.norm_eq_abs, abs_of_nonneg hh]; exact mul_le_mul_of_nonneg_left hBn hh
    have hzb' : ‖(h : ℂ) • B‖ ≤ h * (2 * (2 * Q)) := hzb.trans (mul_le_mul_of_nonneg_left (by linarith) hh)
    have k1 := (combine_err (A := (h : ℂ) • Spec.manA xi) (B := (h : ℂ) • B) (EA := fun w => NormedSpace.exp ((w : ℂ) • ((h : ℂ) • Spec.manA xi)))
      (EB := fun w => NormedSpace.exp ((w : ℂ) • ((h : ℂ) • B))) o1.1 hza hzb' (fun w hw => Maj.wexp hza hw) (fun w hw => Maj.wexp hzb' hw)).2 o1
    have k2 := combine_pert (A := (h : ℂ) • Spec.manA xi) (B := (h : ℂ) • B) (EB := EB n) (η := h * (3e-33 * Q)) o1.1 hza hzb (by positivity) (fun t ht f hf hf1 => by
      have hw := o2 t ht f hf
      have hw' : (0 : ℝ) < f.2 := by exact_mod_cast hw
      have hb : ∀ i j, ‖(EB n f.2 - NormedSpace.exp ((f.2 : ℂ) • ((h : ℂ) • B))) i j‖ ≤ 1e-33 * (f.2 * h * Q) := by
        intro i j
        have := (e1 n f.2 hw.ne').near i j
        have e : (((f.2 : ℝ) * h : ℝ) : ℂ) • B = (f.2 : ℂ) • ((h : ℂ) • B) := by rw [smul_smul]; push_cast; rfl
        rw [← hB, e] at this
        refine this.trans (mul_le_mul_of_nonneg_left ?_ (by norm_num))
        rw [abs_of_nonneg (by positivity)]
        exact mul_le_mul_of_nonneg_left (max_le h1 h2) (by positivity)
      refine linf3_le fun i => ?_
      refine (add_le_add (add_le_add (hb i 0) (hb i 1)) (hb i 2)).trans (le_of_eq ?_)
      ring)
    rw [← smul_add, ← mul_add] at k1
    refine ⟨NormedSpace.exp ((h : ℂ) • manP κ (p1 n) (p2 n) xi) + ((((Spec.manSplitting d).map fun t => (t.1 : ℂ) • (t.2.map fun f =>
      if f.1 then NormedSpace.exp ((f.2 : ℂ) • ((h : ℂ) • Spec.manA xi)) else NormedSpace.exp ((f.2 : ℂ) • ((h : ℂ) • B))).prod).sum) -
        NormedSpace.exp ((h : ℂ) • (Spec.manA xi + B))), ?_, ?_⟩
    · rw [add_sub_cancel_left]; exact k1
    · rw [e3]
      have e : ∀ X Y Z W : Spec.M3, X - (Y + (Z - W)) = (X - Z) + (W - Y) := fun X Y Z W => by abel
      rw [e]
      refine (norm_add_le _ _).trans ((add_le_add k2 hcut).trans ?_)
      unfold Spec.manDelta
      have e4 : Real.exp (h * ‖xi‖ + h * (2 * Q) + h * (3e-33 * Q)) ≤ Real.exp (2 * h * (|‖xi‖| + 4 * Q)) := by
        rw [Real.exp_le_exp, ← hnx]
        have h5 := mul_nonneg hh hQ
        have h6 := mul_nonneg hh (norm_nonneg xi)
        have : h * (3e-33 * Q) ≤ h * Q := mul_le_mul_of_nonneg_left (by nlinarith) hh
        linarith
      have e5 : 7 * (h * (3e-33 * Q)) * Real.exp (h * ‖xi‖ + h * (2 * Q) + h * (3e-33 * Q)) ≤ (h * (1e-31 * Q)) * Real.exp (2 * h * (|‖xi‖| + 4 * Q)) := by
        refine mul_le_mul ?_ e4 (Real.exp_pos _).le (by positivity)
        have := mul_nonneg hh hQ
        have e6 : 7 * (h * (3e-33 * Q)) = (21e-33) * (h * Q) := by ring
        have e7 : h * (1e-31 * Q) = 1e-31 * (h * Q) := by ring
        rw [e6, e7]
        exact mul_le_mul_of_nonneg_right (by norm_num) this
      refine (add_le_add_left e5 _).trans (le_of_eq ?_)
      ring

theorem manDelta_real (Q h xi : ℝ) : Spec.manDelta Q h ‖(xi : ℂ)‖ = Spec.manDelta Q h xi := by
  unfold Spec.manDelta
  rw [abs_norm, Complex.norm_real, Real.norm_eq_abs]

theorem man_step_err {d : ManDisc} (hd : d ∈ Spec.manSecond) (hκ : |κ| = 1) {h : ℝ} (hh : 0 ≤ h) {N : ℕ} {p1 p2 : ℕ → ℂ} {U : ℂ → ℕ → Spec.M3}
    (hU : Spec.ManSteps d κ h N p1 p2 U) {n : ℕ} (h1 : ‖p1 n‖ ≤ Q) (h2 : ‖p2 n‖ ≤ Q) (xi : ℝ) :
    ∃ U' : Spec.M3, ‖U' - NormedSpace.exp ((h : ℂ) • manP κ (p1 n) (p2 n) xi)‖ ≤ 8 * tail (h * (‖(xi : ℂ)‖ + 2 * (2 * Q))) ∧
      ‖U xi n - U'‖ ≤ h * Spec.manDelta Q h xi := by
  have key := man_step_errC hd hκ hh hU h1 h2 (xi : ℂ)
  rwa [manDelta_real] at key

/-! ## Solutions -/

/-- First column. -/
noncomputable def col3 (x y z : ℂ) : Spec.M3 := x • !![1, 0, 0; 0, 0, 0; 0, 0, 0] + y • !![0, 0, 0; 1, 0, 0; 0, 0, 0] + z • !![0, 0, 0; 0, 0, 0; 1, 0, 0]

theorem col3_eq (x y z : ℂ) : col3 x y z = !![x, 0, 0; y, 0, 0; z, 0, 0] := by
  ext i j; fin_cases i <;> fin_cases j <;> simp [col3]

theorem sol3_of {q1 q2 v1 v2 v3 : ℝ → ℂ} {l : ℂ} {a b : ℝ}
    (h : ∀ t ∈ Icc a b, HasDerivWithinAt v1 (-I * l * v1 t + q1 t * v2 t + q2 t * v3 t) (Icc a b) t ∧
      HasDerivWithinAt v2 (-κ * (starRingEnd ℂ) (q1 t) * v1 t + I * l * v2 t) (Icc a b) t ∧
      HasDerivWithinAt v3 (-κ * (starRingEnd ℂ) (q2 t) * v1 t + I * l * v3 t) (Icc a b) t) :
    Sol (fun t => manP κ (q1 t) (q2 t) l) (fun t => col3 (v1 t) (v2 t) (v3 t)) a b := by
  intro t ht
  have := (((h t ht).1.smul_const (!![1, 0, 0; 0, 0, 0; 0, 0, 0] : Spec.M3)).add ((h t ht).2.1.smul_const (!![0, 0, 0; 1, 0, 0; 0, 0, 0] : Spec.M3))).add
    ((h t ht).2.2.smul_const (!![0, 0, 0; 0, 0, 0; 1, 0, 0] : Spec.M3))
  refine this.congr_deriv ?_
  dsimp only
  rw [col3_eq]
  ext i j; fin_cases i <;> fin_cases j <;> simp [manP, Spec.manA, Spec.manB, Matrix.mul_apply, Fin.sum_univ_three]

theorem Sol.congr3 {P V V' : ℝ → Spec.M3} {a b : ℝ} (h : Sol P V a b) (e : ∀ t ∈ Icc a b, V' t = V t) : Sol P V' a b :=
  fun t ht => ((h t ht).congr e (e t ht)).congr_deriv (by rw [e t ht])

theorem free3_sol (κ : ℤ) (l x y z : ℂ) (a b : ℝ) :
    Sol (fun _ => manP κ 0 0 l) (fun t : ℝ => col3 (x * exp (-I * l * t)) (y * exp (I * l * t)) (z * exp (I * l * t))) a b := by
  have hd : ∀ (c : ℂ) (t : ℝ), HasDerivAt (fun t : ℝ => exp (c * t)) (c * exp (c * t)) t := by
    intro c t
    have h1 : HasDerivAt (fun t : ℝ => c * (t : ℂ)) (c * 1) t := (Complex.ofRealCLM.hasDerivAt (x := t)).const_mul c
    refine h1.cexp.congr_deriv ?_
    ring
  refine sol3_of (q1 := fun _ => 0) (q2 := fun _ => 0) fun t _ => ⟨?_, ?_, ?_⟩
  · refine (((hd (-I * l) t).const_mul x).congr_deriv ?_).hasDerivWithinAt
    ring
  · refine (((hd (I * l) t).const_mul y).congr_deriv ?_).hasDerivWithinAt
    simp; ring
  · refine (((hd (I * l) t).const_mul z).congr_deriv ?_).hasDerivWithinAt
    simp; ring

/-- The solution outside of `[T0, T1]`. -/
theorem extend3 {q1 q2 : ℝ → ℂ} {T0 T1 : ℝ} {l a b1 b2 : ℂ} (hT : T0 < T1) (h : Spec.ManScattering κ q1 q2 T0 T1 l a b1 b2) (k : ℝ) :
    ∃ V : ℝ → Spec.M3, Sol (fun _ => manP κ 0 0 l) V (T0 - k) T0 ∧ Sol (fun t => manP κ (q1 t) (q2 t) l) V T0 T1 ∧
      Sol (fun _ => manP κ 0 0 l) V T1 (T1 + k) ∧
      (∀ t, t ≤ T0 → V t = col3 (exp (-I * l * t)) 0 0) ∧ (∀ t, T1 ≤ t → V t = col3 (a * exp (-I * l * t)) (b1 * exp (I * l * t)) (b2 * exp (I * l * t))) := by
  obtain ⟨v1, v2, v3, h1, h2, h3, h3', h4, h5, h5'⟩ := h
  let V : ℝ → Spec.M3 := fun t => if t ≤ T0 then col3 (exp (-I * l * t)) 0 0 else if t < T1 then col3 (v1 t) (v2 t) (v3 t) else
    col3 (a * exp (-I * l * t)) (b1 * exp (I * l * t)) (b2 * exp (I * l * t))
  have e1 : ∀ t, t ≤ T0 → V t = col3 (exp (-I * l * t)) 0 0 := fun t ht => if_pos ht
  have e3 : ∀ t, T1 ≤ t → V t = col3 (a * exp (-I * l * t)) (b1 * exp (I * l * t)) (b2 * exp (I * l * t)) := fun t ht =>
    (if_neg (by linarith : ¬ t ≤ T0)).trans (if_neg (by linarith : ¬ t < T1))
  have e2 : ∀ t ∈ Icc T0 T1, V t = col3 (v1 t) (v2 t) (v3 t) := by
    intro t ht
    rcases eq_or_lt_of_le ht.1 with rfl | hlt
    · rw [e1 _ le_rfl, h2, h3, h3']
    · rcases eq_or_lt_of_le ht.2 with rfl | hlt'
      · rw [e3 _ le_rfl, h4, h5, h5']
      · exact (if_neg (not_le.mpr hlt)).trans (if_pos hlt')
  refine ⟨V, ?_, (sol3_of h1).congr3 e2, (free3_sol κ l a b1 b2 _ _).congr3 fun t ht => e3 t ht.1, e1, e3⟩
  refine (free3_sol κ l 1 0 0 _ _).congr3 fun t ht => ?_
  rw [e1 t ht.2, one_mul, zero_mul]

/-- From the solution to the coefficients (real `xi`). -/
theorem coef_err {d : ManDisc} (hd : man_upsampling_factor d = 1) {S V0 V1 : Spec.M3} {T0 T1 h e xi : ℝ} {a b1 b2 : ℂ}
    (h0 : V0 = col3 (exp (-I * xi * (T0 - h / 2 : ℝ))) 0 0)
    (h1 : V1 = col3 (a * exp (-I * xi * (T1 + h / 2 : ℝ))) (b1 * exp (I * xi * (T1 + h / 2 : ℝ))) (b2 * exp (I * xi * (T1 + h / 2 : ℝ))))
    (he : ‖S * V0 - V1‖ ≤ e) :
    ‖Spec.manCoefA d S T0 T1 h xi - a‖ ≤ e ∧ ‖Spec.manCoefB d S T0 T1 h 1 xi - b1‖ ≤ e ∧ ‖Spec.manCoefB d S T0 T1 h 2 xi - b2‖ ≤ e := by
  have m : ∀ i, (S * V0) i 0 = Spec.manPhi S (T0 - h / 2) xi i := by
    intro i
    rw [h0, col3_eq, Spec.manPhi, Matrix.mul_apply, Matrix.mulVec, dotProduct, Fin.sum_univ_three, Fin.sum_univ_three]
    simp
  have n1 : ∀ t : ℝ, ‖exp (-I * xi * t)‖ = 1 := fun t => by rw [norm_exp_neg]; simp
  have n2 : ∀ t : ℝ, ‖exp (I * xi * t)‖ = 1 := fun t => by rw [norm_exp_pos]; simp
  have inv : ∀ t : ℝ, exp (-I * xi * t) * exp (I * xi * t) = 1 := fun t => by rw [← exp_add]; simp
  have k := fun i => (entry3_le (S * V0 - V1) i 0).trans he
  unfold Spec.manCoefA Spec.manCoefB Spec.manTL Spec.manTR
  rw [if_pos hd, if_pos hd]
  have ka := k 0
  have kb := k 1
  have kc := k 2
  rw [Matrix.sub_apply, m, h1, col3_eq] at ka kb kc
  refine ⟨?_, ?_, ?_⟩
  · have e1 : Spec.manPhi S (T0 - h / 2) xi 0 * exp (I * xi * (T1 + h / 2 : ℝ)) - a = (Spec.manPhi S (T0 - h / 2) xi 0 - a * exp (-I * xi * (T1 + h / 2 : ℝ))) * exp (I * xi * (T1 + h / 2 : ℝ)) := by
      linear_combination a * inv (T1 + h / 2)
    rw [e1, norm_mul, n2, mul_one]
    simpa using ka
  · have e1 : Spec.manPhi S (T0 - h / 2) xi 1 * exp (-I * xi * (T1 + h / 2 : ℝ)) - b1 = (Spec.manPhi S (T0 - h / 2) xi 1 - b1 * exp (I * xi * (T1 + h / 2 : ℝ))) * exp (-I * xi * (T1 + h / 2 : ℝ)) := by
      linear_combination b1 * inv (T1 + h / 2)
    rw [e1, norm_mul, n1, mul_one]
    simpa using kb
  · have e1 : Spec.manPhi S (T0 - h / 2) xi 2 * exp (-I * xi * (T1 + h / 2 : ℝ)) - b2 = (Spec.manPhi S (T0 - h / 2) xi 2 - b2 * exp (I * xi * (T1 + h / 2 : ℝ))) * exp (-I * xi * (T1 + h / 2 : ℝ)) := by
      linear_combination b2 * inv (T1 + h / 2)
    rw [e1, norm_mul, n1, mul_one]
    simpa using kc

theorem norm_col3 (xi t : ℝ) : ‖col3 (exp (-I * xi * t)) 0 0‖ ≤ 1 := by
  refine linf3_le fun i => ?_
  have : ‖exp (-I * xi * t)‖ = 1 := by rw [norm_exp_neg]; simp
  rw [col3_eq]
  fin_cases i
  · simpa using this.le
  · simp
  · simp

variable {q1 q2 q1' q2' : ℝ → ℂ} {T0 T1 K L xi : ℝ} {a b1 b2 : ℂ} {D : ℕ} {U U' : ℕ → Spec.M3} {d : ManDisc}

/-- The effect of the perturbations on the chain. -/
theorem man_pertC {h M δ : ℝ} (hh : 0 ≤ h) (hM : 0 ≤ M) (hδ : 0 ≤ δ) {P : ℕ → Spec.M3} (hP : ∀ n < D, ‖P n‖ ≤ M)
    (h1 : ∀ n < D, ‖U' n - NormedSpace.exp ((h : ℂ) • P n)‖ ≤ 8 * (tail (h * M) + (h * M) ^ 2 / 2)) (h2 : ∀ n < D, ‖U n - U' n‖ ≤ h * δ) (V : Spec.M3) :
    ‖Spec.chain U D * V - Spec.chain U' D * V‖ ≤ (D * h) * δ * Real.exp ((D * h) * (5 * M + δ)) * ‖V‖ := by
  have key := chain_pert (w := fun n => Spec.chain U n * V) (w' := fun n => Spec.chain U' n * V) (U := U) (U' := U') (N := D) (x := 5 * (h * M)) (d := h * δ) (by positivity) (by positivity)
    (fun n _ => by simp only [chain_succ, mul_assoc]) (fun n _ => by simp only [chain_succ, mul_assoc]) (by simp [Spec.chain]) (fun n hn => ?_) h2
  · refine key.trans ?_
    have hw : Spec.chain U 0 * V = V := by simp [Spec.chain]
    have e : (D : ℝ) * (5 * (h * M) + h * δ) = (D * h) * (5 * M + δ) := by ring
    rw [e, ← mul_assoc (D : ℝ) h δ, hw]
  · have e : U' n = (U' n - NormedSpace.exp ((h : ℂ) • P n)) + NormedSpace.exp ((h : ℂ) • P n) := by abel
    rw [e]
    have hE : ‖NormedSpace.exp ((h : ℂ) • P n)‖ ≤ Real.exp (h * M) := by
      refine norm_exp_le ?_
      rw [norm_smul, Complex.norm_real, Real.norm_eq_abs, abs_of_nonneg hh]
      exact mul_le_mul_of_nonneg_left (hP n hn) hh
    refine (norm_add_le _ _).trans ((add_le_add (h1 n hn) hE).trans ?_)
    have := stab (x := h * M) (by positivity)
    linarith

theorem man_pert {h M δ : ℝ} (hh : 0 ≤ h) (hM : 0 ≤ M) (hδ : 0 ≤ δ) {P : ℕ → Spec.M3} (hP : ∀ n < D, ‖P n‖ ≤ M)
    (h1 : ∀ n < D, ‖U' n - NormedSpace.exp ((h : ℂ) • P n)‖ ≤ 8 * (tail (h * M) + (h * M) ^ 2 / 2)) (h2 : ∀ n < D, ‖U n - U' n‖ ≤ h * δ) (V : Spec.M3) (hV : ‖V‖ ≤ 1) :
    ‖Spec.chain U D * V - Spec.chain U' D * V‖ ≤ (D * h) * δ * Real.exp ((D * h) * (5 * M + δ)) := by
  refine (man_pertC hh hM hδ hP h1 h2 V).trans (mul_le_of_le_one_right (by positivity) hV)

theorem manDelta_nonneg {Q h : ℝ} (hQ : 0 ≤ Q) (xi : ℝ) : 0 ≤ Spec.manDelta Q h xi := by unfold Spec.manDelta; positivity

theorem man_two (hκ : |κ| = 1) (hd : man_upsampling_factor d = 1) (hD : 2 ≤ D) (hT : T0 < T1) (hq1 : Spec.Smooth q1 q1' T0 T1 Q K L) (hq2 : Spec.Smooth q2 q2' T0 T1 Q K L) (hL : 0 ≤ L)
    (hS : Spec.ManScattering κ q1 q2 T0 T1 xi a b1 b2) {h : ℝ} (hh : h = (T1 - T0) / (D - 1))
    (hU : ∀ n < D, ∃ U' : Spec.M3, ‖U' - NormedSpace.exp ((h : ℂ) • manP κ (q1 (T0 + n * h)) (q2 (T0 + n * h)) xi)‖ ≤ 8 * tail (h * (‖(xi : ℂ)‖ + 2 * (2 * Q))) ∧
      ‖U n - U'‖ ≤ h * Spec.manDelta Q h xi) :
    let e := Spec.err2 (T1 - T0) (2 * Q) (2 * K) (2 * L) h xi + Spec.manFloor (T1 - T0) Q h xi
    ‖Spec.manCoefA d (Spec.chain U D) T0 T1 h xi - a‖ ≤ e ∧ ‖Spec.manCoefB d (Spec.chain U D) T0 T1 h 1 xi - b1‖ ≤ e ∧ ‖Spec.manCoefB d (Spec.chain U D) T0 T1 h 2 xi - b2‖ ≤ e := by
  intro e
  have hD' : (2 : ℝ) ≤ D := by exact_mod_cast hD
  have hpos : 0 < h := by rw [hh]; exact div_pos (by linarith) (by linarith)
  have hDh : (D - 1 : ℝ) * h = T1 - T0 := by
    have h0 : (0 : ℝ) < D - 1 := by linarith
    rw [hh, mul_comm]
    exact div_mul_cancel₀ _ h0.ne'
  have hQ : 0 ≤ Q := (norm_nonneg _).trans (hq1.bound T0)
  have hK : 0 ≤ K := (norm_nonneg _).trans (hq1.bound' T0)
  obtain ⟨V, s1, s2, s3, e1, e2⟩ := extend3 hT hS (h / 2)
  have ht1 : (T0 - h / 2) + D * h = T1 + h / 2 := by linarith
  have hnode : ∀ n : ℕ, T0 - h / 2 + n * h + h / 2 = T0 + n * h := fun n => by ring
  have s1' : Sol (fun t => manP κ (q1 t) (q2 t) xi) V (T0 - h / 2) T0 := fun t ht =>
    (s1 t ht).congr_deriv (by dsimp only; rw [hq1.supp t (Or.inl ht.2), hq2.supp t (Or.inl ht.2)])
  have s3' : Sol (fun t => manP κ (q1 t) (q2 t) xi) V T1 (T1 + h / 2) := fun t ht =>
    (s3 t ht).congr_deriv (by dsimp only; rw [hq1.supp t (Or.inr ht.1), hq2.supp t (Or.inr ht.1)])
  have s := (s1'.union s2 (by linarith) hT.le).union s3' (by linarith) (by linarith)
  have e3 : V (T0 - h / 2) = col3 (exp (-I * xi * (T0 - h / 2 : ℝ))) 0 0 := e1 _ (by linarith)
  have hV : ‖V (T0 - h / 2)‖ ≤ 1 := by rw [e3]; exact norm_col3 xi _
  have hP : ∀ t, ‖manP κ (q1 t) (q2 t) xi‖ ≤ ‖(xi : ℂ)‖ + 2 * (2 * Q) := by
    intro t
    have := norm_manP hκ (hq1.bound t) (hq2.bound t) xi
    linarith
  choose! U' u1 u2 using hU
  have key := err_two (P := fun t => manP κ (q1 t) (q2 t) xi) (V := V) (P1 := fun n => Spec.manB κ (q1' (T0 + n * h)) (q2' (T0 + n * h)))
    (U := U') (w := fun n => Spec.chain U' n * V (T0 - h / 2)) (N := D) (t0 := T0 - h / 2) (h := h) (M := ‖(xi : ℂ)‖ + 2 * (2 * Q)) (L := 2 * L) (K1 := 2 * K) hpos.le (by positivity) (by omega)
    (by rw [ht1]; exact s) (fun t _ => hP t) (fun n hn t ht => ?_) (fun n hn => norm_manB hκ (hq1.bound' _) (hq2.bound' _)) (fun n hn => by rw [hnode]; exact u1 n hn)
    (fun n hn => by simp only [chain_succ, mul_assoc]) (by simp [Spec.chain])
  · have hp := man_pert (U := U) (U' := U') (D := D) hpos.le (by positivity) (manDelta_nonneg hQ xi) (P := fun n => manP κ (q1 (T0 + n * h)) (q2 (T0 + n * h)) xi) (fun n _ => hP _)
      (fun n hn => (u1 n hn).trans (by nlinarith [sq_nonneg (h * (‖(xi : ℂ)‖ + 2 * (2 * Q)))])) u2 (V (T0 - h / 2)) hV
    have e4 : (D : ℝ) * h = T1 - T0 + h := by linarith
    rw [ht1, e4] at key
    rw [e4] at hp
    refine coef_err hd e3 (e2 _ (by linarith)) ?_
    have e5 : Spec.chain U D * V (T0 - h / 2) - V (T1 + h / 2) = (Spec.chain U' D * V (T0 - h / 2) - V (T1 + h / 2)) + (Spec.chain U D * V (T0 - h / 2) - Spec.chain U' D * V (T0 - h / 2)) := by abel
    rw [e5]
    refine (norm_add_le _ _).trans (add_le_add (key.trans ?_) (hp.trans (le_of_eq ?_)))
    · refine (mul_le_of_le_one_right ?_ hV).trans (le_of_eq ?_)
      · have : 0 ≤ T1 - T0 + h := by linarith
        positivity
      · rw [Spec.err2, Complex.norm_real, Real.norm_eq_abs]
    · rw [Spec.manFloor, Complex.norm_real, Real.norm_eq_abs]
      ring_nf
  · rw [hnode]
    generalize T0 + (n : ℝ) * h = m
    have e : manP κ (q1 t) (q2 t) xi - manP κ (q1 m) (q2 m) xi - ((t - m : ℝ) : ℂ) • Spec.manB κ (q1' m) (q2' m) =
        Spec.manB κ (q1 t - q1 m - (t - m : ℝ) * q1' m) (q2 t - q2 m - (t - m : ℝ) * q2' m) := by
      ext i j; fin_cases i <;> fin_cases j <;> simp [manP, Spec.manA, Spec.manB] <;> ring
    rw [e]
    refine (norm_manB hκ (taylor (c11_of hq1) hL m t) (taylor (c11_of hq2) hL m t)).trans (le_of_eq ?_)
    ring

theorem man_one (hκ : |κ| = 1) (hd : man_upsampling_factor d = 1) (hD : 2 ≤ D) (hT : T0 < T1) (hq1 : Spec.Lip q1 T0 T1 Q L) (hq2 : Spec.Lip q2 T0 T1 Q L) (hL : 0 ≤ L)
    (hS : Spec.ManScattering κ q1 q2 T0 T1 xi a b1 b2) {h : ℝ} (hh : h = (T1 - T0) / (D - 1))
    (hU : ∀ n < D, ∃ U' : Spec.M3, ‖U' - NormedSpace.exp ((h : ℂ) • manP κ (q1 (T0 + n * h)) (q2 (T0 + n * h)) xi)‖ ≤ 8 * tail (h * (‖(xi : ℂ)‖ + 2 * (2 * Q))) ∧
      ‖U n - U'‖ ≤ h * Spec.manDelta Q h xi) :
    let e := Spec.err1 (T1 - T0) (2 * Q) (2 * L) h xi + Spec.manFloor (T1 - T0) Q h xi
    ‖Spec.manCoefA d (Spec.chain U D) T0 T1 h xi - a‖ ≤ e ∧ ‖Spec.manCoefB d (Spec.chain U D) T0 T1 h 1 xi - b1‖ ≤ e ∧ ‖Spec.manCoefB d (Spec.chain U D) T0 T1 h 2 xi - b2‖ ≤ e := by
  intro e
  have hD' : (2 : ℝ) ≤ D := by exact_mod_cast hD
  have hpos : 0 < h := by rw [hh]; exact div_pos (by linarith) (by linarith)
  have hDh : (D - 1 : ℝ) * h = T1 - T0 := by
    have h0 : (0 : ℝ) < D - 1 := by linarith
    rw [hh, mul_comm]
    exact div_mul_cancel₀ _ h0.ne'
  have hQ : 0 ≤ Q := (norm_nonneg _).trans (hq1.bound T0 ⟨le_rfl, hT.le⟩)
  obtain ⟨V, s1, s2, s3, e1, e2⟩ := extend3 hT hS (h / 2)
  have ht1 : (T0 - h / 2) + D * h = T1 + h / 2 := by linarith
  have hnode : ∀ n : ℕ, T0 - h / 2 + n * h + h / 2 = T0 + n * h := fun n => by ring
  have hnin : ∀ n : ℕ, n < D → T0 + n * h ∈ Icc T0 T1 := by
    intro n hn
    have : (n : ℝ) + 1 ≤ D := by exact_mod_cast hn
    have h0 : (0 : ℝ) ≤ n * h := by positivity
    exact ⟨by linarith, by nlinarith⟩
  have e3 : V (T0 - h / 2) = col3 (exp (-I * xi * (T0 - h / 2 : ℝ))) 0 0 := e1 _ (by linarith)
  have hV : ‖V (T0 - h / 2)‖ ≤ 1 := by rw [e3]; exact norm_col3 xi _
  -- the potentials, continued by the values at the ends
  let c : ℝ → ℝ := fun t => max T0 (min T1 t)
  have hc : ∀ t, c t ∈ Icc T0 T1 := fun t => ⟨le_max_left _ _, max_le hT.le (min_le_left _ _)⟩
  have hc' : ∀ t ∈ Icc T0 T1, c t = t := fun t ht => by simp only [c]; rw [min_eq_right ht.2, max_eq_right ht.1]
  have s2' : Sol (fun t => manP κ (q1 (c t)) (q2 (c t)) xi) V T0 T1 := fun t ht => (s2 t ht).congr_deriv (by simp only [hc' t ht])
  have hP : ∀ t, ‖manP κ (q1 (c t)) (q2 (c t)) xi‖ ≤ ‖(xi : ℂ)‖ + 2 * (2 * Q) := by
    intro t
    have := norm_manP hκ (hq1.bound _ (hc t)) (hq2.bound _ (hc t)) xi
    linarith
  choose! U' u1 u2 using hU
  have u1' : ∀ n < D, ‖U' n - NormedSpace.exp ((h : ℂ) • manP κ (q1 (c (T0 + n * h))) (q2 (c (T0 + n * h))) xi)‖ ≤
      8 * (tail (h * (‖(xi : ℂ)‖ + 2 * (2 * Q))) + (h * (‖(xi : ℂ)‖ + 2 * (2 * Q))) ^ 2 / 2) := by
    intro n hn
    rw [hc' _ (hnin n hn)]
    exact (u1 n hn).trans (by nlinarith [sq_nonneg (h * (‖(xi : ℂ)‖ + 2 * (2 * Q)))])
  have key := err_one (P := fun t => manP κ (q1 (c t)) (q2 (c t)) xi) (P0 := fun _ => manP κ 0 0 xi) (V := V)
    (Pn := fun n => manP κ (q1 (c (T0 + n * h))) (q2 (c (T0 + n * h))) xi) (U := U') (w := fun n => Spec.chain U' n * V (T0 - h / 2)) (N := D) (t0 := T0 - h / 2) (h := h)
    (M := ‖(xi : ℂ)‖ + 2 * (2 * Q)) (L := 2 * L) (Q := 2 * Q) (s0 := T0) (s1 := T1) hpos (by positivity) (by positivity) hD (by ring) (by linarith) s1 s2' (by rw [ht1]; exact s3)
    hP (fun t => ?_) (fun n => hP _) (fun n hn t ht => ?_) (fun n hn t => ?_) u1' (fun n hn => by simp only [chain_succ, mul_assoc]) (by simp [Spec.chain])
  · have hp := man_pert (U := U) (U' := U') (D := D) hpos.le (by positivity) (manDelta_nonneg hQ xi) (P := fun n => manP κ (q1 (c (T0 + n * h))) (q2 (c (T0 + n * h))) xi) (fun n _ => hP _)
      u1' u2 (V (T0 - h / 2)) hV
    have e4 : (D : ℝ) * h = T1 - T0 + h := by linarith
    rw [ht1, e4] at key
    rw [e4] at hp
    refine coef_err hd e3 (e2 _ (by linarith)) ?_
    have e5 : Spec.chain U D * V (T0 - h / 2) - V (T1 + h / 2) = (Spec.chain U' D * V (T0 - h / 2) - V (T1 + h / 2)) + (Spec.chain U D * V (T0 - h / 2) - Spec.chain U' D * V (T0 - h / 2)) := by abel
    rw [e5]
    refine (norm_add_le _ _).trans (add_le_add (key.trans ?_) (hp.trans (le_of_eq ?_)))
    · refine (mul_le_of_le_one_right ?_ hV).trans (le_of_eq ?_)
      · have : 0 ≤ T1 - T0 + h := by linarith
        positivity
      · rw [Spec.err1, Complex.norm_real, Real.norm_eq_abs]
    · rw [Spec.manFloor, Complex.norm_real, Real.norm_eq_abs]
      ring_nf
  · have := norm_manP (κ := κ) (q1 := 0) (q2 := 0) (Q := Q) hκ (by simpa) (by simpa) xi
    linarith
  · rw [hnode, hc' t ht, hc' _ (hnin n hn)]
    refine (norm_manP_sub hκ (hq1.lip _ ht _ (hnin n hn)) (hq2.lip _ ht _ (hnin n hn))).trans (le_of_eq ?_)
    ring
  · exact norm_manP_sub hκ (by rw [zero_sub, norm_neg]; exact hq1.bound _ (hc _)) (by rw [zero_sub, norm_neg]; exact hq2.bound _ (hc _))

theorem manFloor_abs (T Q h x : ℝ) : Spec.manFloor T Q h |x| = Spec.manFloor T Q h x := by
  unfold Spec.manFloor Spec.manDelta
  rw [abs_abs]

/-- The coefficient `a` in the upper half plane. -/
theorem man_two_upper {l : ℂ} (hl : 0 ≤ l.im) (hκ : |κ| = 1) (hd : man_upsampling_factor d = 1) (hD : 2 ≤ D) (hT : T0 < T1) (hq1 : Spec.Smooth q1 q1' T0 T1 Q K L)
    (hq2 : Spec.Smooth q2 q2' T0 T1 Q K L) (hL : 0 ≤ L) (hS : Spec.ManScattering κ q1 q2 T0 T1 l a b1 b2) {h : ℝ} (hh : h = (T1 - T0) / (D - 1))
    (hU : ∀ n < D, ∃ U' : Spec.M3, ‖U' - NormedSpace.exp ((h : ℂ) • manP κ (q1 (T0 + n * h)) (q2 (T0 + n * h)) l)‖ ≤ 8 * tail (h * (‖l‖ + 2 * (2 * Q))) ∧
      ‖U n - U'‖ ≤ h * Spec.manDelta Q h ‖l‖) :
    ‖Spec.manCoefA d (Spec.chain U D) T0 T1 h l - a‖ ≤ Spec.err2 (T1 - T0) (2 * Q) (2 * K) (2 * L) h ‖l‖ + Spec.manFloor (T1 - T0) Q h ‖l‖ := by
  have hD' : (2 : ℝ) ≤ D := by exact_mod_cast hD
  have hpos : 0 < h := by rw [hh]; exact div_pos (by linarith) (by linarith)
  have hDh : (D - 1 : ℝ) * h = T1 - T0 := by
    have h0 : (0 : ℝ) < D - 1 := by linarith
    rw [hh, mul_comm]
    exact div_mul_cancel₀ _ h0.ne'
  have hQ : 0 ≤ Q := (norm_nonneg _).trans (hq1.bound T0)
  have hK : 0 ≤ K := (norm_nonneg _).trans (hq1.bound' T0)
  obtain ⟨V, s1, s2, s3, e1, e2⟩ := extend3 hT hS (h / 2)
  have ht1 : (T0 - h / 2) + D * h = T1 + h / 2 := by linarith
  have hnode : ∀ n : ℕ, T0 - h / 2 + n * h + h / 2 = T0 + n * h := fun n => by ring
  have s1' : Sol (fun t => manP κ (q1 t) (q2 t) l) V (T0 - h / 2) T0 := fun t ht =>
    (s1 t ht).congr_deriv (by dsimp only; rw [hq1.supp t (Or.inl ht.2), hq2.supp t (Or.inl ht.2)])
  have s3' : Sol (fun t => manP κ (q1 t) (q2 t) l) V T1 (T1 + h / 2) := fun t ht =>
    (s3 t ht).congr_deriv (by dsimp only; rw [hq1.supp t (Or.inr ht.1), hq2.supp t (Or.inr ht.1)])
  have s := (s1'.union s2 (by linarith) hT.le).union s3' (by linarith) (by linarith)
  have e3 : V (T0 - h / 2) = col3 (exp (-I * l * (T0 - h / 2 : ℝ))) 0 0 := e1 _ (by linarith)
  have hV : ‖V (T0 - h / 2)‖ ≤ Real.exp (l.im * (T0 - h / 2)) := by
    rw [e3, col3_eq]
    refine linf3_le fun i => ?_
    have e4 : ‖exp (-I * l * (T0 - h / 2 : ℝ))‖ = Real.exp (l.im * (T0 - h / 2)) := by
      rw [Complex.norm_exp]; congr 1; simp [mul_assoc]
    fin_cases i
    · simpa using e4.le
    · simpa using (Real.exp_pos _).le
    · simpa using (Real.exp_pos _).le
  have hP : ∀ t, ‖manP κ (q1 t) (q2 t) l‖ ≤ ‖l‖ + 2 * (2 * Q) := by
    intro t
    have := norm_manP hκ (hq1.bound t) (hq2.bound t) l
    linarith
  choose! U' u1 u2 using hU
  have key := err_two (P := fun t => manP κ (q1 t) (q2 t) l) (V := V) (P1 := fun n => Spec.manB κ (q1' (T0 + n * h)) (q2' (T0 + n * h)))
    (U := U') (w := fun n => Spec.chain U' n * V (T0 - h / 2)) (N := D) (t0 := T0 - h / 2) (h := h) (M := ‖l‖ + 2 * (2 * Q)) (L := 2 * L) (K1 := 2 * K) hpos.le (by positivity) (by omega)
    (by rw [ht1]; exact s) (fun t _ => hP t) (fun n hn t ht => ?_) (fun n hn => norm_manB hκ (hq1.bound' _) (hq2.bound' _)) (fun n hn => by rw [hnode]; exact u1 n hn)
    (fun n hn => by simp only [chain_succ, mul_assoc]) (by simp [Spec.chain])
  · have hp := man_pertC (U := U) (U' := U') (D := D) hpos.le (by positivity) (manDelta_nonneg hQ ‖l‖) (P := fun n => manP κ (q1 (T0 + n * h)) (q2 (T0 + n * h)) l) (fun n _ => hP _)
      (fun n hn => (u1 n hn).trans (by nlinarith [sq_nonneg (h * (‖l‖ + 2 * (2 * Q)))])) u2 (V (T0 - h / 2))
    have e4 : (D : ℝ) * h = T1 - T0 + h := by linarith
    rw [ht1, e4] at key
    rw [e4] at hp
    have hp0 : 0 ≤ T1 - T0 + h := by linarith
    have tot : ‖Spec.chain U D * V (T0 - h / 2) - V (T1 + h / 2)‖ ≤
        (Spec.err2 (T1 - T0) (2 * Q) (2 * K) (2 * L) h ‖l‖ + Spec.manFloor (T1 - T0) Q h ‖l‖) * Real.exp (l.im * (T0 - h / 2)) := by
      have e5 : Spec.chain U D * V (T0 - h / 2) - V (T1 + h / 2) = (Spec.chain U' D * V (T0 - h / 2) - V (T1 + h / 2)) + (Spec.chain U D * V (T0 - h / 2) - Spec.chain U' D * V (T0 - h / 2)) := by abel
      rw [e5, add_mul]
      refine (norm_add_le _ _).trans (add_le_add (key.trans ?_) (hp.trans ?_))
      · have e6 : Spec.err2 (T1 - T0) (2 * Q) (2 * K) (2 * L) h ‖l‖ = Real.exp (7 * (‖l‖ + 2 * (2 * Q)) * (T1 - T0 + h)) * (T1 - T0 + h) *
            ((2 * L + 2 * (2 * K) * (‖l‖ + 2 * (2 * Q))) / 4 + 4 / 3 * (‖l‖ + 2 * (2 * Q)) ^ 3) * h ^ 2 := by
          rw [Spec.err2, abs_norm]
        rw [e6]
        exact mul_le_mul_of_nonneg_left hV (by positivity)
      · have e6 : Spec.manFloor (T1 - T0) Q h ‖l‖ = (T1 - T0 + h) * Spec.manDelta Q h ‖l‖ * Real.exp ((T1 - T0 + h) * (5 * (‖l‖ + 2 * (2 * Q)) + Spec.manDelta Q h ‖l‖)) := by
          rw [Spec.manFloor, abs_norm]
          ring_nf
        rw [e6]
        have := manDelta_nonneg (h := h) hQ ‖l‖
        exact mul_le_mul_of_nonneg_left hV (by positivity)
    have k := (entry3_le _ 0 0).trans tot
    rw [Matrix.sub_apply, e2 (T1 + h / 2) (by linarith), col3_eq] at k
    have m : (Spec.chain U D * V (T0 - h / 2)) 0 0 = Spec.manPhi (Spec.chain U D) (T0 - h / 2) l 0 := by
      rw [e3, col3_eq, Spec.manPhi, Matrix.mul_apply, Matrix.mulVec, dotProduct, Fin.sum_univ_three, Fin.sum_univ_three]
      simp
    rw [m] at k
    unfold Spec.manCoefA Spec.manTL Spec.manTR
    rw [if_pos hd, if_pos hd]
    have inv : exp (-I * l * (T1 + h / 2 : ℝ)) * exp (I * l * (T1 + h / 2 : ℝ)) = 1 := by rw [← exp_add]; simp
    have e7 : Spec.manPhi (Spec.chain U D) (T0 - h / 2) l 0 * exp (I * l * (T1 + h / 2 : ℝ)) - a =
        (Spec.manPhi (Spec.chain U D) (T0 - h / 2) l 0 - a * exp (-I * l * (T1 + h / 2 : ℝ))) * exp (I * l * (T1 + h / 2 : ℝ)) := by
      linear_combination a * inv
    have e8 : ‖exp (I * l * (T1 + h / 2 : ℝ))‖ = Real.exp (-(l.im * (T1 + h / 2))) := by
      rw [Complex.norm_exp]; congr 1; simp [mul_assoc]
    rw [e7, norm_mul, e8]
    have k' : ‖Spec.manPhi (Spec.chain U D) (T0 - h / 2) l 0 - a * exp (-I * l * (T1 + h / 2 : ℝ))‖ ≤
        (Spec.err2 (T1 - T0) (2 * Q) (2 * K) (2 * L) h ‖l‖ + Spec.manFloor (T1 - T0) Q h ‖l‖) * Real.exp (l.im * (T0 - h / 2)) := by simpa using k
    refine (mul_le_mul_of_nonneg_right k' (Real.exp_pos _).le).trans ?_
    rw [mul_assoc, ← Real.exp_add]
    refine mul_le_of_le_one_right ?_ ?_
    · have h1 : 0 ≤ Spec.err2 (T1 - T0) (2 * Q) (2 * K) (2 * L) h ‖l‖ := by
        unfold Spec.err2
        have := abs_nonneg ‖l‖
        have : 0 ≤ T1 - T0 := by linarith
        positivity
      have h2 : 0 ≤ Spec.manFloor (T1 - T0) Q h ‖l‖ := by
        unfold Spec.manFloor
        have := manDelta_nonneg (h := h) hQ ‖l‖
        positivity
      linarith
    · rw [Real.exp_le_one_iff]
      have := mul_nonneg hl hp0
      nlinarith
  · rw [hnode]
    generalize T0 + (n : ℝ) * h = m
    have e : manP κ (q1 t) (q2 t) l - manP κ (q1 m) (q2 m) l - ((t - m : ℝ) : ℂ) • Spec.manB κ (q1' m) (q2' m) =
        Spec.manB κ (q1 t - q1 m - (t - m : ℝ) * q1' m) (q2 t - q2 m - (t - m : ℝ) * q2' m) := by
      ext i j; fin_cases i <;> fin_cases j <;> simp [manP, Spec.manA, Spec.manB] <;> ring
    rw [e]
    refine (norm_manB hκ (taylor (c11_of hq1) hL m t) (taylor (c11_of hq2) hL m t)).trans (le_of_eq ?_)
    ring

end FNFT.Conv

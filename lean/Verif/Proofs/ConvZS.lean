import Verif.Spec.Converge
import Verif.Proofs.ConvNse
import Verif.Proofs.ConvGlobal
import Verif.Proofs.NsevBase
/-!
# Convergence of the discretizations to the scattering coefficients of the continuous problem
-/
set_option linter.unusedSectionVars false
set_option linter.unusedVariables false
namespace FNFT.Conv
open Set Complex
attribute [local instance] Matrix.linftyOpNormedRing
noncomputable local instance m2Algebra : NormedAlgebra ℂ Spec.M2 := Matrix.linftyOpNormedAlgebra

/-- First column. -/
noncomputable def col (x y : ℂ) : Spec.M2 := x • !![1, 0; 0, 0] + y • !![0, 0; 1, 0]

theorem col_eq (x y : ℂ) : col x y = !![x, 0; y, 0] := by
  ext i j; fin_cases i <;> fin_cases j <;> simp [col]

theorem sol_of {q r v1 v2 : ℝ → ℂ} {l : ℂ} {a b : ℝ}
    (h : ∀ t ∈ Icc a b, HasDerivWithinAt v1 (-I * l * v1 t + q t * v2 t) (Icc a b) t ∧
      HasDerivWithinAt v2 (r t * v1 t + I * l * v2 t) (Icc a b) t) :
    Sol (fun t => Spec.aknsP (q t) (r t) l) (fun t => col (v1 t) (v2 t)) a b := by
  intro t ht
  have := ((h t ht).1.smul_const (!![1, 0; 0, 0] : Spec.M2)).add ((h t ht).2.smul_const (!![0, 0; 1, 0] : Spec.M2))
  refine this.congr_deriv ?_
  dsimp only
  rw [col_eq]
  ext i j; fin_cases i <;> fin_cases j <;> simp [Spec.aknsP]

theorem Sol.congr {P V V' : ℝ → Spec.M2} {a b : ℝ} (h : Sol P V a b) (e : ∀ t ∈ Icc a b, V' t = V t) : Sol P V' a b :=
  fun t ht => ((h t ht).congr e (e t ht)).congr_deriv (by rw [e t ht])

theorem free_sol (l x y : ℂ) (a b : ℝ) :
    Sol (fun _ => Spec.aknsP 0 0 l) (fun t : ℝ => col (x * exp (-I * l * t)) (y * exp (I * l * t))) a b := by
  have hd : ∀ (c : ℂ) (t : ℝ), HasDerivAt (fun t : ℝ => exp (c * t)) (c * exp (c * t)) t := by
    intro c t
    have h1 : HasDerivAt (fun t : ℝ => c * (t : ℂ)) (c * 1) t := (Complex.ofRealCLM.hasDerivAt (x := t)).const_mul c
    refine h1.cexp.congr_deriv ?_
    ring
  refine sol_of (q := fun _ => 0) (r := fun _ => 0) fun t _ => ⟨?_, ?_⟩
  · refine (((hd (-I * l) t).const_mul x).congr_deriv ?_).hasDerivWithinAt
    ring
  · refine (((hd (I * l) t).const_mul y).congr_deriv ?_).hasDerivWithinAt
    ring

/-- The solution outside of `[T0, T1]`. -/
theorem extend {q r : ℝ → ℂ} {T0 T1 : ℝ} {l a b : ℂ} (hT : T0 < T1) (h : Spec.Scattering q r T0 T1 l a b) (k : ℝ) :
    ∃ V : ℝ → Spec.M2, Sol (fun _ => Spec.aknsP 0 0 l) V (T0 - k) T0 ∧ Sol (fun t => Spec.aknsP (q t) (r t) l) V T0 T1 ∧
      Sol (fun _ => Spec.aknsP 0 0 l) V T1 (T1 + k) ∧
      (∀ t, t ≤ T0 → V t = col (exp (-I * l * t)) 0) ∧ (∀ t, T1 ≤ t → V t = col (a * exp (-I * l * t)) (b * exp (I * l * t))) := by
  obtain ⟨v1, v2, h1, h2, h3, h4, h5⟩ := h
  let V : ℝ → Spec.M2 := fun t => if t ≤ T0 then col (exp (-I * l * t)) 0 else if t < T1 then col (v1 t) (v2 t) else
    col (a * exp (-I * l * t)) (b * exp (I * l * t))
  have e1 : ∀ t, t ≤ T0 → V t = col (exp (-I * l * t)) 0 := fun t ht => if_pos ht
  have e3 : ∀ t, T1 ≤ t → V t = col (a * exp (-I * l * t)) (b * exp (I * l * t)) := fun t ht =>
    (if_neg (by linarith : ¬ t ≤ T0)).trans (if_neg (by linarith : ¬ t < T1))
  have e2 : ∀ t ∈ Icc T0 T1, V t = col (v1 t) (v2 t) := by
    intro t ht
    rcases eq_or_lt_of_le ht.1 with rfl | hlt
    · rw [e1 _ le_rfl, h2, h3]
    · rcases eq_or_lt_of_le ht.2 with rfl | hlt'
      · rw [e3 _ le_rfl, h4, h5]
      · exact (if_neg (not_le.mpr hlt)).trans (if_pos hlt')
  refine ⟨V, ?_, (sol_of h1).congr e2, (free_sol l a b _ _).congr fun t ht => e3 t ht.1, e1, e3⟩
  refine (free_sol l 1 0 _ _).congr fun t ht => ?_
  rw [e1 t ht.2, one_mul, zero_mul]

theorem norm_exp_neg (l : ℂ) (t : ℝ) : ‖exp (-I * l * t)‖ = Real.exp (l.im * t) := by
  rw [norm_exp]; congr 1; simp

theorem norm_exp_pos (l : ℂ) (t : ℝ) : ‖exp (I * l * t)‖ = Real.exp (-(l.im * t)) := by
  rw [norm_exp]; congr 1; simp

/-- The factors by which the errors of `a` and `b` differ from those of the solution. -/
theorem jost_err {S : Spec.M2} {V0 V1 : Spec.M2} {T0 T1 h e : ℝ} {a b l : ℂ}
    (h0 : V0 = col (exp (-I * l * (T0 - h / 2 : ℝ))) 0) (h1 : V1 = col (a * exp (-I * l * (T1 + h / 2 : ℝ))) (b * exp (I * l * (T1 + h / 2 : ℝ))))
    (he : ‖S * V0 - V1‖ ≤ e * Real.exp (l.im * (T0 - h / 2))) :
    ‖Spec.jostA S T0 T1 h l - a‖ ≤ e * Real.exp (-(l.im * (T1 - T0 + h))) ∧ ‖Spec.jostB S T0 T1 h l - b‖ ≤ e * Real.exp (l.im * (T0 + T1)) := by
  have m : ∀ i, (S * V0) i 0 = (S.mulVec ![exp (-I * l * (T0 - h / 2 : ℝ)), 0]) i := by
    intro i
    rw [h0, col_eq, Matrix.mul_apply, Matrix.mulVec, dotProduct, Fin.sum_univ_two, Fin.sum_univ_two]
    simp
  constructor
  · have k := (entry_le (S * V0 - V1) 0 0).trans he
    rw [Matrix.sub_apply, m, h1, col_eq] at k
    have e1 : Spec.jostA S T0 T1 h l - a = ((S.mulVec ![exp (-I * l * (T0 - h / 2 : ℝ)), 0]) 0 - a * exp (-I * l * (T1 + h / 2 : ℝ))) /
        exp (-I * l * (T1 + h / 2 : ℝ)) := by
      rw [Spec.jostA, sub_div, mul_div_cancel_right₀ _ (exp_ne_zero _)]
    rw [e1, norm_div, norm_exp_neg, div_le_iff₀ (Real.exp_pos _), mul_assoc e, ← Real.exp_add]
    have e2 : -(l.im * (T1 - T0 + h)) + l.im * (T1 + h / 2) = l.im * (T0 - h / 2) := by ring
    rw [e2]
    simpa using k
  · have k := (entry_le (S * V0 - V1) 1 0).trans he
    rw [Matrix.sub_apply, m, h1, col_eq] at k
    have e1 : Spec.jostB S T0 T1 h l - b = ((S.mulVec ![exp (-I * l * (T0 - h / 2 : ℝ)), 0]) 1 - b * exp (I * l * (T1 + h / 2 : ℝ))) /
        exp (I * l * (T1 + h / 2 : ℝ)) := by
      rw [Spec.jostB, sub_div, mul_div_cancel_right₀ _ (exp_ne_zero _)]
    rw [e1, norm_div, norm_exp_pos, div_le_iff₀ (Real.exp_pos _), mul_assoc e, ← Real.exp_add]
    have e2 : l.im * (T0 + T1) + -(l.im * (T1 + h / 2)) = l.im * (T0 - h / 2) := by ring
    rw [e2]
    simpa using k

theorem norm_V0 (l : ℂ) (t : ℝ) : ‖col (exp (-I * l * t)) 0‖ ≤ Real.exp (l.im * t) := by
  refine linf_le fun i => ?_
  rw [col_eq, ← norm_exp_neg]
  fin_cases i
  · simp
  · simp

theorem norm_aknsP_sub (q r q' r' l : ℂ) {c : ℝ} (h1 : ‖q - q'‖ ≤ c) (h2 : ‖r - r'‖ ≤ c) : ‖Spec.aknsP q r l - Spec.aknsP q' r' l‖ ≤ c := by
  refine linf_le fun i => ?_
  fin_cases i <;> simp [Spec.aknsP]
  · exact h1
  · exact h2

variable {q q' r r' : ℝ → ℂ} {T0 T1 Q K L : ℝ} {A B xi : ℂ} {D : ℕ} {U : ℕ → Spec.M2}

/-- Error of a chain of steps; outside of `[T0, T1]`, the potentials have the constant values `q0`, `r0`. -/
theorem core_one (hD : 2 ≤ D) (hT : T0 < T1) (hq : Spec.Lip q T0 T1 Q L) (hr : Spec.Lip r T0 T1 Q L) (hL : 0 ≤ L) {q0 r0 : ℂ} (hq0 : ‖q0‖ ≤ Q) (hr0 : ‖r0‖ ≤ Q)
    (hq1 : ∀ t ∈ Icc T0 T1, ‖q0 - q t‖ ≤ Q) (hr1 : ∀ t ∈ Icc T0 T1, ‖r0 - r t‖ ≤ Q) {h : ℝ} (hh : h = (T1 - T0) / (D - 1)) {V : ℝ → Spec.M2}
    (s1 : Sol (fun _ => Spec.aknsP q0 r0 xi) V (T0 - h / 2) T0) (s2 : Sol (fun t => Spec.aknsP (q t) (r t) xi) V T0 T1)
    (s3 : Sol (fun _ => Spec.aknsP q0 r0 xi) V T1 (T1 + h / 2))
    (hU : ∀ n < D, ‖U n - NormedSpace.exp ((h : ℂ) • Spec.aknsP (q (T0 + n * h)) (r (T0 + n * h)) xi)‖ ≤
      8 * (tail (h * ‖xi‖ + h * (2 * Q)) + (h * ‖xi‖ + h * (2 * Q)) ^ 2 / 2)) :
    ‖Spec.chain U D * V (T0 - h / 2) - V (T1 + h / 2)‖ ≤ Spec.err1 (T1 - T0) Q L h ‖xi‖ * ‖V (T0 - h / 2)‖ := by
  have hD' : (2 : ℝ) ≤ D := by exact_mod_cast hD
  have hpos : 0 < h := by rw [hh]; exact div_pos (by linarith) (by linarith)
  have hDh : (D - 1 : ℝ) * h = T1 - T0 := by 
    have h0 : (0 : ℝ) < D - 1 := by linarith
    rw [hh, mul_comm]
    exact div_mul_cancel₀ _ h0.ne'
  have hQ : 0 ≤ Q := (norm_nonneg _).trans (hq.bound T0 ⟨le_rfl, hT.le⟩)
  have ht1 : (T0 - h / 2) + D * h = T1 + h / 2 := by linarith
  have hnode : ∀ n : ℕ, T0 - h / 2 + n * h + h / 2 = T0 + n * h := fun n => by ring
  have hnin : ∀ n : ℕ, n < D → T0 + n * h ∈ Icc T0 T1 := by
    intro n hn
    have : (n : ℝ) + 1 ≤ D := by exact_mod_cast hn
    have h0 : (0 : ℝ) ≤ n * h := by positivity
    exact ⟨by linarith, by nlinarith⟩
  -- the potentials, continued by the values at the ends
  let c : ℝ → ℝ := fun t => max T0 (min T1 t)
  have hc : ∀ t, c t ∈ Icc T0 T1 := fun t => ⟨le_max_left _ _, max_le hT.le (min_le_left _ _)⟩
  have hc' : ∀ t ∈ Icc T0 T1, c t = t := fun t ht => by simp only [c]; rw [min_eq_right ht.2, max_eq_right ht.1]
  have s2' : Sol (fun t => Spec.aknsP (q (c t)) (r (c t)) xi) V T0 T1 := fun t ht => (s2 t ht).congr_deriv (by simp only [hc' t ht])
  obtain ⟨w, hw⟩ : ∃ w : ℕ → Spec.M2, w = fun n => Spec.chain U n * V (T0 - h / 2) := ⟨_, rfl⟩
  have key := err_one (P := fun t => Spec.aknsP (q (c t)) (r (c t)) xi) (P0 := fun _ => Spec.aknsP q0 r0 xi) (V := V)
    (Pn := fun n => Spec.aknsP (q (c (T0 + n * h))) (r (c (T0 + n * h))) xi) (U := U) (w := w) (N := D) (t0 := T0 - h / 2) (h := h)
    (M := ‖xi‖ + 2 * Q) (L := L) (Q := Q) (s0 := T0) (s1 := T1) hpos hL hQ hD (by ring) (by linarith) s1 s2' (by rw [ht1]; exact s3)
    (fun t => ?_) (fun t => ?_) (fun n => ?_) (fun n hn t ht => ?_) (fun n hn t => ?_) (fun n hn => ?_) (fun n hn => ?_) ?_
  · rw [ht1, hw] at key
    refine key.trans (le_of_eq ?_)
    have e4 : (D : ℝ) * h = T1 - T0 + h := by linarith
    rw [e4, Spec.err1, abs_of_nonneg (norm_nonneg xi)]
  · have := norm_aknsP (l := xi) (hq.bound _ (hc t)) (hr.bound _ (hc t))
    linarith
  · have := norm_aknsP (l := xi) hq0 hr0
    linarith
  · have := norm_aknsP (l := xi) (hq.bound _ (hc (T0 + n * h))) (hr.bound _ (hc (T0 + n * h)))
    linarith
  · rw [hnode]
    rw [hc' t ht, hc' _ (hnin n hn)]
    exact norm_aknsP_sub _ _ _ _ _ (hq.lip _ ht _ (hnin n hn)) (hr.lip _ ht _ (hnin n hn))
  · exact norm_aknsP_sub _ _ _ _ _ (hq1 _ (hc _)) (hr1 _ (hc _))
  · have := hU n hn
    rw [hc' _ (hnin n hn), mul_add h]
    exact this
  · rw [hw]; simp only [chain_succ, mul_assoc]
  · rw [hw]; simp [Spec.chain]

theorem conv_one (hD : 2 ≤ D) (hT : T0 < T1) (hq : Spec.Lip q T0 T1 Q L) (hr : Spec.Lip r T0 T1 Q L) (hL : 0 ≤ L)
    (hS : Spec.Scattering q r T0 T1 xi A B) {h : ℝ} (hh : h = (T1 - T0) / (D - 1))
    (hU : ∀ n < D, ‖U n - NormedSpace.exp ((h : ℂ) • Spec.aknsP (q (T0 + n * h)) (r (T0 + n * h)) xi)‖ ≤
      8 * (tail (h * ‖xi‖ + h * (2 * Q)) + (h * ‖xi‖ + h * (2 * Q)) ^ 2 / 2)) :
    ‖Spec.jostA (Spec.chain U D) T0 T1 h xi - A‖ ≤ Spec.err1 (T1 - T0) Q L h ‖xi‖ * Real.exp (-(xi.im * (T1 - T0 + h))) ∧
    ‖Spec.jostB (Spec.chain U D) T0 T1 h xi - B‖ ≤ Spec.err1 (T1 - T0) Q L h ‖xi‖ * Real.exp (xi.im * (T0 + T1)) := by
  have hD' : (2 : ℝ) ≤ D := by exact_mod_cast hD
  have hpos : 0 < h := by rw [hh]; exact div_pos (by linarith) (by linarith)
  have hQ : 0 ≤ Q := (norm_nonneg _).trans (hq.bound T0 ⟨le_rfl, hT.le⟩)
  obtain ⟨V, s1, s2, s3, e1, e2⟩ := extend hT hS (h / 2)
  have key := core_one hD hT hq hr hL (q0 := 0) (r0 := 0) (by simpa) (by simpa) (fun t ht => by simpa using hq.bound t ht)
    (fun t ht => by simpa using hr.bound t ht) hh s1 s2 s3 hU
  have e3 : V (T0 - h / 2) = col (exp (-I * xi * (T0 - h / 2 : ℝ))) 0 := e1 _ (by linarith)
  refine jost_err e3 (e2 _ (by linarith)) (key.trans ?_)
  rw [e3]
  have hT' : 0 < T1 - T0 := by linarith
  refine mul_le_mul_of_nonneg_left (norm_V0 xi (T0 - h / 2)) ?_
  unfold Spec.err1
  positivity

/-- A function with Lipschitz continuous derivative. -/
structure C11 (q q' : ℝ → ℂ) (Q K L : ℝ) : Prop where
  deriv : ∀ t, HasDerivAt q (q' t) t
  bound : ∀ t, ‖q t‖ ≤ Q
  bound' : ∀ t, ‖q' t‖ ≤ K
  lip : ∀ s t, ‖q' s - q' t‖ ≤ L * |s - t|

theorem c11_of (h : Spec.Smooth q q' T0 T1 Q K L) : C11 q q' Q K L := ⟨h.deriv, h.bound, h.bound', h.lip⟩

theorem taylor (hq : C11 q q' Q K L) (hL : 0 ≤ L) (m t : ℝ) : ‖q t - q m - (t - m : ℝ) * q' m‖ ≤ L * (t - m) ^ 2 := by
  have hd : ∀ s, HasDerivAt (fun s : ℝ => q s - q m - (s - m : ℝ) * q' m) (q' s - q' m) s := by
    intro s
    have h1 : HasDerivAt (fun s : ℝ => ((s - m : ℝ) : ℂ)) 1 s := by
      have := ((hasDerivAt_id s).sub_const m).ofReal_comp
      simpa using this
    refine (((hq.deriv s).sub_const (q m)).sub (h1.mul_const (q' m))).congr_deriv ?_
    rw [one_mul]
  have key := (convex_uIcc m t).norm_image_sub_le_of_norm_hasDerivWithin_le (f := fun s : ℝ => q s - q m - (s - m : ℝ) * q' m)
    (f' := fun s => q' s - q' m) (C := L * |t - m|) (fun s _ => (hd s).hasDerivWithinAt) (fun s hs => ?_) left_mem_uIcc right_mem_uIcc
  · simp only [sub_self, ofReal_zero, zero_mul, sub_zero] at key
    rw [Real.norm_eq_abs, mul_assoc, ← sq, sq_abs] at key
    exact key
  · exact (hq.lip s m).trans (mul_le_mul_of_nonneg_left (abs_sub_left_of_mem_uIcc hs) hL)

/-- Error of a chain of `D` steps of length `h`, starting at `t0`. -/
theorem core_two (hD : 1 ≤ D) (hq : C11 q q' Q K L) (hr : C11 r r' Q K L) (hL : 0 ≤ L) {t0 h : ℝ} (hpos : 0 ≤ h) {V : ℝ → Spec.M2}
    (s : Sol (fun t => Spec.aknsP (q t) (r t) xi) V t0 (t0 + D * h))
    (hU : ∀ n < D, ‖U n - NormedSpace.exp ((h : ℂ) • Spec.aknsP (q (t0 + n * h + h / 2)) (r (t0 + n * h + h / 2)) xi)‖ ≤ 8 * tail (h * ‖xi‖ + h * (2 * Q))) :
    ‖Spec.chain U D * V t0 - V (t0 + D * h)‖ ≤ Spec.err2 (D * h - h) Q K L h ‖xi‖ * ‖V t0‖ := by
  have hP : ∀ t, ‖Spec.aknsP (q t) (r t) xi‖ ≤ ‖xi‖ + 2 * Q := by
    intro t
    have := norm_aknsP (l := xi) (hq.bound t) (hr.bound t)
    linarith [(norm_nonneg _).trans (hq.bound t)]
  obtain ⟨w, hw⟩ : ∃ w : ℕ → Spec.M2, w = fun n => Spec.chain U n * V t0 := ⟨_, rfl⟩
  have key := err_two (P := fun t => Spec.aknsP (q t) (r t) xi) (V := V) (P1 := fun n => Spec.aknsPt (q' (t0 + n * h + h / 2)) (r' (t0 + n * h + h / 2)))
    (U := U) (w := w) (N := D) (t0 := t0) (h := h) (M := ‖xi‖ + 2 * Q) (L := L) (K1 := K) hpos hL hD
    s (fun t _ => hP t) (fun n hn t ht => ?_) (fun n hn => ?_) (fun n hn => ?_) (fun n hn => ?_) ?_
  · rw [hw] at key
    refine key.trans (le_of_eq ?_)
    rw [Spec.err2, abs_of_nonneg (norm_nonneg xi), sub_add_cancel]
  · generalize t0 + n * h + h / 2 = m
    have e : Spec.aknsP (q t) (r t) xi - Spec.aknsP (q m) (r m) xi - ((t - m : ℝ) : ℂ) • Spec.aknsPt (q' m) (r' m) =
        Spec.aknsPt (q t - q m - (t - m : ℝ) * q' m) (r t - r m - (t - m : ℝ) * r' m) := by
      ext i j; fin_cases i <;> fin_cases j <;> simp [Spec.aknsP, Spec.aknsPt]
    rw [e]
    refine linf_le fun i => ?_
    have t1 := taylor hq hL m t
    have t2 := taylor hr hL m t
    fin_cases i
    · simpa [Spec.aknsPt] using t1
    · simpa [Spec.aknsPt] using t2
  · refine linf_le fun i => ?_
    fin_cases i
    · simpa [Spec.aknsPt] using hq.bound' (t0 + n * h + h / 2)
    · simpa [Spec.aknsPt] using hr.bound' (t0 + n * h + h / 2)
  · have := hU n hn
    rw [mul_add h]
    exact this
  · rw [hw]; simp only [chain_succ, mul_assoc]
  · rw [hw]; simp [Spec.chain]

theorem conv_two (hD : 2 ≤ D) (hT : T0 < T1) (hq : Spec.Smooth q q' T0 T1 Q K L) (hr : Spec.Smooth r r' T0 T1 Q K L) (hL : 0 ≤ L)
    (hS : Spec.Scattering q r T0 T1 xi A B) {h : ℝ} (hh : h = (T1 - T0) / (D - 1))
    (hU : ∀ n < D, ‖U n - NormedSpace.exp ((h : ℂ) • Spec.aknsP (q (T0 + n * h)) (r (T0 + n * h)) xi)‖ ≤ 8 * tail (h * ‖xi‖ + h * (2 * Q))) :
    ‖Spec.jostA (Spec.chain U D) T0 T1 h xi - A‖ ≤ Spec.err2 (T1 - T0) Q K L h ‖xi‖ * Real.exp (-(xi.im * (T1 - T0 + h))) ∧
    ‖Spec.jostB (Spec.chain U D) T0 T1 h xi - B‖ ≤ Spec.err2 (T1 - T0) Q K L h ‖xi‖ * Real.exp (xi.im * (T0 + T1)) := by
  have hD' : (2 : ℝ) ≤ D := by exact_mod_cast hD
  have hpos : 0 < h := by rw [hh]; exact div_pos (by linarith) (by linarith)
  have hDh : (D - 1 : ℝ) * h = T1 - T0 := by 
    have h0 : (0 : ℝ) < D - 1 := by linarith
    rw [hh, mul_comm]
    exact div_mul_cancel₀ _ h0.ne'
  have hQ : 0 ≤ Q := (norm_nonneg _).trans (hq.bound T0)
  have hK : 0 ≤ K := (norm_nonneg _).trans (hq.bound' T0)
  obtain ⟨V, s1, s2, s3, e1, e2⟩ := extend hT hS (h / 2)
  have ht1 : (T0 - h / 2) + D * h = T1 + h / 2 := by linarith
  have hnode : ∀ n : ℕ, T0 - h / 2 + n * h + h / 2 = T0 + n * h := fun n => by ring
  have s1' : Sol (fun t => Spec.aknsP (q t) (r t) xi) V (T0 - h / 2) T0 := fun t ht =>
    (s1 t ht).congr_deriv (by dsimp only; rw [hq.supp t (Or.inl ht.2), hr.supp t (Or.inl ht.2)])
  have s3' : Sol (fun t => Spec.aknsP (q t) (r t) xi) V T1 (T1 + h / 2) := fun t ht =>
    (s3 t ht).congr_deriv (by dsimp only; rw [hq.supp t (Or.inr ht.1), hr.supp t (Or.inr ht.1)])
  have s := (s1'.union s2 (by linarith) hT.le).union s3' (by linarith) (by linarith)
  have key := core_two (U := U) (D := D) (by omega) (c11_of hq) (c11_of hr) hL hpos.le (by rw [ht1]; exact s) (fun n hn => by rw [hnode]; exact hU n hn)
  rw [ht1, show (D : ℝ) * h - h = T1 - T0 by linarith] at key
  have e3 : V (T0 - h / 2) = col (exp (-I * xi * (T0 - h / 2 : ℝ))) 0 := e1 _ (by linarith)
  refine jost_err e3 (e2 _ (by linarith)) (key.trans ?_)
  rw [e3]
  have hT' : 0 < T1 - T0 := by linarith
  refine mul_le_mul_of_nonneg_left (norm_V0 xi (T0 - h / 2)) ?_
  unfold Spec.err2
  positivity

theorem err_real {T h : ℝ} (xi : ℝ) : Spec.err1 T Q L h ‖(xi : ℂ)‖ = Spec.err1 T Q L h xi ∧ Spec.err2 T Q K L h ‖(xi : ℂ)‖ = Spec.err2 T Q K L h xi := by
  unfold Spec.err1 Spec.err2
  rw [Complex.norm_real, Real.norm_eq_abs, abs_abs]
  exact ⟨rfl, rfl⟩
end FNFT.Conv

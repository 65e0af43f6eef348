import Verif.Spec.KdvConverge
import Verif.Spec.Kdv
import Verif.Proofs.ConvZS
import Verif.Props.Kdvv
/-!
# Convergence of the discretizations to the scattering coefficients of the Schroedinger operator
-/
set_option linter.unusedSectionVars false
set_option linter.unusedVariables false
namespace FNFT.Conv
open Set Complex
attribute [local instance] Matrix.linftyOpNormedRing
noncomputable local instance m2AlgebraK : NormedAlgebra ℂ Spec.M2 := Matrix.linftyOpNormedAlgebra

theorem Sol.mul_left {P P' V : ℝ → Spec.M2} {F : Spec.M2} {a b : ℝ} (h : Sol P V a b) (e : ∀ t ∈ Icc a b, F * P t = P' t * F) :
    Sol P' (fun t => F * V t) a b := fun t ht =>
  ((h t ht).const_mul F).congr_deriv (by rw [← mul_assoc, e t ht, mul_assoc])

theorem kdvP_fromS (van : Bool) (l : ℂ) : Spec.fromS true van l * Spec.aknsP 0 0 l = Spec.kdvP van 0 l * Spec.fromS true van l := by
  cases van <;> ext i j <;> fin_cases i <;> fin_cases j <;> simp [Spec.fromS, Spec.kdvP, Spec.aknsP, Matrix.mul_apply, Fin.sum_univ_two]
  all_goals ring

theorem kdv_det (van : Bool) {l : ℂ} (hl : l ≠ 0) : IsUnit (Spec.fromS true van l).det := by
  refine isUnit_iff_ne_zero.mpr ?_
  cases van <;> simp [Spec.fromS, Matrix.det_fin_two, hl]

theorem kdv_inv (van : Bool) {l : ℂ} (hl : l ≠ 0) : (Spec.fromS true van l)⁻¹ =
    if van then !![1 / (2 * I * l), 0; -1 / (2 * I * l), 1] else !![1, 1 / (2 * I * l); 0, -1 / (2 * I * l)] := by
  have hI : I * l ≠ 0 := mul_ne_zero I_ne_zero hl
  refine Matrix.inv_eq_left_inv ?_
  cases van <;> ext i j <;> fin_cases i <;> fin_cases j <;> simp [Spec.fromS, Matrix.mul_apply, Fin.sum_univ_two]
  all_goals field_simp
  all_goals ring_nf
  all_goals simp

theorem norm_fromS (van : Bool) (l : ℂ) : ‖Spec.fromS true van l‖ ≤ 2 * ‖l‖ + 2 := by
  refine linf_le fun i => ?_
  have := norm_nonneg l
  cases van <;> fin_cases i <;> simp [Spec.fromS]
  all_goals linarith

theorem norm_fromS_inv (van : Bool) {l : ℂ} (hl : l ≠ 0) : ‖(Spec.fromS true van l)⁻¹‖ ≤ 1 + 1 / (2 * ‖l‖) := by
  rw [kdv_inv van hl]
  have h0 := norm_pos_iff.mpr hl
  have h1 : 0 ≤ ‖l‖⁻¹ := by positivity
  refine linf_le fun i => ?_
  cases van <;> fin_cases i <;> simp <;> linarith

/-- Vector of the AKNS system. -/
noncomputable def kdvVec (van : Bool) (l p p' : ℂ) : Spec.M2 := if van then col (I * l * p - p') p else col p (-I * l * p - p')

theorem kdvVec_free (van : Bool) (l x y : ℂ) : kdvVec van l (x + y) (-I * l * x + I * l * y) = Spec.fromS true van l * col x y := by
  rw [col_eq]
  cases van
  · rw [kdvVec, if_neg (by simp), col_eq]
    ext i j; fin_cases i <;> fin_cases j <;> simp [Spec.fromS, Matrix.mul_apply, Fin.sum_univ_two]
    ring
  · rw [kdvVec, if_pos rfl, col_eq]
    ext i j; fin_cases i <;> fin_cases j <;> simp [Spec.fromS, Matrix.mul_apply, Fin.sum_univ_two]
    ring

theorem kdv_sol {q psi psi' : ℝ → ℂ} {l : ℂ} {a b : ℝ} (van : Bool) (h : ∀ t ∈ Icc a b, HasDerivWithinAt psi (psi' t) (Icc a b) t ∧
      HasDerivWithinAt psi' (-(q t + l ^ 2) * psi t) (Icc a b) t) :
    Sol (fun t => Spec.kdvP van (q t) l) (fun t => kdvVec van l (psi t) (psi' t)) a b := by
  have hsq : I * I = -1 := I_mul_I
  cases van
  · refine (sol_of (q := fun _ => -1) (r := q) (v1 := psi) (v2 := fun t => -I * l * psi t - psi' t) fun t ht => ⟨?_, ?_⟩ : Sol _ _ a b)
    · refine (h t ht).1.congr_deriv ?_
      ring
    · refine (((h t ht).1.const_mul (-I * l)).sub (h t ht).2).congr_deriv ?_
      linear_combination (l ^ 2 * psi t) * hsq
  · refine (sol_of (q := q) (r := fun _ => -1) (v1 := fun t => I * l * psi t - psi' t) (v2 := psi) fun t ht => ⟨?_, ?_⟩ : Sol _ _ a b)
    · refine (((h t ht).1.const_mul (I * l)).sub (h t ht).2).congr_deriv ?_
      linear_combination (l ^ 2 * psi t) * hsq
    · refine (h t ht).1.congr_deriv ?_
      ring

/-- The solution outside of `[T0, T1]`. -/
theorem extend_kdv {q : ℝ → ℂ} {T0 T1 : ℝ} {l a b : ℂ} (van : Bool) (hT : T0 < T1) (h : Spec.KdvScattering q T0 T1 l a b) (k : ℝ) :
    ∃ V : ℝ → Spec.M2, Sol (fun _ => Spec.kdvP van 0 l) V (T0 - k) T0 ∧ Sol (fun t => Spec.kdvP van (q t) l) V T0 T1 ∧
      Sol (fun _ => Spec.kdvP van 0 l) V T1 (T1 + k) ∧
      (∀ t, t ≤ T0 → V t = Spec.fromS true van l * col (exp (-I * l * t)) 0) ∧
      (∀ t, T1 ≤ t → V t = Spec.fromS true van l * col (a * exp (-I * l * t)) (b * exp (I * l * t))) := by
  obtain ⟨psi, psi', h1, h2, h3, h4, h5⟩ := h
  let V : ℝ → Spec.M2 := fun t => if t ≤ T0 then Spec.fromS true van l * col (exp (-I * l * t)) 0 else if t < T1 then kdvVec van l (psi t) (psi' t) else
    Spec.fromS true van l * col (a * exp (-I * l * t)) (b * exp (I * l * t))
  have e1 : ∀ t, t ≤ T0 → V t = Spec.fromS true van l * col (exp (-I * l * t)) 0 := fun t ht => if_pos ht
  have e3 : ∀ t, T1 ≤ t → V t = Spec.fromS true van l * col (a * exp (-I * l * t)) (b * exp (I * l * t)) := fun t ht =>
    (if_neg (by linarith : ¬ t ≤ T0)).trans (if_neg (by linarith : ¬ t < T1))
  have e2 : ∀ t ∈ Icc T0 T1, V t = kdvVec van l (psi t) (psi' t) := by
    intro t ht
    rcases eq_or_lt_of_le ht.1 with rfl | hlt
    · rw [e1 _ le_rfl, ← kdvVec_free, h2, h3, add_zero, mul_zero, add_zero]
    · rcases eq_or_lt_of_le ht.2 with rfl | hlt'
      · rw [e3 _ le_rfl, ← kdvVec_free, h4, h5]
      · exact (if_neg (not_le.mpr hlt)).trans (if_pos hlt')
  have hF : ∀ t ∈ Icc (T0 - k) T0, Spec.fromS true van l * (fun _ => Spec.aknsP 0 0 l) t = (fun _ : ℝ => Spec.kdvP van 0 l) t * Spec.fromS true van l := fun t _ => kdvP_fromS van l
  refine ⟨V, ?_, (kdv_sol van h1).congr e2, ((free_sol l a b _ _).mul_left fun t _ => kdvP_fromS van l).congr fun t ht => e3 t ht.1, e1, e3⟩
  refine ((free_sol l 1 0 _ _).mul_left fun t _ => kdvP_fromS van l).congr fun t ht => ?_
  rw [e1 t ht.2, one_mul, zero_mul]

variable {q q' : ℝ → ℂ} {T0 T1 Q K L : ℝ} {A B xi : ℂ} {D : ℕ} {U : ℂ → ℕ → Spec.M2} {van : Bool}

/-- From the error in the AKNS basis to that of `a`, `b`. -/
theorem kdv_jost (hxi : xi ≠ 0) {V0 V1 : Spec.M2} {h e : ℝ} (he : 0 ≤ e)
    (e0 : V0 = Spec.fromS true van xi * col (exp (-I * xi * (T0 - h / 2 : ℝ))) 0)
    (e1 : V1 = Spec.fromS true van xi * col (A * exp (-I * xi * (T1 + h / 2 : ℝ))) (B * exp (I * xi * (T1 + h / 2 : ℝ))))
    (key : ‖Spec.chain (U xi) D * V0 - V1‖ ≤ e * ‖V0‖) :
    ‖Spec.kdvA van U D T0 T1 h xi - A‖ ≤ Spec.kdvCond ‖xi‖ * e * Real.exp (-(xi.im * (T1 - T0 + h))) ∧
    ‖Spec.kdvB van U D T0 T1 h xi - B‖ ≤ Spec.kdvCond ‖xi‖ * e * Real.exp (xi.im * (T0 + T1)) := by
  obtain ⟨F, hF⟩ : ∃ F, F = Spec.fromS true van xi := ⟨_, rfl⟩
  have hu : F⁻¹ * F = 1 := by rw [hF]; exact Matrix.nonsing_inv_mul _ (kdv_det van hxi)
  have n1 : ‖F‖ ≤ 2 * ‖xi‖ + 2 := hF ▸ norm_fromS van xi
  have n2 : ‖F⁻¹‖ ≤ 1 + 1 / (2 * ‖xi‖) := hF ▸ norm_fromS_inv van hxi
  have h0 := norm_pos_iff.mpr hxi
  rw [← hF] at e0 e1
  unfold Spec.kdvA Spec.kdvB
  refine jost_err rfl rfl ?_
  have e2 : Spec.kdvS van (U xi) D xi * col (exp (-I * xi * (T0 - h / 2 : ℝ))) 0 - col (A * exp (-I * xi * (T1 + h / 2 : ℝ))) (B * exp (I * xi * (T1 + h / 2 : ℝ))) =
      F⁻¹ * (Spec.chain (U xi) D * V0 - V1) := by
    rw [e0, e1, mul_sub, ← mul_assoc F⁻¹ F, hu, one_mul, Spec.kdvS, ← hF]
    simp only [mul_assoc]
  rw [e2]
  calc ‖F⁻¹ * (Spec.chain (U xi) D * V0 - V1)‖ ≤ ‖F⁻¹‖ * (e * ‖V0‖) := (norm_mul_le _ _).trans (mul_le_mul_of_nonneg_left key (norm_nonneg _))
    _ ≤ (1 + 1 / (2 * ‖xi‖)) * (e * ((2 * ‖xi‖ + 2) * Real.exp (xi.im * (T0 - h / 2)))) := by
        refine mul_le_mul n2 (mul_le_mul_of_nonneg_left ?_ he) (by positivity) (by positivity)
        rw [e0]
        exact (norm_mul_le _ _).trans (mul_le_mul n1 (norm_V0 xi _) (norm_nonneg _) (by positivity))
    _ = _ := by unfold Spec.kdvCond; rw [abs_of_pos h0]; ring

theorem kdv_one (hD : 2 ≤ D) (hT : T0 < T1) (hq : Spec.Lip q T0 T1 Q L) (hQ : 1 ≤ Q) (hL : 0 ≤ L) (hxi : xi ≠ 0)
    (hS : Spec.KdvScattering q T0 T1 xi A B) {h : ℝ} (hh : h = (T1 - T0) / (D - 1))
    (hU : ∀ n < D, ‖U xi n - NormedSpace.exp ((h : ℂ) • Spec.kdvP van (q (T0 + n * h)) xi)‖ ≤
      8 * (tail (h * ‖xi‖ + h * (2 * Q)) + (h * ‖xi‖ + h * (2 * Q)) ^ 2 / 2)) :
    ‖Spec.kdvA van U D T0 T1 h xi - A‖ ≤ Spec.kdvCond ‖xi‖ * Spec.err1 (T1 - T0) Q L h ‖xi‖ * Real.exp (-(xi.im * (T1 - T0 + h))) ∧
    ‖Spec.kdvB van U D T0 T1 h xi - B‖ ≤ Spec.kdvCond ‖xi‖ * Spec.err1 (T1 - T0) Q L h ‖xi‖ * Real.exp (xi.im * (T0 + T1)) := by
  have hD' : (2 : ℝ) ≤ D := by exact_mod_cast hD
  have hpos : 0 < h := by rw [hh]; exact div_pos (by linarith) (by linarith)
  have hT' : 0 < T1 - T0 := by linarith
  obtain ⟨V, s1, s2, s3, e1, e2⟩ := extend_kdv van hT hS (h / 2)
  have hm : Spec.Lip (fun _ => (-1 : ℂ)) T0 T1 Q L := ⟨fun t _ => by simpa using hQ, fun s _ t _ => by rw [sub_self, norm_zero]; positivity⟩
  have hb : ∀ t ∈ Icc T0 T1, ‖(0 : ℂ) - q t‖ ≤ Q := fun t ht => by simpa using hq.bound t ht
  have hb' : ∀ t ∈ Icc T0 T1, ‖(-1 : ℂ) - (fun _ => (-1 : ℂ)) t‖ ≤ Q := fun t ht => by simp; linarith
  refine kdv_jost hxi (by unfold Spec.err1; positivity) (e1 _ (by linarith)) (e2 _ (by linarith)) ?_
  cases van
  · exact core_one hD hT hm hq hL (q0 := -1) (r0 := 0) (by simpa using hQ) (by simp; linarith) hb' hb hh s1 s2 s3 hU
  · exact core_one hD hT hq hm hL (q0 := 0) (r0 := -1) (by simp; linarith) (by simpa using hQ) hb hb' hh s1 s2 s3 hU

theorem kdv_two (hD : 2 ≤ D) (hT : T0 < T1) (hq : Spec.Smooth q q' T0 T1 Q K L) (hQ : 1 ≤ Q) (hL : 0 ≤ L) (hxi : xi ≠ 0)
    (hS : Spec.KdvScattering q T0 T1 xi A B) {h : ℝ} (hh : h = (T1 - T0) / (D - 1))
    (hU : ∀ n < D, ‖U xi n - NormedSpace.exp ((h : ℂ) • Spec.kdvP van (q (T0 + n * h)) xi)‖ ≤ 8 * tail (h * ‖xi‖ + h * (2 * Q))) :
    ‖Spec.kdvA van U D T0 T1 h xi - A‖ ≤ Spec.kdvCond ‖xi‖ * Spec.err2 (T1 - T0) Q K L h ‖xi‖ * Real.exp (-(xi.im * (T1 - T0 + h))) ∧
    ‖Spec.kdvB van U D T0 T1 h xi - B‖ ≤ Spec.kdvCond ‖xi‖ * Spec.err2 (T1 - T0) Q K L h ‖xi‖ * Real.exp (xi.im * (T0 + T1)) := by
  have hD' : (2 : ℝ) ≤ D := by exact_mod_cast hD
  have hpos : 0 < h := by rw [hh]; exact div_pos (by linarith) (by linarith)
  have hDh : (D - 1 : ℝ) * h = T1 - T0 := by 
    have h0 : (0 : ℝ) < D - 1 := by linarith
    rw [hh, mul_comm]
    exact div_mul_cancel₀ _ h0.ne'
  have hT' : 0 < T1 - T0 := by linarith
  have hK : 0 ≤ K := (norm_nonneg _).trans (hq.bound' T0)
  obtain ⟨V, s1, s2, s3, e1, e2⟩ := extend_kdv van hT hS (h / 2)
  have ht1 : (T0 - h / 2) + D * h = T1 + h / 2 := by linarith
  have hnode : ∀ n : ℕ, T0 - h / 2 + n * h + h / 2 = T0 + n * h := fun n => by ring
  have s1' : Sol (fun t => Spec.kdvP van (q t) xi) V (T0 - h / 2) T0 := fun t ht =>
    (s1 t ht).congr_deriv (by dsimp only; rw [hq.supp t (Or.inl ht.2)])
  have s3' : Sol (fun t => Spec.kdvP van (q t) xi) V T1 (T1 + h / 2) := fun t ht =>
    (s3 t ht).congr_deriv (by dsimp only; rw [hq.supp t (Or.inr ht.1)])
  have s := (s1'.union s2 (by linarith) hT.le).union s3' (by linarith) (by linarith)
  have hm : C11 (fun _ => (-1 : ℂ)) (fun _ => 0) Q K L := ⟨fun t => hasDerivAt_const _ _, fun t => by simpa using hQ, fun t => by simpa using hK,
    fun s t => by rw [sub_self, norm_zero]; positivity⟩
  refine kdv_jost hxi (by unfold Spec.err2; positivity) (e1 _ (by linarith)) (e2 _ (by linarith)) ?_
  rw [← ht1] at s ⊢
  have e4 : T1 - T0 = D * h - h := by linarith
  rw [e4]
  cases van
  · exact core_two (U := U xi) (by omega) hm (c11_of hq) hL hpos.le s (fun n hn => by rw [hnode]; exact hU n hn)
  · exact core_two (U := U xi) (by omega) (c11_of hq) hm hL hpos.le s (fun n hn => by rw [hnode]; exact hU n hn)

end FNFT.Conv

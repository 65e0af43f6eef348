import Verif.Proofs.FinvLink
/-!
# Layers with a given reflection coefficient
-/
namespace FNFT
open Polynomial

theorem layers_det (Q R : ℕ → ℂ) : ∀ d, (layers Q R d).det = C (∏ n ∈ Finset.range d, (1 - Q n * R n)) * X ^ d
  | 0 => by simp [layers]
  | d + 1 => by
    have : (lay (Q d) (R d)).det = C (1 - Q d * R d) * X := by
      rw [lay, Matrix.det_fin_two_of, C_sub, C_mul, C_1]; ring
    rw [layers, Matrix.det_mul, layers_det Q R d, this, Finset.prod_range_succ, C_mul]
    ring

theorem layers_a_zero (Q R : ℕ → ℂ) (d : ℕ) : (layers Q R d 0 0).coeff 0 = 1 := by
  have := layers_vec_zero Q R d ![1, 0]
  simpa [Matrix.mulVec, dotProduct, Fin.sum_univ_two] using this

/-- From the first column to the reflection coefficient. -/
theorem reflects_of_col {kappa : ℤ} {d : ℕ} {R : ℕ → ℂ} {V : Fin 2 → ℂ[X]} {P : ℂ[X]}
    (h : ∀ m, m < d → ∀ i, ((layers (fun n => -(kappa : ℂ) * (starRingEnd ℂ) (R n)) R d).mulVec V i).coeff m = ((![1, P] : Fin 2 → ℂ[X]) i).coeff m) :
    Spec.Reflects kappa d R P := by
  intro m hm
  set L := layers (fun n => -(kappa : ℂ) * (starRingEnd ℂ) (R n)) R d with hL
  have hd := layers_det (fun n => -(kappa : ℂ) * (starRingEnd ℂ) (R n)) R d
  rw [Matrix.det_fin_two, ← hL] at hd
  have h0 : X ^ d ∣ L.mulVec V 0 - 1 := by
    rw [X_pow_dvd_iff]; intro m hm; rw [coeff_sub, h m hm 0]; simp
  have h1 : X ^ d ∣ L.mulVec V 1 - P := by
    rw [X_pow_dvd_iff]; intro m hm; rw [coeff_sub, h m hm 1]; simp
  obtain ⟨u, hu⟩ := h0
  obtain ⟨w, hw⟩ := h1
  simp only [Matrix.mulVec, dotProduct, Fin.sum_univ_two] at hu hw
  have key : X ^ d ∣ L 1 0 - L 0 0 * P := by
    refine ⟨L 0 0 * w - L 1 0 * u - C (∏ n ∈ Finset.range d, (1 - (-(kappa : ℂ) * (starRingEnd ℂ) (R n)) * R n)) * V 1, ?_⟩
    linear_combination (-L 1 0) * hu + (L 0 0) * hw - V 1 * hd
  rw [← sub_eq_zero, ← coeff_sub]
  exact (X_pow_dvd_iff.mp key) m hm

/-- From the reflection coefficient to the first column. -/
theorem col_of_reflects {kappa : ℤ} {d : ℕ} (hd : 1 ≤ d) {R : ℕ → ℂ} {P : ℂ[X]} (h : Spec.Reflects kappa d R P) :
    ∃ V : Fin 2 → ℂ[X], (V 0).coeff 0 ≠ 0 ∧ ∀ m, m < d → ∀ i,
      ((![1, P] : Fin 2 → ℂ[X]) i).coeff m = ((layers (fun n => -(kappa : ℂ) * (starRingEnd ℂ) (R n)) R d).mulVec V i).coeff m := by
  set L := layers (fun n => -(kappa : ℂ) * (starRingEnd ℂ) (R n)) R d with hL
  have ha : (L 0 0).coeff 0 = 1 := layers_a_zero _ _ _
  have hco : IsCoprime (L 0 0) (X ^ d) := by
    apply IsCoprime.pow_right
    refine ⟨1, -divX (L 0 0), ?_⟩
    have := divX_mul_X_add (L 0 0)
    rw [ha] at this
    linear_combination -this + (1 : ℂ[X]) * C_1 (R := ℂ)
  obtain ⟨u, w, huw⟩ := hco
  have hu0 : u.coeff 0 ≠ 0 := by
    have := congrArg (fun p => coeff p 0) huw
    simp only [coeff_add, mul_coeff_zero, ha, coeff_X_pow, coeff_one_zero] at this
    rw [if_neg (by omega)] at this
    intro h0
    rw [h0] at this
    norm_num at this
  have hb : X ^ d ∣ L 1 0 - L 0 0 * P := by
    rw [X_pow_dvd_iff]; intro m hm; rw [coeff_sub, h m hm, sub_self]
  obtain ⟨y, hy⟩ := hb
  refine ⟨![u, 0], hu0, fun m hm i => ?_⟩
  rw [← sub_eq_zero, ← coeff_sub]
  refine (X_pow_dvd_iff.mp ?_) m hm
  fin_cases i
  · refine ⟨w, ?_⟩
    simp only [Matrix.mulVec, dotProduct, Fin.sum_univ_two]
    simp
    linear_combination -huw
  · refine ⟨P * w - u * y, ?_⟩
    simp only [Matrix.mulVec, dotProduct, Fin.sum_univ_two]
    simp
    linear_combination -P * huw - u * hy

end FNFT

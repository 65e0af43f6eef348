import Verif.Proofs.PolyFmult
import Verif.Spec.Poly
/-! Storage order: reversal of coefficient arrays. -/
namespace FNFT
open Finset Polynomial

/-- The polynomial with coefficients `x 0, x 1, …, x d` (lowest first). -/
noncomputable def loPoly (d : ℕ) (x : ℕ → ℂ) : ℂ[X] := ∑ j ∈ range (d + 1), C (x j) * X ^ j

theorem loPoly_coeff (d : ℕ) (x : ℕ → ℂ) (j : ℕ) : (loPoly d x).coeff j = if j ≤ d then x j else 0 := by
  simp only [loPoly, finsetSum_coeff, coeff_C_mul, coeff_X_pow, mul_ite, mul_one, mul_zero, sum_ite_eq, mem_range]
  simp

theorem loPoly_natDegree (d : ℕ) (x : ℕ → ℂ) : (loPoly d x).natDegree ≤ d := by
  rw [natDegree_le_iff_coeff_eq_zero]
  intro j hj
  rw [loPoly_coeff, if_neg (by omega)]

theorem Spec.poly_coeff (d : ℕ) (x : ℕ → ℂ) (j : ℕ) :
    (Spec.poly d x).coeff j = if j ≤ d then x (d - j) else 0 := by
  simp only [Spec.poly, finsetSum_coeff, coeff_C_mul, coeff_X_pow, mul_ite, mul_one, mul_zero]
  split_ifs with h
  · rw [sum_eq_single (d - j)]
    · rw [if_pos (by omega)]
    · intro b hb hne
      have := mem_range.mp hb
      rw [if_neg (by omega)]
    · intro h'; exact absurd (mem_range.mpr (by omega)) h'
  · refine sum_eq_zero fun b hb => ?_
    rw [if_neg (by omega)]

theorem Spec.poly_congr {d : ℕ} {x y : ℕ → ℂ} (h : ∀ i, i ≤ d → x i = y i) : Spec.poly d x = Spec.poly d y :=
  sum_congr rfl fun j hj => by rw [h j (by have := mem_range.mp hj; omega)]

theorem Spec.poly_reflect (d : ℕ) (Q : ℂ[X]) (h : Q.natDegree ≤ d) :
    Spec.poly d Q.coeff = reflect d Q := by
  ext j
  rw [Spec.poly_coeff, coeff_reflect]
  by_cases hj : j ≤ d
  · rw [if_pos hj, revAt_le hj]
  · rw [if_neg hj, revAt_eq_self_of_lt (by omega), coeff_eq_zero_of_natDegree_lt (by omega)]

theorem Spec.poly_lo (d : ℕ) (x : ℕ → ℂ) : Spec.poly d x = reflect d (loPoly d x) := by
  rw [← Spec.poly_reflect _ _ (loPoly_natDegree d x)]
  exact Spec.poly_congr fun i hi => by rw [loPoly_coeff, if_pos hi]

theorem reflect_prodL {d n : ℕ} {Q : ℕ → ℂ[X]} (h : ∀ i, i < n → (Q i).natDegree ≤ d) :
    reflect (d * n) (prodL n Q) = prodL n (fun i => reflect d (Q i)) := by
  induction n with
  | zero =>
    simp only [prodL_zero, Nat.mul_zero]
    exact (reflect_C 1 0).trans (by simp)
  | succ n ih =>
    rw [prodL_succ, prodL_succ, Nat.mul_succ, reflect_mul _ _ (prodL_natDegree fun i hi => h i (by omega))
      (h n (by omega)), ih fun i hi => h i (by omega)]

theorem reflect_smul (d : ℕ) (c : ℂ) (Q : ℂ[X]) : reflect d (c • Q) = c • reflect d Q := by
  rw [smul_eq_C_mul, smul_eq_C_mul, reflect_C_mul]

theorem prodL_comm {A : Type*} [CommMonoid A] (n : ℕ) (Q : ℕ → A) : prodL n Q = ∏ i ∈ range n, Q i := by
  induction n with
  | zero => simp
  | succ n ih => rw [prodL_succ, prod_range_succ, ih]

end FNFT

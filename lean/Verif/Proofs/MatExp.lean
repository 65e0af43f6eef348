import Mathlib.Analysis.Normed.Algebra.MatrixExponential
import Mathlib.Analysis.SpecialFunctions.Trigonometric.Series
import Mathlib.Tactic.Linarith
import Mathlib.Tactic.Ring
/-!
# Matrix exponentials in closed form
-/
namespace FNFT
open NormedSpace

/-- The entire function `sin w / w`. -/
noncomputable def csinc (w : ℂ) : ℂ := if w = 0 then 1 else Complex.sin w / w

theorem csinc_hasSum (w : ℂ) :
    HasSum (fun n : ℕ => (-1) ^ n * w ^ (2 * n) / ((2 * n + 1).factorial : ℂ)) (csinc w) := by
  unfold csinc
  split_ifs with h
  · subst h
    have := hasSum_single (f := fun n : ℕ => (-1 : ℂ) ^ n * 0 ^ (2 * n) / ((2 * n + 1).factorial : ℂ)) 0
      (fun n hn => by simp [hn])
    simpa using this
  · have := (Complex.hasSum_sin w).div_const w
    refine this.congr_fun ?_
    intro n
    rw [pow_succ]
    field_simp

/-- The exponential series of an element with `X^2 = -w^2`. -/
theorem hasSum_sq {A : Type*} [Ring A] [Algebra ℂ A] [TopologicalSpace A] [ContinuousAdd A]
    [ContinuousSMul ℂ A] (X : A) (w : ℂ) (h : X * X = (-(w ^ 2)) • (1 : A)) :
    HasSum (fun n : ℕ => ((n.factorial : ℂ)⁻¹) • X ^ n) (Complex.cos w • (1 : A) + csinc w • X) := by
  have hp : ∀ n : ℕ, X ^ (2 * n) = ((-1) ^ n * w ^ (2 * n)) • (1 : A) := by
    intro n
    rw [pow_mul, pow_two, h, smul_pow, one_pow]
    congr 1
    rw [pow_mul, ← mul_pow]; ring
  have he : HasSum (fun n : ℕ => (((2 * n).factorial : ℂ)⁻¹) • X ^ (2 * n)) (Complex.cos w • (1 : A)) := by
    have := (Complex.hasSum_cos w).smul_const (1 : A)
    refine this.congr_fun ?_
    intro n
    rw [hp, smul_smul]
    congr 1
    rw [div_eq_inv_mul]
  have ho : HasSum (fun n : ℕ => (((2 * n + 1).factorial : ℂ)⁻¹) • X ^ (2 * n + 1)) (csinc w • X) := by
    have := (csinc_hasSum w).smul_const X
    refine this.congr_fun ?_
    intro n
    rw [pow_succ, hp, smul_mul_assoc, one_mul, smul_smul]
    congr 1
    rw [div_eq_inv_mul]
  exact he.even_add_odd ho

section
variable {m : Type*} [Fintype m] [DecidableEq m]

theorem hasSum_matexp (X : Matrix m m ℂ) :
    HasSum (fun n : ℕ => ((n.factorial : ℂ)⁻¹) • X ^ n) (exp X) := by
  let _ : NormedRing (Matrix m m ℂ) := Matrix.linftyOpNormedRing
  let _ : NormedAlgebra ℂ (Matrix m m ℂ) := Matrix.linftyOpNormedAlgebra
  exact exp_series_hasSum_exp' (𝕂 := ℂ) X

/-- `exp X` when `X^2 = -w^2`. -/
theorem exp_of_sq (X : Matrix m m ℂ) (w : ℂ) (h : X * X = (-(w ^ 2)) • (1 : Matrix m m ℂ)) :
    exp X = Complex.cos w • (1 : Matrix m m ℂ) + csinc w • X :=
  (hasSum_matexp X).unique (hasSum_sq X w h)

end
end FNFT

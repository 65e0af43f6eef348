import Verif.Model.Dbl
import Mathlib.Analysis.Complex.Basic
/-!
# Specification: selection of bound states, Newton's method
-/
namespace FNFT.Spec
open Complex

/-- `z` lies in the closed box `[b0,b1] × [b2,b3]`. -/
def InBoxC (box : Fin 4 → Dbl) (z : ℂ) : Prop :=
  (box 0).le (.num (z.re : EReal)) ∧ Dbl.le (.num (z.re : EReal)) (box 1) ∧
    (box 2).le (.num (z.im : EReal)) ∧ Dbl.le (.num (z.im : EReal)) (box 3)

/-- `out` is selected from the candidates `cand 0, ..., cand (n-1)` by removing first everything outside of the box, and then
values that are closer than `tol` to others: `out` is a subsequence of the candidates (positions `S`) in the box with mutual distances of
at least `tol`, and a candidate in the box is only removed if it is closer than `tol` to an earlier candidate in the box. -/
def Selected (box : Fin 4 → Dbl) (tol : ℝ) (n : ℕ) (cand : ℕ → ℂ) (out : List ℂ) : Prop :=
  ∃ S : List ℕ, S.Pairwise (· < ·) ∧ (∀ j ∈ S, j < n ∧ InBoxC box (cand j)) ∧
    S.Pairwise (fun j k => tol ≤ ‖cand j - cand k‖) ∧
    (∀ k, k < n → InBoxC box (cand k) → k ∉ S → ∃ j, j < k ∧ InBoxC box (cand j) ∧ ‖cand j - cand k‖ < tol) ∧
    out = S.map cand

/-- How a Newton iteration can stop. -/
inductive NewtonStop
  /-- The last iterate is outside of the box, the last step was at most `tol`, or the last value of `a` was at most `tol`. -/
  | tolerance
  /-- An exact zero of `a` was hit. -/
  | zero
  /-- The number of iterations is used up. -/
  | exhausted
  /-- The derivative is zero: error. -/
  | failed

/-- The iterates `z 0, ..., z k` of Newton's method for the function `A` with derivative `A'`. The values that the program computes
are `2^(-w) A` and `2^(-w) A'` with a scaling `w` that depends on the point; the tolerance is applied to the scaled value. `niter`
counts every iteration twice. -/
structure NewtonRun (A A' : ℂ → ℂ) (w : ℂ → ℤ) (tol : Dbl) (box : Fin 4 → Dbl) (niter : ℕ) (z : ℕ → ℂ) (k : ℕ) (stop : NewtonStop) :
    Prop where
  step : ∀ j, j < k → A (z j) ≠ 0 ∧ A' (z j) ≠ 0 ∧ z (j + 1) = z j - A (z j) / A' (z j)
  budget : ∀ j, j < k → 2 * j < niter
  /-- All iterates but the last are in the box, all steps and values but the last are larger than `tol`. -/
  going : ∀ j, j + 1 < k → InBoxC box (z (j + 1)) ∧ ¬ Dbl.le (.num ((‖A (z j) / A' (z j)‖ : ℝ) : EReal)) tol ∧
    ¬ Dbl.le (.num ((‖(2 : ℂ) ^ (-w (z j)) * A (z j)‖ : ℝ) : EReal)) tol
  last : 0 < k → stop ≠ .tolerance → InBoxC box (z k) ∧ ¬ Dbl.le (.num ((‖A (z (k - 1)) / A' (z (k - 1))‖ : ℝ) : EReal)) tol ∧
    ¬ Dbl.le (.num ((‖(2 : ℂ) ^ (-w (z (k - 1))) * A (z (k - 1))‖ : ℝ) : EReal)) tol
  reason : match stop with
    | .tolerance => 0 < k ∧ (¬ InBoxC box (z k) ∨ Dbl.le (.num ((‖A (z (k - 1)) / A' (z (k - 1))‖ : ℝ) : EReal)) tol ∨
        Dbl.le (.num ((‖(2 : ℂ) ^ (-w (z (k - 1))) * A (z (k - 1))‖ : ℝ) : EReal)) tol)
    | .zero => 2 * k < niter ∧ A (z k) = 0
    | .exhausted => niter ≤ 2 * k
    | .failed => 2 * k < niter ∧ A (z k) ≠ 0 ∧ A' (z k) = 0

/-- The outcome of Newton's method for a list of initial guesses: `out` are the final iterates and `fail` is the first position
at which the derivative was zero (later guesses are not touched). -/
structure NewtonAll (A A' : ℂ → ℂ) (w : ℂ → ℤ) (tol : Dbl) (box : Fin 4 → Dbl) (niter K : ℕ) (init out : ℕ → ℂ) (fail : Option ℕ) :
    Prop where
  run : ∀ i, i < K → (∀ f, fail = some f → i < f) → ∃ z k stop, z 0 = init i ∧ NewtonRun A A' w tol box niter z k stop ∧
    stop ≠ .failed ∧ out i = z k
  failed : ∀ f, fail = some f → f < K ∧ (∃ z k, z 0 = init f ∧ NewtonRun A A' w tol box niter z k .failed ∧ out f = z k) ∧
    ∀ i, f < i → out i = init i

end FNFT.Spec

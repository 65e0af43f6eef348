import Mathlib.Analysis.Complex.Basic
/-!
# Specification: bound states of the KdV on the imaginary axis

The bound states are `λ = iκ` with `κ > 0`.
-/
namespace FNFT.Spec
open Complex

/-- How a Newton iteration can stop. -/
inductive RealNewtonStop
  /-- The last iterate is outside of the interval, or the last step was at most `tol`. -/
  | done
  /-- An exact zero was hit. -/
  | zero
  /-- The number of iterations is used up. -/
  | exhausted
  /-- The derivative is zero, or the iterate is `0`: error. -/
  | failed

/-- The iterates `z 0, ..., z k` of Newton's method for the function `A` with derivative `A'` in the interval `[0, b]`. -/
structure RealNewton (A A' : ℝ → ℝ) (tol b : ℝ) (niter : ℕ) (z : ℕ → ℝ) (k : ℕ) (stop : RealNewtonStop) : Prop where
  step : ∀ j, j < k → z j ≠ 0 ∧ A (z j) ≠ 0 ∧ A' (z j) ≠ 0 ∧ z (j + 1) = z j - A (z j) / A' (z j)
  budget : k ≤ niter
  /-- All iterates but the last are in the interval, all steps but the last are larger than `tol`. -/
  going : ∀ j, j + 1 < k → z (j + 1) ∈ Set.Icc 0 b ∧ tol < |A (z j) / A' (z j)|
  last : 0 < k → stop ≠ .done → z k ∈ Set.Icc 0 b ∧ tol < |A (z (k - 1)) / A' (z (k - 1))|
  reason : match stop with
    | .done => 0 < k ∧ (z k ∉ Set.Icc 0 b ∨ |A (z (k - 1)) / A' (z (k - 1))| ≤ tol)
    | .zero => k < niter ∧ z k ≠ 0 ∧ A (z k) = 0
    | .exhausted => k = niter
    | .failed => k < niter ∧ (z k = 0 ∨ A (z k) ≠ 0 ∧ A' (z k) = 0)

/-- The outcome of Newton's method for the initial guesses `init 0, ..., init (K-1)`: `out` are the final iterates and `fail` is the first position
at which the iteration failed (later guesses are not touched). -/
structure RealNewtonAll (A A' : ℝ → ℝ) (tol b : ℝ) (niter K : ℕ) (init out : ℕ → ℝ) (fail : Option ℕ) : Prop where
  run : ∀ i, i < K → (∀ f, fail = some f → i < f) → ∃ z k stop, z 0 = init i ∧ RealNewton A A' tol b niter z k stop ∧
    stop ≠ .failed ∧ out i = z k
  failed : ∀ f, fail = some f → f < K ∧ (∃ z k, z 0 = init f ∧ RealNewton A A' tol b niter z k .failed ∧ out f = z k) ∧
    ∀ i, f < i → i < K → out i = init i

/-- The zero of the line through `(y0, P0)` and `(y1, c P1)`. -/
noncomputable def falsi (c y0 y1 P0 P1 : ℝ) : ℝ := (y0 * (c * P1) - y1 * P0) / (c * P1 - P0)

open Classical in
/-- The guess that belongs to point `i` of the grid `y`, if there is one, for the values `p` of a function at the grid points: the grid
point itself if it is a zero; a point between the grid points `i-1` and `i` if the real part changes its sign there. -/
noncomputable def kdvGuessAt (c y : ℕ → ℝ) (p : ℕ → ℂ) (i : ℕ) : Option ℝ :=
  if p i = 0 then some (y i)
  else if 0 < i ∧ (p (i - 1)).re * (p i).re < 0 then some (falsi (c i) (y (i - 1)) (y i) (p (i - 1)).re (p i).re)
  else none

/-- The guesses of the grid search, in increasing order of the grid points. The scaling factors `c i` are one without normalisation. -/
def KdvGuesses (nrm : Bool) (M : ℕ) (y : ℕ → ℝ) (p : ℕ → ℂ) (out : List ℝ) : Prop :=
  ∃ c : ℕ → ℝ, (∀ i, c i = 1 ∨ nrm = true ∧ (c i = 2 ∨ c i = 1 / 2)) ∧ out = (List.range M).filterMap (kdvGuessAt c y p)

/-- The grid `y 0 < ... < y (M-1)` in the interval `(0, b)`; the outermost points are next to the end points. -/
noncomputable def kdvGridY (next : ℝ → ℝ → ℝ) (b : ℝ) (M i : ℕ) : ℝ :=
  if i = 0 then next 0 b else if i = M - 1 then next b 0 else b * i / (M - 1)

/-- The C function `nexttoward` moves away from an end point of the interval, by less than half of the grid spacing. -/
structure NextOK (next : ℝ → ℝ → ℝ) (b : ℝ) (M : ℕ) : Prop where
  left : 0 < next 0 b
  left' : next 0 b < b / (M - 1) / 2
  right : next b 0 < b
  right' : b - b / (M - 1) / 2 < next b 0

end FNFT.Spec

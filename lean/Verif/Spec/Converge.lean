import Mathlib.Analysis.Calculus.Deriv.Basic
import Mathlib.Analysis.Complex.Basic
import Mathlib.Analysis.SpecialFunctions.Exp
/-!
# Specification: the scattering problem for potentials that vanish outside of an interval, and error bounds
-/
namespace FNFT.Spec
open Complex Set

/-- The scattering coefficients `a(l)`, `b(l)` of the potentials `q`, `r` that vanish outside of `[T0, T1]`: the solution of
`v' = [-i l, q; r, i l] v` that is equal to `(exp(-i l t), 0)` for `t ≤ T0` is equal to `(a exp(-i l t), b exp(i l t))` for `t ≥ T1`. -/
def Scattering (q r : ℝ → ℂ) (T0 T1 : ℝ) (l a b : ℂ) : Prop :=
  ∃ v1 v2 : ℝ → ℂ, (∀ t ∈ Icc T0 T1, HasDerivWithinAt v1 (-I * l * v1 t + q t * v2 t) (Icc T0 T1) t ∧
      HasDerivWithinAt v2 (r t * v1 t + I * l * v2 t) (Icc T0 T1) t) ∧
    v1 T0 = exp (-I * l * T0) ∧ v2 T0 = 0 ∧ v1 T1 = a * exp (-I * l * T1) ∧ v2 T1 = b * exp (I * l * T1)

/-- `q` is Lipschitz continuous on `[T0, T1]`, with bounds. -/
structure Lip (q : ℝ → ℂ) (T0 T1 Q L : ℝ) : Prop where
  bound : ∀ t ∈ Icc T0 T1, ‖q t‖ ≤ Q
  lip : ∀ s ∈ Icc T0 T1, ∀ t ∈ Icc T0 T1, ‖q s - q t‖ ≤ L * |s - t|

/-- `q` vanishes outside of `[T0, T1]` and has a Lipschitz continuous derivative, with bounds. -/
structure Smooth (q q' : ℝ → ℂ) (T0 T1 Q K L : ℝ) : Prop where
  deriv : ∀ t, HasDerivAt q (q' t) t
  supp : ∀ t, t ≤ T0 ∨ T1 ≤ t → q t = 0
  bound : ∀ t, ‖q t‖ ≤ Q
  bound' : ∀ t, ‖q' t‖ ≤ K
  lip : ∀ s t, ‖q' s - q' t‖ ≤ L * |s - t|

/-- Error bound of the first order methods at the point `xi`: `C h`. -/
noncomputable def err1 (T Q L h xi : ℝ) : ℝ :=
  Real.exp (7 * (|xi| + 2 * Q) * (T + h)) * ((T + h) * (L / 2 + 8 * (|xi| + 2 * Q) ^ 2) + Q) * h

/-- Error bound of the second order methods at the point `xi`: `C h²`. -/
noncomputable def err2 (T Q K L h xi : ℝ) : ℝ :=
  Real.exp (7 * (|xi| + 2 * Q) * (T + h)) * (T + h) * ((L + 2 * K * (|xi| + 2 * Q)) / 4 + 4 / 3 * (|xi| + 2 * Q) ^ 3) * h ^ 2

end FNFT.Spec

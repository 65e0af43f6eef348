import Verif.Spec.Converge
/-!
# Specification: the Manakov scattering problem in continuous time
-/
namespace FNFT.Spec
open Complex Set

/-- The scattering coefficients `a(l)`, `b1(l)`, `b2(l)` of a signal `(q1, q2)` that vanishes outside of `[T0, T1]`: the solution of
`v1' = -i l v1 + q1 v2 + q2 v3`, `v2' = -κ q1* v1 + i l v2`, `v3' = -κ q2* v1 + i l v3` that is equal to `(exp(-i l t), 0, 0)` for `t ≤ T0` is equal to
`(a exp(-i l t), b1 exp(i l t), b2 exp(i l t))` for `t ≥ T1`. -/
def ManScattering (κ : ℤ) (q1 q2 : ℝ → ℂ) (T0 T1 : ℝ) (l a b1 b2 : ℂ) : Prop :=
  ∃ v1 v2 v3 : ℝ → ℂ, (∀ t ∈ Icc T0 T1, HasDerivWithinAt v1 (-I * l * v1 t + q1 t * v2 t + q2 t * v3 t) (Icc T0 T1) t ∧
      HasDerivWithinAt v2 (-κ * (starRingEnd ℂ) (q1 t) * v1 t + I * l * v2 t) (Icc T0 T1) t ∧
      HasDerivWithinAt v3 (-κ * (starRingEnd ℂ) (q2 t) * v1 t + I * l * v3 t) (Icc T0 T1) t) ∧
    v1 T0 = exp (-I * l * T0) ∧ v2 T0 = 0 ∧ v3 T0 = 0 ∧ v1 T1 = a * exp (-I * l * T1) ∧ v2 T1 = b1 * exp (I * l * T1) ∧ v3 T1 = b2 * exp (I * l * T1)

/-- Size (per unit of time) of the perturbations by the cut-off of small samples (`2^-52`) and the Taylor polynomials. -/
noncomputable def manDelta (Q h xi : ℝ) : ℝ := (2 ^ (-51 : ℤ) + 1e-31 * Q) * Real.exp (2 * h * (|xi| + 4 * Q))

/-- What remains of the error for very small steps. -/
noncomputable def manFloor (T Q h xi : ℝ) : ℝ :=
  (T + h) * manDelta Q h xi * Real.exp ((T + h) * (5 * (|xi| + 4 * Q) + manDelta Q h xi))

end FNFT.Spec

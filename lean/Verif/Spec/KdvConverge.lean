import Verif.Spec.Converge
/-!
# Specification: the scattering problem of the Schroedinger operator for potentials that vanish outside of an interval
-/
namespace FNFT.Spec
open Complex Set

/-- The scattering coefficients `a(l)`, `b(l)` of the potential `q` that vanishes outside of `[T0, T1]`: the solution of
`psi'' + (q + l²) psi = 0` that is equal to `exp(-i l t)` for `t ≤ T0` is equal to `a exp(-i l t) + b exp(i l t)` for `t ≥ T1`. -/
def KdvScattering (q : ℝ → ℂ) (T0 T1 : ℝ) (l a b : ℂ) : Prop :=
  ∃ psi psi' : ℝ → ℂ, (∀ t ∈ Icc T0 T1, HasDerivWithinAt psi (psi' t) (Icc T0 T1) t ∧
      HasDerivWithinAt psi' (-(q t + l ^ 2) * psi t) (Icc T0 T1) t) ∧
    psi T0 = exp (-I * l * T0) ∧ psi' T0 = -I * l * exp (-I * l * T0) ∧
    psi T1 = a * exp (-I * l * T1) + b * exp (I * l * T1) ∧
    psi' T1 = -I * l * (a * exp (-I * l * T1)) + I * l * (b * exp (I * l * T1))

/-- Factor by which the error bounds for the KdV equation differ from those for the NSE: condition number of the change of the basis. -/
noncomputable def kdvCond (xi : ℝ) : ℝ := (1 + 1 / (2 * |xi|)) * (2 * |xi| + 2)

end FNFT.Spec

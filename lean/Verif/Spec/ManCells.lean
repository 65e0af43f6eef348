import Verif.Spec.ManConverge
/-!
# Specification: piecewise constant signals for the Manakov system
-/
namespace FNFT.Spec
open Complex Set

/-- `A`, `B1`, `B2` are the scattering coefficients at `l` of the Manakov system whose potentials have the constant values `q1 n`, `q2 n` on the interval of length `eps` around `T0 + n eps`, `n < D`,
and vanish outside of these intervals: the solution that is `(exp(-i l t), 0, 0)` on the left is `(A exp(-i l t), B1 exp(i l t), B2 exp(i l t))` on the right. -/
def ManCellScattering (κ : ℤ) (q1 q2 : ℕ → ℂ) (T0 eps : ℝ) (D : ℕ) (l A B1 B2 : ℂ) : Prop :=
  let left := fun n : ℕ => T0 - eps / 2 + n * eps
  ∃ v1 v2 v3 : ℝ → ℂ, (∀ n, n < D → ∀ t ∈ Icc (left n) (left (n + 1)),
      HasDerivWithinAt v1 (-I * l * v1 t + q1 n * v2 t + q2 n * v3 t) (Icc (left n) (left (n + 1))) t ∧
      HasDerivWithinAt v2 (-κ * (starRingEnd ℂ) (q1 n) * v1 t + I * l * v2 t) (Icc (left n) (left (n + 1))) t ∧
      HasDerivWithinAt v3 (-κ * (starRingEnd ℂ) (q2 n) * v1 t + I * l * v3 t) (Icc (left n) (left (n + 1))) t) ∧
    v1 (left 0) = exp (-I * l * left 0) ∧ v2 (left 0) = 0 ∧ v3 (left 0) = 0 ∧
    v1 (left D) = A * exp (-I * l * left D) ∧ v2 (left D) = B1 * exp (I * l * left D) ∧ v3 (left D) = B2 * exp (I * l * left D)

end FNFT.Spec

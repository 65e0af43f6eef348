import Verif.Spec.ZS
import Mathlib.Algebra.Order.Floor.Semiring
/-!
# Specification: piecewise constant signals
-/
namespace FNFT.Spec
open Complex Set

/-- The piecewise constant potential with the values `qf 0, …, qf (D-1)` at the points `T0, T0 + eps, …, T0 + (D-1) eps`, each on an interval of length `eps` around
the point. It vanishes outside of these intervals. -/
noncomputable def cellQ (T0 eps : ℝ) (D : ℕ) (qf : ℕ → ℂ) (t : ℝ) : ℂ :=
  if T0 - eps / 2 < t ∧ t < T0 + ((D : ℝ) - 1 / 2) * eps then qf ⌊(t - T0) / eps + 1 / 2⌋₊ else 0

/-- `A`, `B` are the scattering coefficients at `l` of the system `v' = [-i l, q; r, i l] v`, where `q`, `r` have the constant values `q n`, `r n` on the interval of length `eps` around `T0 + n eps`, `n < D`,
and vanish outside of these intervals: the solution that is `(exp(-i l t), 0)` on the left is `(A exp(-i l t), B exp(i l t))` on the right. -/
def CellScattering (q r : ℕ → ℂ) (T0 eps : ℝ) (D : ℕ) (l A B : ℂ) : Prop :=
  let left := fun n : ℕ => T0 - eps / 2 + n * eps
  ∃ v1 v2 : ℝ → ℂ, (∀ n, n < D → ∀ t ∈ Icc (left n) (left (n + 1)),
      HasDerivWithinAt v1 (-I * l * v1 t + q n * v2 t) (Icc (left n) (left (n + 1))) t ∧
      HasDerivWithinAt v2 (r n * v1 t + I * l * v2 t) (Icc (left n) (left (n + 1))) t) ∧
    v1 (left 0) = exp (-I * l * left 0) ∧ v2 (left 0) = 0 ∧ v1 (left D) = A * exp (-I * l * left D) ∧ v2 (left D) = B * exp (I * l * left D)

end FNFT.Spec

import Verif.Spec.Converge
import Verif.Spec.Akns
/-!
# Specification: monodromy matrix of a periodic potential
-/
namespace FNFT.Spec
open Complex Set

/-- `M` is the monodromy matrix of the system `v' = [-i l, q; r, i l] v` for the interval `[t0, t0 + T]`: there are solutions (the columns of `X`) that start with the unit vectors
at `t0`; their values at `t0 + T` are the columns of `M`. -/
def Monodromy (q r : ℝ → ℂ) (t0 T : ℝ) (l : ℂ) (M : M2) : Prop :=
  ∃ X : ℝ → M2, (∀ t ∈ Icc t0 (t0 + T), ∀ j,
      HasDerivWithinAt (fun t => X t 0 j) (-I * l * X t 0 j + q t * X t 1 j) (Icc t0 (t0 + T)) t ∧
      HasDerivWithinAt (fun t => X t 1 j) (r t * X t 0 j + I * l * X t 1 j) (Icc t0 (t0 + T)) t) ∧
    X t0 = 1 ∧ X (t0 + T) = M

/-- A function of period `T` with Lipschitz continuous derivative, with bounds. -/
structure SmoothPeriodic (q q' : ℝ → ℂ) (T Q K L : ℝ) : Prop where
  period : ∀ t, q (t + T) = q t
  deriv : ∀ t, HasDerivAt q (q' t) t
  bound : ∀ t, ‖q t‖ ≤ Q
  bound' : ∀ t, ‖q' t‖ ≤ K
  lip : ∀ s t, ‖q' s - q' t‖ ≤ L * |s - t|

/-- What a change of the starting point by half a step of length `h` can change in the monodromy matrix. -/
noncomputable def baseErr (T Q h xi : ℝ) : ℝ := 2 * Real.exp ((|xi| + Q) * T) * ((|xi| + Q) * (h / 2) * Real.exp ((|xi| + Q) * (h / 2)))

/-- The points of `list` are approximate zeros of `β` up to errors `C`: `|β| ≤ C` there, and if `β(l0) = 0` and `|β| ≥ m > 2C` on a circle around `l0`, which lies together with its interior in the region,
then one of the points is inside. -/
def ApproxZeros (β : ℂ → ℂ) (C : ℝ → ℝ) (region : ℂ → Prop) (list : List ℂ) : Prop :=
  (∀ l ∈ list, ‖β l‖ ≤ C ‖l‖) ∧
    ∀ l0 δ m, β l0 = 0 → 0 < δ → (∀ l, ‖l - l0‖ = δ → m ≤ ‖β l‖) → 2 * C (‖l0‖ + δ) < m → (∀ l, ‖l - l0‖ ≤ δ → region l) → ∃ l ∈ list, ‖l - l0‖ < δ

end FNFT.Spec

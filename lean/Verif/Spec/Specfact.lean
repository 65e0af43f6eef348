import Verif.Spec.Poly
import Mathlib.Analysis.SpecialFunctions.Complex.Log
/-!
# Specification of spectral factorization
-/
namespace FNFT
open Complex Finset

/-- The square of the wanted modulus of the spectral factor where the given polynomial has the value `v`: `|v|^2` for `kappa = 0`, `1 - kappa |v|^2` otherwise. -/
noncomputable def Spec.sfSq (kappa : ℤ) (v : ℂ) : ℝ := if kappa = 0 then ‖v‖ ^ 2 else 1 - kappa * ‖v‖ ^ 2

/-- The coefficient `k` of the Fourier series of the logarithm of the wanted modulus, sampled at the `N` roots of unity. -/
noncomputable def Spec.sfMode (N : ℕ) (kappa : ℤ) (p : Polynomial ℂ) (k : ℕ) : ℂ :=
  ∑ j ∈ range N, ((Real.log (Spec.sfSq kappa (p.eval (exp (2 * Real.pi * I * j / N)))) / 2 : ℝ) : ℂ) * exp (-(2 * Real.pi * I * j * k / N))

end FNFT

import Mathlib.Algebra.Polynomial.Derivative
import Mathlib.Data.Complex.Basic
/-!
# Specification: polynomials in the storage order of FNFT (highest degree first)
-/
namespace FNFT
open Finset

/-- The polynomial `p[0] z^deg + p[1] z^(deg-1) + … + p[deg]`. -/
noncomputable def Spec.poly (deg : ℕ) (p : ℕ → ℂ) : Polynomial ℂ :=
  ∑ j ∈ range (deg + 1), Polynomial.C (p j) * Polynomial.X ^ (deg - j)

end FNFT

import Verif.Spec.AknsSlow
import Mathlib.LinearAlgebra.Matrix.NonsingularInverse
import Mathlib.Analysis.SpecialFunctions.Log.Basic
/-!
# Specification: norming constants by forward and backward scattering

`Φ n`, `Ψ n` are the values of the two Jost solutions at the sample boundaries `n = 0, ..., N`.
-/
namespace FNFT.Spec

abbrev V2 := Fin 2 → ℂ

/-- `U_(N-1) ⋯ U_k`: the steps behind boundary `k`. -/
def tail (U : ℕ → M2) (N k : ℕ) : M2 := chain (fun n => U (k + n)) (N - k)

/-- The part of a value that is used: everything for the NSE, the real part for the KdV. -/
noncomputable def proj (kdv : Bool) (z : ℂ) : ℂ := if kdv then (z.re : ℂ) else z

/-- The quotient of component `i` of the two solutions at boundary `n`. -/
noncomputable def ratio (kdv : Bool) (Φ Ψ : ℕ → V2) (n : ℕ) (i : Fin 2) : ℂ := proj kdv (Φ n i) / proj kdv (Ψ n i)

/-- Boundary `n` is usable: no component is zero (and both quotients have the same sign for the KdV). -/
def Cand (kdv : Bool) (Φ Ψ : ℕ → V2) (n : ℕ) : Prop :=
  (∀ i, proj kdv (Φ n i) ≠ 0 ∧ proj kdv (Ψ n i) ≠ 0) ∧ (kdv = true → 0 < (ratio kdv Φ Ψ n 0 * ratio kdv Φ Ψ n 1).re)

/-- How much the two quotients at `n` differ: half the absolute value of the logarithm of their ratio. -/
noncomputable def mismatch (kdv : Bool) (Φ Ψ : ℕ → V2) (n : ℕ) : ℝ :=
  |1 / 2 * Real.log ‖ratio kdv Φ Ψ n 1 / ratio kdv Φ Ψ n 0‖|

/-- The first quotient at a usable boundary at which the quotients agree best; `none` if there is no usable boundary. -/
def Best (kdv : Bool) (Φ Ψ : ℕ → V2) (N : ℕ) (v : Option ℂ) : Prop :=
  match v with
  | none => ∀ n, n ≤ N → ¬ Cand kdv Φ Ψ n
  | some b => ∃ n, n ≤ N ∧ Cand kdv Φ Ψ n ∧ b = ratio kdv Φ Ψ n 0 ∧
      ∀ m, m ≤ N → Cand kdv Φ Ψ m → mismatch kdv Φ Ψ n ≤ mismatch kdv Φ Ψ m

/-- The solution that starts with `(e^(-iλ t0), 0)` at the left boundary, after `k` steps; in the S basis (`B` maps from
the S basis). -/
noncomputable def jostPhi (B : M2) (U : ℕ → M2) (t0 : ℝ) (l : ℂ) (k : ℕ) : V2 :=
  B⁻¹.mulVec ((chain U k).mulVec (B.mulVec ![Complex.exp (-Complex.I * l * t0), 0]))

/-- The solution that ends with `(0, e^(iλ tb))` at the right boundary, before the last `N-k` steps; in the S basis. The
steps have determinant one, so that the adjugate is the inverse. -/
noncomputable def jostPsi (B : M2) (U : ℕ → M2) (N : ℕ) (tb : ℝ) (l : ℂ) (k : ℕ) : V2 :=
  B⁻¹.mulVec ((tail U N k).adjugate.mulVec (B.mulVec ![0, Complex.exp (Complex.I * l * tb)]))

end FNFT.Spec

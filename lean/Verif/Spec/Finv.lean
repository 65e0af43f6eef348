import Mathlib.Algebra.Polynomial.Basic
import Mathlib.LinearAlgebra.Matrix.Notation
import Mathlib.Data.Complex.Basic
/-!
# Specification of layered media (fast inverse scattering)
-/
namespace FNFT
open Polynomial

/-- One layer `[1, Q z; R, z]`. -/
noncomputable def lay (Q R : ℂ) : Matrix (Fin 2) (Fin 2) ℂ[X] := !![1, C Q * X; C R, X]

/-- Product of the layers `0, ..., d-1`, the last one on the left. -/
noncomputable def layers (Q R : ℕ → ℂ) : ℕ → Matrix (Fin 2) (Fin 2) ℂ[X]
  | 0 => 1
  | d + 1 => lay (Q d) (R d) * layers Q R d

/-- The reflection coefficient `b(z)/a(z)` of the layers `0, ..., d-1` with `Q_n = -kappa conj(R_n)`, where `(a, b)` is the first column of their product, is `P(z)` up
to terms of order `z^d`. -/
def Spec.Reflects (kappa : ℤ) (d : ℕ) (R : ℕ → ℂ) (P : ℂ[X]) : Prop :=
  let L := layers (fun n => -(kappa : ℂ) * (starRingEnd ℂ) (R n)) R d
  ∀ m, m < d → (L 1 0).coeff m = (L 0 0 * P).coeff m

end FNFT

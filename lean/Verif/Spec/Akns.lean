import Verif.Model.AknsTypes
import Mathlib.Analysis.Normed.Algebra.MatrixExponential
import Mathlib.Analysis.Complex.Exponential
/-!
# Specification: exponential splittings (Prins & Wahls, "Higher order exponential splittings for the
fast non-linear Fourier transform of the Korteweg-de Vries equation")
-/
namespace FNFT.Spec
open FNFT.AknsDisc NormedSpace

/-- Complex 2x2 matrices. -/
abbrev M2 := Matrix (Fin 2) (Fin 2) ℂ

/-- The AKNS system at one sample is `v' = (A + B) v` with `A = [-iλ,0;0,iλ]` (scaled by the step). -/
noncomputable def akA (eps : ℝ) (lam : ℂ) : M2 :=
  !![-Complex.I * lam * eps, 0; 0, Complex.I * lam * eps]

/-- ... and `B = [0,q;r,0]` (scaled by the step). -/
noncomputable def akB (eps : ℝ) (q r : ℂ) : M2 := !![0, q * eps; r * eps, 0]

/-- Attaches the factors `A` (`true`) and `B` (`false`) alternately to a list of weights. -/
def alternate : Bool → List ℚ → List (Bool × ℚ)
  | _, [] => []
  | a, w :: l => (a, w) :: alternate (!a) l

/-- `exp(A/n) exp(2B/n) exp(2A/n) … exp(B/n)` (`a = true`), `n` odd; for `n = 1` `exp(A) exp(B)`.
With `a = false` the roles of `A` and `B` are exchanged. -/
def lie (a : Bool) (n : ℕ) : List (Bool × ℚ) :=
  alternate a ([1 / (n : ℚ)] ++ List.replicate (n - 1) (2 / (n : ℚ)) ++ [1 / (n : ℚ)])

/-- `(exp(A/2n) exp(B/n) exp(A/2n))^n` with adjacent factors merged (`a = true`). -/
def strang (a : Bool) (n : ℕ) : List (Bool × ℚ) :=
  alternate a ([1 / (2 * n : ℚ)] ++ List.replicate (2 * n - 1) (1 / (n : ℚ)) ++ [1 / (2 * n : ℚ)])

/-- The coefficient `117649/46080` of the 7th order splittings as it is written in the code. -/
def c7 : ℚ := 2874587633249303 / 1125899906842624

/-- The linear combination of products of exponentials advertised for a discretization. -/
def splitting : AknsDisc → List (ℚ × List (Bool × ℚ))
  | D2SPLIT1A => [(1, lie true 1)]
  | D2SPLIT1B => [(1, lie false 1)]
  | D2SPLIT2A => [(1, strang true 1)]
  | D2SPLIT2B => [(1, strang false 1)]
  | D2SPLIT2S => [(1 / 2, lie true 1), (1 / 2, lie false 1)]
  | D2SPLIT3S => [(2 / 3, strang true 1), (2 / 3, strang false 1), (-1 / 6, lie true 1), (-1 / 6, lie false 1)]
  | D2SPLIT3A => [(9 / 8, lie true 3), (-1 / 8, lie true 1)]
  | D2SPLIT3B => [(9 / 8, lie false 3), (-1 / 8, lie false 1)]
  | D2SPLIT4A | D4SPLIT4A => [(4 / 3, strang true 2), (-1 / 3, strang true 1)]
  | D2SPLIT4B | D4SPLIT4B => [(4 / 3, strang false 2), (-1 / 3, strang false 1)]
  | D2SPLIT5A => [(625 / 384, lie true 5), (-81 / 128, lie true 3), (1 / 192, lie true 1)]
  | D2SPLIT5B => [(625 / 384, lie false 5), (-81 / 128, lie false 3), (1 / 192, lie false 1)]
  | D2SPLIT6A => [(81 / 40, strang true 3), (-16 / 15, strang true 2), (1 / 24, strang true 1)]
  | D2SPLIT6B => [(81 / 40, strang false 3), (-16 / 15, strang false 2), (1 / 24, strang false 1)]
  | D2SPLIT7A => [(c7, lie true 7), (-15625 / 9216, lie true 5), (729 / 5120, lie true 3), (-1 / 9216, lie true 1)]
  | D2SPLIT7B => [(c7, lie false 7), (-15625 / 9216, lie false 5), (729 / 5120, lie false 3), (-1 / 9216, lie false 1)]
  | D2SPLIT8A => [(1024 / 315, strang true 4), (-729 / 280, strang true 3), (16 / 45, strang true 2), (-1 / 360, strang true 1)]
  | D2SPLIT8B => [(1024 / 315, strang false 4), (-729 / 280, strang false 3), (16 / 45, strang false 2), (-1 / 360, strang false 1)]
  | _ => []

/-- A linear combination of products of factors `EA w`, `EB w`. -/
noncomputable def combine (s : List (ℚ × List (Bool × ℚ))) (EA EB : ℚ → M2) : M2 :=
  (s.map fun t => (t.1 : ℂ) • (t.2.map fun f => if f.1 then EA f.2 else EB f.2).prod).sum

/-- The splitting approximation of `exp(A+B)`. -/
noncomputable def split (d : AknsDisc) (A B : M2) : M2 :=
  combine (splitting d) (fun w => exp ((w : ℂ) • A)) (fun w => exp ((w : ℂ) • B))

/-- The matrix that represents one sample: the splitting itself, except that the matrices of the
2SPLIT2A discretization are expressed in the basis changed by `exp(A/2)`. -/
noncomputable def sampleMatrix (d : AknsDisc) (EA EB : ℚ → M2) : M2 :=
  if d = D2SPLIT2A then EA (-1 / 2) * combine (splitting d) EA EB * EA (1 / 2)
  else combine (splitting d) EA EB

/-- The normalised Ablowitz-Ladik matrix `[1, Q z; R, z] / sqrt(1 - Q R)`, `Q = eps*q`, `R = eps*r`;
`s` is the square root. -/
noncomputable def ablowitzLadik (s Q R z : ℂ) : M2 := (1 / s) • !![1, Q * z; R, z]

end FNFT.Spec

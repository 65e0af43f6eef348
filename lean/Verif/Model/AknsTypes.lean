import Verif.Core
import Mathlib.Data.Rat.Defs
import Mathlib.Data.Complex.Basic
/-!
# AKNS discretizations: the enumeration and its tables
-/
namespace FNFT

/-- `akns_discretization_t`, /repo/include/private/fnft__akns_discretization_t.h:104-136 (the
constructors in the order of the C `enum`). `other n` stands for a value that is not one of the
enumerators. -/
inductive AknsDisc
  | D2SPLIT2_MODAL | D2SPLIT1A | D2SPLIT1B | D2SPLIT2A | D2SPLIT2B | D2SPLIT2S | D2SPLIT3A | D2SPLIT3B
  | D2SPLIT3S | D2SPLIT4A | D2SPLIT4B | D2SPLIT5A | D2SPLIT5B | D2SPLIT6A | D2SPLIT6B | D2SPLIT7A
  | D2SPLIT7B | D2SPLIT8A | D2SPLIT8B | BO | D4SPLIT4A | D4SPLIT4B | CF4_2 | CF4_3 | CF5_3 | CF6_4
  | ES4 | TES4 | FTES4_4A | FTES4_4B | D4SPLIT6B | other (n : ℤ)
  deriving DecidableEq

open AknsDisc

/-- `fnft__akns_discretization_degree`, fnft__akns_discretization.c:29-67. -/
def akns_degree : AknsDisc → ℕ
  | D2SPLIT1A | D2SPLIT1B | D2SPLIT2A | D2SPLIT2B | D2SPLIT2S | D2SPLIT2_MODAL => 1
  | D2SPLIT3S | D2SPLIT4B | D4SPLIT4B => 2
  | D2SPLIT3A | D2SPLIT3B => 3
  | D2SPLIT4A | D4SPLIT4A => 4
  | D2SPLIT6B => 6
  | D2SPLIT6A | D2SPLIT8B => 12
  | D2SPLIT5A | D2SPLIT5B => 15
  | D2SPLIT8A => 24
  | D2SPLIT7A | D2SPLIT7B => 105
  | _ => 0

/-- `fnft__akns_discretization_boundary_coeff`, fnft__akns_discretization.c:72-109; `none` is NaN. -/
def akns_boundary_coeff : AknsDisc → Option ℚ
  | D2SPLIT1A | D2SPLIT1B | D2SPLIT2A | D2SPLIT2B | D2SPLIT2S | D2SPLIT3A | D2SPLIT3B | D2SPLIT3S
  | D2SPLIT4A | D2SPLIT4B | D4SPLIT4A | D4SPLIT4B | D2SPLIT5A | D2SPLIT5B | D2SPLIT6A | D2SPLIT6B
  | D2SPLIT7A | D2SPLIT7B | D2SPLIT8A | D2SPLIT8B | D2SPLIT2_MODAL | BO | CF4_2 | CF4_3 | CF5_3
  | CF6_4 | ES4 | TES4 => some (1 / 2)
  | _ => none

/-- `fnft__akns_discretization_upsampling_factor`, fnft__akns_discretization.c:114-154. -/
def akns_upsampling_factor : AknsDisc → ℕ
  | D2SPLIT1A | D2SPLIT1B | D2SPLIT2A | D2SPLIT2B | D2SPLIT2S | D2SPLIT3A | D2SPLIT3B | D2SPLIT3S
  | D2SPLIT4A | D2SPLIT4B | D2SPLIT5A | D2SPLIT5B | D2SPLIT6A | D2SPLIT6B
  | D2SPLIT7A | D2SPLIT7B | D2SPLIT8A | D2SPLIT8B | D2SPLIT2_MODAL | BO => 1
  | D4SPLIT4A | D4SPLIT4B | CF4_2 => 2
  | CF4_3 | CF5_3 | ES4 | TES4 => 3
  | CF6_4 => 4
  | _ => 0

/-- `fnft__akns_discretization_method_order`, fnft__akns_discretization.c:158-198. -/
def akns_method_order : AknsDisc → ℕ
  | D2SPLIT1A | D2SPLIT1B | D2SPLIT2A | D2SPLIT2B | D2SPLIT2S | D2SPLIT3A | D2SPLIT3B | D2SPLIT3S
  | D2SPLIT4A | D2SPLIT4B | D2SPLIT5A | D2SPLIT5B | D2SPLIT6A | D2SPLIT6B
  | D2SPLIT7A | D2SPLIT7B | D2SPLIT8A | D2SPLIT8B | D2SPLIT2_MODAL | BO => 2
  | D4SPLIT4A | D4SPLIT4B | CF4_2 | CF4_3 | ES4 | TES4 => 4
  | CF5_3 => 5
  | CF6_4 => 6
  | _ => 0

/-! ## Straight-line code of the sample loops -/

/-- Right hand sides of the assignments in fnft__akns_fscatter.c: constants, entries `e_xB[c]` of the
`slot`-th matrix exponential stored in `e_Bstorage`, coefficients `p11[k]`, `p12[k]`, `p21[k]`,
`p22[k]` (`t = 0,1,2,3`) of the sample at hand. -/
inductive Ex
  | num (n : ℕ)
  | e (slot c : ℕ)
  | p (t k : ℕ)
  | add (a b : Ex)
  | sub (a b : Ex)
  | mul (a b : Ex)
  | div (a b : Ex)
  | neg (a : Ex)
  deriving DecidableEq

namespace Ex
instance : Add Ex := ⟨add⟩
instance : Sub Ex := ⟨sub⟩
instance : Mul Ex := ⟨mul⟩
instance : Div Ex := ⟨div⟩
instance : Neg Ex := ⟨neg⟩
instance (n : ℕ) : OfNat Ex n := ⟨num n⟩

/-- Value of an expression; `none` if a coefficient is read that was never written. -/
noncomputable def eval (env : ℕ → ℕ → ℂ) (rdp : ℕ → ℕ → Option ℂ) : Ex → Option ℂ
  | num n => some n
  | e s c => some (env s c)
  | p t k => rdp t k
  | add a b => do let x ← eval env rdp a; let y ← eval env rdp b; return x + y
  | sub a b => do let x ← eval env rdp a; let y ← eval env rdp b; return x - y
  | mul a b => do let x ← eval env rdp a; let y ← eval env rdp b; return x * y
  | div a b => do let x ← eval env rdp a; let y ← eval env rdp b; return x / y
  | neg a => do let x ← eval env rdp a; return -x
end Ex

/-- `p11[k] = rhs;` (`t = 0`), `p12[k] = rhs;` (`t = 1`), `p21[k] = rhs;` (`t = 2`), `p22[k] = rhs;`
(`t = 3`). -/
structure Asg where
  t : ℕ
  k : ℕ
  rhs : Ex

/-- One `case` of the `switch` in `akns_fscatter`: `zero` tells whether `p[0..len)` is cleared first,
`scales` are the factors `a` in the calls `zero_freq_scatter_matrix(e_aB, a*eps_t/deg, q[i], r[i])` in
the order in which the matrices are laid out in `e_Bstorage`, `asg` is the loop body. -/
structure Tab where
  zero : Bool
  scales : List ℚ
  asg : List Asg

end FNFT

import Verif.Model.Finv
import Verif.Model.KdvDisc
/-!
# Model of /repo/src/private/fnft__kdv_finvscatter.c

The routine is an instance of the template of `Model/Finv`.
-/
namespace FNFT

/-- The macros for the KdV equation, /repo/src/private/fnft__kdv_finvscatter.c:23-27. -/
noncomputable def kdvFinvKind (eps : ℝ) : FinvKind := ⟨fun _ => -(eps : ℂ), true, true⟩

/-- The `switch` in the base case (fnft__akns_finvscatter_q_from_r.inc:206-216) for the KdV equation: the `_VANILLA` methods are not listed there. -/
def kdvFinvDisc : KdvDisc → FinvDisc
  | .D2SPLIT2_MODAL => .modal
  | .D2SPLIT2A => .split2A
  | _ => .unsupported

/-- `kdv_finvscatter`, fnft__kdv_finvscatter.c:20-35 with the template; there is no argument `kappa`. -/
noncomputable def kdv_finvscatter (deg : ℕ) (tm q : Option (Buf ℂ)) (eps : ℝ) (d : KdvDisc) :
    Option (ℤ × Option (Buf ℂ) × Option (Buf ℂ)) :=
  finvscatter (kdvFinvKind eps) (kdvFinvDisc d) (kdv_degree d) deg tm q eps true

end FNFT

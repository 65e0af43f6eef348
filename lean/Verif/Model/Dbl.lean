import Mathlib.Data.EReal.Operations
import Verif.Core
/-!
# Doubles with IEEE 754 comparisons
Only ordering matters to the functions that use this type (filters and merging), so a double is an
extended real or NaN.  Signed zeros are identified (they compare equal), rounding is not modelled.
-/
namespace FNFT

/-- A C `double` up to rounding. -/
inductive Dbl where
  | nan : Dbl
  | num : EReal → Dbl

namespace Dbl
/-- C `<=`: false when an operand is NaN. -/
def le : Dbl → Dbl → Prop
  | num x, num y => x ≤ y
  | _, _ => False
/-- C `<`: false when an operand is NaN. -/
def lt : Dbl → Dbl → Prop
  | num x, num y => x < y
  | _, _ => False
/-- C `fabs`. -/
noncomputable def abs : Dbl → Dbl
  | num x => num (max x (-x))
  | nan => nan
/-- The literal 0.0 -/
noncomputable def zero : Dbl := num 0
end Dbl

/-- C `double complex`. -/
structure CDbl where
  re : Dbl
  im : Dbl

end FNFT

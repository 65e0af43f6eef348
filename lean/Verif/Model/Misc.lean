import Verif.Model.Dbl
import Mathlib.Algebra.Order.Round
import Mathlib.Data.Rat.Floor
/-!
# Model of /repo/src/private/fnft__misc.c (arrays, selection, integer helpers)
-/
namespace FNFT
open scoped Classical

/-- Result of the filter routines: return code and the contents of all in/out arguments afterwards. -/
structure FilterOut where
  ret : ℤ
  N : Option ℕ
  vals : Option (Buf CDbl)
  re : Option (Buf CDbl)

/-- The four comparisons that make `misc_filter` keep `v`
(fnft__misc.c:133-140: `CREAL>=b0`, `CREAL<=b1`, `CIMAG>=b2`, `CIMAG<=b3`). -/
noncomputable def filterKeep (box : Fin 4 → Dbl) (v : CDbl) : Bool :=
  if ¬ (box 0).le v.re then false
  else if ¬ v.re.le (box 1) then false
  else if ¬ (box 2).le v.im then false
  else if ¬ v.im.le (box 3) then false
  else true

/-- `ok_flag` of `misc_filter_inv` (fnft__misc.c:178-186). -/
noncomputable def filterInvKeep (box : Fin 4 → Dbl) (v : CDbl) : Bool :=
  let ok := false
  let ok := if ¬ (box 0).lt v.re then true else ok
  let ok := if ¬ v.re.lt (box 1) then true else ok
  let ok := if ¬ (box 2).lt v.im then true else ok
  let ok := if ¬ v.im.lt (box 3) then true else ok
  ok

/-- State of the compaction loop: `vals`, `rearrange_as_well` (`none` = NULL), `N_filtered`. -/
structure CompactSt where
  vals : Buf CDbl
  re : Option (Buf CDbl)
  nf : ℕ

/-- `rearrange_as_well[nf] = rearrange_as_well[i]` if the pointer is not NULL
(fnft__misc.c:144-145, 189-190). -/
def moveOpt (re : Option (Buf CDbl)) (nf i : ℕ) : Option (Option (Buf CDbl)) :=
  match re with
  | none => some none
  | some r => do
    let w ← r.rd i
    let r' ← r.wr nf w
    return some r'

/-- Loop body of `misc_filter` (fnft__misc.c:128-147) and of `misc_filter_inv` (:174-193): test
`vals[i]`; if it is kept move it (and the companion) to position `N_filtered`. -/
def compactBody (keep : CDbl → Bool) (i : ℕ) (s : CompactSt) : Option CompactSt := do
  let v ← s.vals.rd i
  if keep v then
    let vals' ← s.vals.wr s.nf v
    let re' ← moveOpt s.re s.nf i
    return ⟨vals', re', s.nf + 1⟩
  else
    return s

/-- `misc_filter`, fnft__misc.c:108-151. -/
noncomputable def misc_filter (N_ptr : Option ℕ) (vals re : Option (Buf CDbl))
    (box : Option (Fin 4 → Dbl)) : Option FilterOut :=
  match N_ptr, vals, box with
  | none, _, _ => some ⟨EC_INVALID_ARGUMENT, N_ptr, vals, re⟩
  | _, none, _ => some ⟨EC_INVALID_ARGUMENT, N_ptr, vals, re⟩
  | _, _, none => some ⟨EC_INVALID_ARGUMENT, N_ptr, vals, re⟩
  | some N, some v, some b =>
    if ¬ (b 0).le (b 1) ∨ ¬ (b 2).le (b 3) then some ⟨EC_INVALID_ARGUMENT, N_ptr, vals, re⟩
    else do
      let s ← forLoop N (compactBody (filterKeep b)) ⟨v, re, 0⟩
      return ⟨SUCCESS, some s.nf, some s.vals, s.re⟩

/-- `misc_filter_inv`, fnft__misc.c:153-197. -/
noncomputable def misc_filter_inv (N_ptr : Option ℕ) (vals re : Option (Buf CDbl))
    (box : Option (Fin 4 → Dbl)) : Option FilterOut :=
  match N_ptr, vals, box with
  | none, _, _ => some ⟨EC_INVALID_ARGUMENT, N_ptr, vals, re⟩
  | _, none, _ => some ⟨EC_INVALID_ARGUMENT, N_ptr, vals, re⟩
  | _, _, none => some ⟨EC_INVALID_ARGUMENT, N_ptr, vals, re⟩
  | some N, some v, some b =>
    if ¬ (b 0).le (b 1) ∨ ¬ (b 2).le (b 3) then some ⟨EC_INVALID_ARGUMENT, N_ptr, vals, re⟩
    else do
      let s ← forLoop N (compactBody (filterInvKeep b)) ⟨v, re, 0⟩
      return ⟨SUCCESS, some s.nf, some s.vals, s.re⟩

/-- Loop body of `misc_filter_nonreal` (fnft__misc.c:212-216). -/
noncomputable def nonrealBody (tol : Dbl) (i : ℕ) (s : Buf CDbl × ℕ) : Option (Buf CDbl × ℕ) := do
  let v ← s.1.rd i
  if ¬ tol.lt v.im.abs then return s
  else
    let b ← s.1.wr s.2 v
    return (b, s.2 + 1)

/-- `misc_filter_nonreal`, fnft__misc.c:199-220. Returns (code, *N_ptr, vals). -/
noncomputable def misc_filter_nonreal (N_ptr : Option ℕ) (vals : Option (Buf CDbl)) (tol : Dbl) :
    Option (ℤ × Option ℕ × Option (Buf CDbl)) :=
  match N_ptr, vals with
  | none, _ => some (EC_INVALID_ARGUMENT, N_ptr, vals)
  | _, none => some (EC_INVALID_ARGUMENT, N_ptr, vals)
  | some N, some v =>
    if ¬ Dbl.zero.le tol then some (EC_INVALID_ARGUMENT, N_ptr, vals)
    else do
      let s ← forLoop N (nonrealBody tol) (v, 0)
      return (SUCCESS, some s.2, some s.1)

/-- Inner loop of `misc_merge` (fnft__misc.c:239-243): `for (j=0; j<i; j++) { dist = …; if (dist <
tol) break; }`; returns the final value of `dist`.  `k` is the remaining number of iterations
(`i - j`), `d` the current value of `dist`. -/
noncomputable def mergeInner (dist : CDbl → CDbl → Dbl) (tol : Dbl) (b : Buf CDbl) (i : ℕ) :
    ℕ → Dbl → Option Dbl
  | 0, d => some d
  | k + 1, _ => do
    let vj ← b.rd (i - (k + 1))
    let vi ← b.rd i
    let d' := dist vj vi
    if d'.lt tol then return d' else mergeInner dist tol b i k d'

/-- Loop body of `misc_merge` (fnft__misc.c:238-249). State: vals, dist, N_filtered. -/
noncomputable def mergeBody (dist : CDbl → CDbl → Dbl) (tol : Dbl) (i' : ℕ)
    (s : Buf CDbl × Dbl × ℕ) : Option (Buf CDbl × Dbl × ℕ) := do
  let i := i' + 1                          -- the C loop starts at i = 1
  let d ← mergeInner dist tol s.1 i i s.2.1
  if d.lt tol then return (s.1, d, s.2.2)
  else
    let vi ← s.1.rd i
    let b ← s.1.wr s.2.2 vi
    return (b, d, s.2.2 + 1)

/-- `misc_merge`, fnft__misc.c:222-253. `dist a b` stands for `CABS(a - b)`; it is a parameter, so
every rounding behaviour of `CABS` and `-` is covered. Returns (code, *N_ptr, vals). -/
noncomputable def misc_merge (dist : CDbl → CDbl → Dbl) (N_ptr : Option ℕ)
    (vals : Option (Buf CDbl)) (tol : Dbl) : Option (ℤ × Option ℕ × Option (Buf CDbl)) :=
  match N_ptr with
  | none => some (EC_INVALID_ARGUMENT, N_ptr, vals)
  | some N =>
    if N = 0 then some (SUCCESS, N_ptr, vals)
    else match vals with
    | none => some (EC_INVALID_ARGUMENT, N_ptr, vals)
    | some v =>
      if tol.lt Dbl.zero then some (EC_INVALID_ARGUMENT, N_ptr, vals)
      else do
        let s ← forLoop (N - 1) (mergeBody dist tol) (v, Dbl.num (-1), 1)
        return (SUCCESS, some s.2.2, some s.1)

/-- `(UINT) ROUND((REAL)D / d)` for positive integers: rounding half away from zero, which for
non-negative arguments is Mathlib's `round`. Simplification: the quotient is exact (a double quotient
is off by at most one part in 2^53). -/
def roundDiv (D d : ℕ) : ℕ := (round ((D : ℚ) / (d : ℚ))).toNat

/-- Result of `misc_downsample`. -/
structure DownsampleOut (α : Type*) where
  ret : ℤ
  Dsub : ℕ
  qsub : Option (Buf α)
  first_last : Option (ℕ × ℕ)

/-- Copy loop of `misc_downsample` (fnft__misc.c:284-287). State: qsub, i. -/
def downsampleBody {α : Type*} (q : Buf α) (nskip : ℕ) (isub : ℕ) (s : Buf α × ℕ) :
    Option (Buf α × ℕ) := do
  let v ← q.rd s.2
  let b ← s.1.wr isub v
  return (b, s.2 + nskip)

/-- `misc_downsample`, fnft__misc.c:255-296, with non-NULL pointers (the NULL checks come first and
return EC_INVALID_ARGUMENT; not modelled) and a successful `malloc`. -/
def misc_downsample {α : Type*} (D : ℕ) (q : Buf α) (Dsub0 : ℕ) : Option (DownsampleOut α) :=
  if D ≤ 2 then some ⟨EC_INVALID_ARGUMENT, Dsub0, none, none⟩
  else
    let Dsub := Dsub0
    let Dsub := if Dsub < 2 then 2 else Dsub
    let Dsub := if Dsub > D then D else Dsub
    let nskip := roundDiv D Dsub
    let Dsub := roundDiv D nskip
    do
      let s ← forLoop Dsub (downsampleBody q nskip) (Buf.malloc Dsub, 0)
      return ⟨SUCCESS, Dsub, some s.1, some (0, s.2 - nskip)⟩

/-- The `while (result < number) result *= 2;` loop of `misc_nextpowerof2` (fnft__misc.c:303-304) on
64-bit words; `none` when the fuel is used up. -/
def np2Loop : ℕ → BitVec 64 → BitVec 64 → Option (BitVec 64)
  | 0, _, _ => none
  | f + 1, number, result => if result < number then np2Loop f number (result * 2) else some result

/-- `misc_nextpowerof2`, fnft__misc.c:298-306, run for at most `fuel` loop tests. -/
def misc_nextpowerof2 (fuel : ℕ) (number : BitVec 64) : Option (BitVec 64) :=
  if number = 0 then some 0 else np2Loop fuel number 1

end FNFT

import Verif.Core
import Mathlib.Data.EReal.Basic
import Mathlib.Analysis.SpecialFunctions.Log.Base
import Mathlib.Analysis.SpecialFunctions.Trigonometric.Complex
/-!
# Model of the numerical helpers in fnft__misc.h and fnft__misc.c (exact arithmetic)
-/
namespace FNFT

/-- `misc_rel_err`, fnft__misc.c:41-51. The final `n/d` is returned as a pair (0/0 and x/0 are NaN and
infinity in C). -/
noncomputable def misc_rel_err (len : ℕ) (vnum vex : Buf ℂ) : Option (ℝ × ℝ) :=
  forLoop len (fun i (s : ℝ × ℝ) => do
    let a ← vnum.rd i
    let b ← vex.rd i
    return (s.1 + ‖a - b‖, s.2 + ‖b‖)) (0, 0)

/-- Inner loops of `misc_hausdorff_dist`, fnft__misc.c:61-65 and 72-76: smallest distance of `a` to
the entries of `v`, starting from infinity. -/
noncomputable def hausdorffInner (a : ℂ) (len : ℕ) (v : Buf ℂ) : Option EReal :=
  forLoop len (fun j dist => do
    let b ← v.rd j
    let tmp : EReal := (‖a - b‖ : ℝ)
    return if tmp < dist then tmp else dist) ⊤

/-- Outer loops of `misc_hausdorff_dist`, fnft__misc.c:59-68 and 70-79. -/
noncomputable def hausdorffOuter (lenA : ℕ) (A : Buf ℂ) (lenB : ℕ) (B : Buf ℂ) (m : EReal) :
    Option EReal :=
  forLoop lenA (fun i max_dist => do
    let a ← A.rd i
    let dist ← hausdorffInner a lenB B
    return if dist > max_dist then dist else max_dist) m

/-- `misc_hausdorff_dist`, fnft__misc.c:53-83. (`CABS(vecA[i]-vecB[j])` is symmetric, so the second
pass is the first one with the roles exchanged.) -/
noncomputable def misc_hausdorff_dist (lenA : ℕ) (A : Buf ℂ) (lenB : ℕ) (B : Buf ℂ) :
    Option EReal := do
  let m ← hausdorffOuter lenA A lenB B (-1)
  hausdorffOuter lenB B lenA A m

/-- `misc_sech`, fnft__misc.c:85-88. -/
noncomputable def misc_sech (z : ℂ) : ℂ := 2 / (Complex.exp z + Complex.exp (-z))

/-- `misc_l2norm2`, fnft__misc.c:90-106. Inner `none` is the returned NaN. -/
noncomputable def misc_l2norm2 (N : ℕ) (Z : Buf ℂ) (a b : ℝ) : Option (Option ℝ) :=
  if a ≥ b ∨ N = 0 then some none
  else do
    let val ← forLoop N (fun i (val : ℝ) => do
      let z ← Z.rd i
      let tmp := ‖z‖
      return val + tmp * tmp) 0
    return some (val * ((b - a) / N))

/-- `misc_CSINC`, fnft__misc.h:213-221. -/
noncomputable def misc_CSINC (x : ℂ) : ℂ :=
  if ‖x‖ ≥ 1e-8 then Complex.sin x / x else Complex.cos (x / (Real.sqrt 3 : ℝ))

/-- Horner loop of `misc_CSINC_derivative` (fnft__misc.h:248-249), iteration `i` has `n = 8 - i`. -/
noncomputable def csincDerivHorner (x2 : ℂ) : ℕ → ℂ
  | 0 => 0
  | i + 1 =>
    let n := 8 - i
    ((if n % 2 ≠ 0 then 1 else -1) + x2 / (2 * n + 2) * csincDerivHorner x2 i) / (2 * n + 3)

/-- `misc_CSINC_derivative`, fnft__misc.h:239-254. -/
noncomputable def misc_CSINC_derivative (x : ℂ) : ℂ :=
  if ‖x‖ ≥ 1 then (Complex.cos x - misc_CSINC x) / x
  else csincDerivHorner (x * x) 9 * x

/-- `misc_matrix_mult`, fnft__misc.h:306-321. `C` does not overlap `A` or `B` (documented
requirement). -/
noncomputable def misc_matrix_mult (n m p : ℕ) (A B C : Buf ℂ) : Option (Buf ℂ) :=
  forLoop n (fun cn C =>
    forLoop p (fun cp C => do
      let C ← C.wr (cn * p + cp) 0
      forLoop m (fun cm C => do
        let c ← C.rd (cn * p + cp)
        let a ← A.rd (cn * m + cm)
        let b ← B.rd (cm * p + cp)
        C.wr (cn * p + cp) (c + a * b)) C) C) C

/-- Loop of `misc_legendre_poly` (fnft__misc.h:384-390): state (P_1, P_2); iteration `i = j + 2`. -/
noncomputable def legendreLoop (x : ℝ) : ℕ → ℝ × ℝ
  | 0 => (x, 1)
  | j + 1 =>
    let s := legendreLoop x j
    let i : ℝ := (j : ℝ) + 2
    let P := (2 * i - 1) * x * s.1 / i - (i - 1) * s.2 / i
    (P, s.1)

/-- `misc_legendre_poly`, fnft__misc.h:376-393; the value of `P` after the loop is that of `P_1`. -/
noncomputable def misc_legendre_poly (n : ℕ) (x : ℝ) : ℝ :=
  if n = 0 then 1 else if n = 1 then x else (legendreLoop x (n - 1)).1

/-- First loop of `misc_normalize_vector`, fnft__misc.h:410-415. -/
noncomputable def maxAbs (len : ℕ) (v : Buf ℂ) : Option ℝ :=
  forLoop len (fun i m => do
    let z ← v.rd i
    return if ‖z‖ > m then ‖z‖ else m) 0

/-- Second loop of `misc_normalize_vector`, fnft__misc.h:424-425. -/
noncomputable def scaleBy (len : ℕ) (scl : ℝ) (v : Buf ℂ) : Option (Buf ℂ) :=
  forLoop len (fun i v => do
    let z ← v.rd i
    v.wr i (z * scl)) v

/-- `misc_normalize_vector`, fnft__misc.h:407-428. Returns (a, v). -/
noncomputable def misc_normalize_vector (len : ℕ) (v : Buf ℂ) : Option (ℤ × Buf ℂ) := do
  let max_abs ← maxAbs len v
  if max_abs = 0 then return (0, v)
  let a : ℤ := ⌊Real.logb 2 max_abs⌋
  let scl : ℝ := (2 : ℝ) ^ (-(a : ℝ))
  let v ← scaleBy len scl v
  return (a, v)

end FNFT

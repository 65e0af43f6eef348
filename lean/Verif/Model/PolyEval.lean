import Verif.Core
import Mathlib.Analysis.Complex.Norm
/-!
# Model of /repo/src/private/fnft__poly_eval.c

`p` and `z`, `deriv` are distinct arrays. `NULL` arguments are `none`.
-/
namespace FNFT

/-- Horner loop, fnft__poly_eval.c:40-42. -/
noncomputable def hornerFwd (deg : ℕ) (p : Buf ℂ) (z : ℂ) : Option ℂ := do
  let tmp ← p.rd 0
  forLoop deg (fun j' tmp => do
    let c ← p.rd (j' + 1)
    return c + tmp * z) tmp

/-- Horner loop for the reversed polynomial, fnft__poly_eval.c:45-47. -/
noncomputable def hornerRev (deg : ℕ) (p : Buf ℂ) (z : ℂ) : Option ℂ := do
  let tmp ← p.rd deg
  forLoop deg (fun j' tmp => do
    let c ← p.rd (deg - (j' + 1))
    return c + tmp / z) tmp

/-- `poly_eval`, fnft__poly_eval.c:25-53. Returns (code, z). -/
noncomputable def poly_eval (deg : ℕ) (p : Option (Buf ℂ)) (nz : ℕ) (z : Option (Buf ℂ)) :
    Option (ℤ × Option (Buf ℂ)) :=
  match p, z with
  | none, z => some (EC_INVALID_ARGUMENT, z)
  | some _, none => some (EC_INVALID_ARGUMENT, none)
  | some p, some z => do
    let z ← forLoop nz (fun i z => do
      let zi ← z.rd i
      if ‖zi‖ ≤ 1 then
        let tmp ← hornerFwd deg p zi
        z.wr i tmp
      else
        let tmp ← hornerRev deg p zi
        z.wr i (tmp * zi ^ deg)) z
    return (SUCCESS, some z)

/-- Horner loop with derivative, fnft__poly_eval.c:71-76. State (tmp, tmp2). -/
noncomputable def hornerFwd2 (deg : ℕ) (p : Buf ℂ) (z : ℂ) : Option (ℂ × ℂ) := do
  let tmp ← p.rd 0
  forLoop deg (fun j' (s : ℂ × ℂ) => do
    let c ← p.rd (j' + 1)
    return (c + s.1 * z, s.1 + s.2 * z)) (tmp, 0)

/-- Reversed Horner loop with derivative, fnft__poly_eval.c:80-85. State (tmp, tmp2). -/
noncomputable def hornerRev2 (deg : ℕ) (p : Buf ℂ) (z : ℂ) : Option (ℂ × ℂ) := do
  let tmp ← p.rd deg
  forLoop deg (fun j' (s : ℂ × ℂ) => do
    let c ← p.rd (deg - (j' + 1))
    return (c + s.1 / z, s.1 + s.2 / z)) (tmp, 0)

/-- `deg - 1` on `UINT` (64 bit `size_t`): wraps around for `deg = 0`. -/
def uintPred (deg : ℕ) : ℕ := if deg = 0 then 2 ^ 64 - 1 else deg - 1

/-- `poly_evalderiv`, fnft__poly_eval.c:55-91. Returns (code, z, deriv). `deriv` is not checked for
`NULL` by the code, so it is an array here. -/
noncomputable def poly_evalderiv (deg : ℕ) (p : Option (Buf ℂ)) (nz : ℕ) (z : Option (Buf ℂ))
    (deriv : Buf ℂ) : Option (ℤ × Option (Buf ℂ) × Buf ℂ) :=
  match p, z with
  | none, z => some (EC_INVALID_ARGUMENT, z, deriv)
  | some _, none => some (EC_INVALID_ARGUMENT, none, deriv)
  | some p, some z => do
    let r ← forLoop nz (fun i (s : Buf ℂ × Buf ℂ) => do
      let zi ← s.1.rd i
      if ‖zi‖ ≤ 1 then
        let t ← hornerFwd2 deg p zi
        let z ← s.1.wr i t.1
        let d ← s.2.wr i t.2
        return (z, d)
      else
        let t ← hornerRev2 deg p zi
        let d ← s.2.wr i (zi ^ uintPred deg * (deg * t.1 - t.2 / zi))
        let z ← s.1.wr i (t.1 * zi ^ deg)
        return (z, d)) (z, deriv)
    return (SUCCESS, some r.1, r.2)

end FNFT

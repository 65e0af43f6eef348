import Verif.Model.KissFFT
/-!
# Model of /repo/src/private/fnft__poly_specfact.c

Exact arithmetic; allocations succeed. Warnings are not modelled.
-/
namespace FNFT
open Kiss Complex

open Classical in
/-- The logarithmic magnitude `buf_x[i]`, fnft__poly_specfact.c:74-104, for one value `v` of the polynomial. The outer `none` is a
logarithm of zero (minus infinity; outside of the model); an error code if `kappa` is not -1, 0 or 1. -/
noncomputable def sfLog (kappa : ℤ) (v : ℂ) : Option ℂ :=
  if kappa = 0 then (if ‖v‖ = 0 then none else some (log (‖v‖ : ℂ)))
  else if kappa = -1 then some (0.5 * log ((1 + ‖v‖ * ‖v‖ : ℝ) : ℂ))
  else if 1 - (kappa : ℝ) * (‖v‖ * ‖v‖) = 0 then none
  else some (0.5 * log ((1 - (kappa : ℝ) * (‖v‖ * ‖v‖) : ℝ) : ℂ))

/-- The factor in the discrete Hilbert transform for the coefficient `i`, fnft__poly_specfact.c:113-118. -/
noncomputable def sfHilbert (M i : ℕ) : ℂ :=
  if i = 0 then 0
  else if i < M / 2 - 1 then -I / M
  else if i = M / 2 - 1 then 0
  else I / M

/-- `poly_specfact` after the checks and after the creation of the plans, fnft__poly_specfact.c:62-137: code, `result`. (`kappa` is
-1, 0 or 1; `buf_in[M/2-1] = 0` also overwrites the coefficient zero if `M/2-1` is zero.) -/
noncomputable def sfMain (deg : ℕ) (poly : Buf ℂ) (kappa : ℤ) (M : ℕ) (pf pi : Plan) (result : Buf ℂ) : Option (Buf ℂ) := do
  let bin ← fill 0 (deg + 1) (fun i => poly.rd i) (Buf.malloc M)
  let bin ← fill (deg + 1) (M - (deg + 1)) (fun _ => some 0) bin
  let bout ← fft pf bin (Buf.malloc M)
  let bx ← fill 0 M (fun i => do
    let v ← bout.rd i
    sfLog kappa v) (Buf.malloc M)
  let bin ← fft pf bx bin
  let bin ← forLoop M (fun i (b : Buf ℂ) => do
    let v ← b.rd i
    b.wr i (v * sfHilbert M i)) bin
  let bout ← fft pi bin bout
  let bin ← fill 0 M (fun i => do
    let x ← bx.rd i
    let y ← bout.rd i
    return exp (x - I * y) / M) bin
  let bout ← fft pi bin bout
  fill 0 (deg + 1) (fun i => do
    let v ← bout.rd (deg - i)
    return (starRingEnd ℂ) v) result

/-- `poly_specfact`, fnft__poly_specfact.c:26-147: code, `result`. (The program looks at `kappa` only after the first FFT.) -/
noncomputable def poly_specfact (deg : ℕ) (poly result : Option (Buf ℂ)) (oversampling_factor : ℕ) (kappa : ℤ) :
    Option (ℤ × Option (Buf ℂ)) :=
  if deg = 0 then some (EC_INVALID_ARGUMENT, result)
  else match poly with
  | none => some (EC_INVALID_ARGUMENT, result)
  | some poly =>
    match result with
    | none => some (EC_INVALID_ARGUMENT, none)
    | some result =>
      if oversampling_factor = 0 then some (EC_INVALID_ARGUMENT, some result)
      else do
        let M ← nextLen ((deg + 1) * oversampling_factor)
        match ← mkPlan M (-1) with
        | (_, some pf) =>
          match ← mkPlan M 1 with
          | (_, some pi) =>
            if kappa ≠ 0 ∧ kappa ≠ -1 ∧ kappa ≠ 1 then return (EC_INVALID_ARGUMENT, some result)
            else
              let r ← sfMain deg poly kappa M pf pi result
              return (SUCCESS, some r)
          | (rc, none) => return (E_SUBROUTINE rc, some result)
        | (rc, none) => return (E_SUBROUTINE rc, some result)

end FNFT

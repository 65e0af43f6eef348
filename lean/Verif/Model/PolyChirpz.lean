import Verif.Model.KissFFT
import Mathlib.Analysis.SpecialFunctions.Pow.Complex
/-!
# Model of /repo/src/private/fnft__poly_chirpz.c

`CPOW` is the principal power. All allocations succeed.
-/
namespace FNFT
open Kiss

/-- `poly_chirpz`, fnft__poly_chirpz.c:33-105. Returns (code, result). -/
noncomputable def poly_chirpz (deg : ℕ) (p : Option (Buf ℂ)) (A W : ℂ) (M : ℕ)
    (result : Option (Buf ℂ)) : Option (ℤ × Option (Buf ℂ)) :=
  match p, result with
  | none, r => some (EC_INVALID_ARGUMENT, r)
  | some p, r =>
    if M = 0 then some (EC_INVALID_ARGUMENT, r)
    else match r with
    | none => some (EC_INVALID_ARGUMENT, none)
    | some result => do
      let N := deg + 1
      let L ← nextLen (N + M - 1)
      let Y : Buf ℂ := Buf.malloc L
      let V : Buf ℂ := Buf.malloc L
      let buf : Buf ℂ := Buf.malloc L
      match ← mkPlan L (-1) with
      | (_, some plan_fwd) =>
        match ← mkPlan L 1 with
        | (_, some plan_inv) =>
          -- Setup yn and compute Yr = fft(yn)
          let buf ← fill 0 N (fun n => do
            let c ← p.rd (deg - n)
            return c * A ^ (-1 * (n : ℂ)) * W ^ ((1 / 2 : ℂ) * n * n)) buf
          let buf ← fill N (L - N) (fun _ => some 0) buf
          let Y ← fft plan_fwd buf Y
          -- Setup vn and compute Vr = fft(vn)
          let buf ← fill 0 M (fun n => some (W ^ (-(1 / 2 : ℂ) * n * n))) buf
          let buf ← fill M (L - N + 1 - M) (fun _ => some 0) buf
          let buf ← fill (L - N + 1) (L - (L - N + 1)) (fun n =>
            some (W ^ (-(1 / 2 : ℂ) * ((L - n : ℕ) : ℂ) * ((L - n : ℕ) : ℂ)))) buf
          let V ← fft plan_fwd buf V
          -- Multiply V and Y
          let buf ← fill 0 L (fun n => do
            let v ← V.rd n
            let y ← Y.rd n
            return v * y) buf
          -- inverse FFT of the product
          let V ← fft plan_inv buf V
          -- Form the final result
          let result ← fill 0 M (fun n => do
            let v ← V.rd n
            return W ^ ((1 / 2 : ℂ) * n * n) * v / L) result
          return (SUCCESS, some result)
        | (rc, none) => return (E_SUBROUTINE rc, some result)
      | (rc, none) => return (E_SUBROUTINE rc, some result)

end FNFT

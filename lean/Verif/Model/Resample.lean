import Verif.Model.KissFFT
/-!
# Model of `misc_resample`, /repo/src/private/fnft__misc.c:308-376
-/
namespace FNFT
open Kiss

/-- The `freq` array, fnft__misc.c:351-356. -/
noncomputable def resampleFreq (D : ℕ) (eps_t : ℝ) : Option (Buf ℝ) := do
  let scl_factor : ℝ := D * eps_t
  let freq ← fill 0 (D / 2) (fun i => some ((i : ℝ) / scl_factor)) (Buf.malloc D)
  fill (D / 2) (D - D / 2) (fun i => some (((i : ℝ) - D) / scl_factor)) freq

/-- `misc_resample`, fnft__misc.c:308-376. Returns the code and the array `q_new`. Allocations
succeed; exact arithmetic. -/
noncomputable def misc_resample (D : ℕ) (eps_t : ℝ) (q : Option (Buf ℂ)) (delta : ℝ)
    (q_new : Option (Buf ℂ)) : Option (ℤ × Option (Buf ℂ)) :=
  match q with
  | none => some (EC_INVALID_ARGUMENT, q_new)
  | some q =>
    if D ≤ 2 then some (EC_INVALID_ARGUMENT, q_new)
    else match q_new with
    | none => some (EC_INVALID_ARGUMENT, none)
    | some q_new =>
      if eps_t = 0 then some (EC_INVALID_ARGUMENT, some q_new)
      else do
        let buf0 : Buf ℂ := Buf.malloc D
        let buf1 : Buf ℂ := Buf.malloc D
        match ← mkPlan D (-1) with
        | (_, some plan_fwd) =>
          match ← mkPlan D 1 with
          | (_, some plan_inv) =>
            let buf0 ← fill 0 D (fun i => q.rd i) buf0
            let buf1 ← fft plan_fwd buf0 buf1
            let freq ← resampleFreq D eps_t
            -- buf1[i] *= ..., in place: every cell is read before it is written and read only once
            let buf1 ← forLoop D (fun i b => do
              let v ← b.rd i
              let f ← freq.rd i
              b.wr i (v * Complex.exp (2 * Complex.I * Real.pi * delta * f))) buf1
            let buf0 ← fft plan_inv buf1 buf0
            let q_new ← fill 0 D (fun i => do
              let v ← buf0.rd i
              return v / D) q_new
            return (SUCCESS, some q_new)
          | (rc, none) => return (E_SUBROUTINE rc, some q_new)
        | (rc, none) => return (E_SUBROUTINE rc, some q_new)

end FNFT

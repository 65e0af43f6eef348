import Verif.Model.NseScatter
import Verif.Model.PolyChirpz
/-!
# Model of fnft_nsev.c: the continuous spectrum

`nsev_compute_contspec`, /repo/src/fnft_nsev.c:780-934. All allocations succeed.
-/
namespace FNFT
open Complex

/-- `fnft_nsev_cstype_t`, /repo/include/fnft_nsev.h:134-138; `other` is a value that is not an
enumerator. -/
inductive CsType
  | REFLECTION_COEFFICIENT | AB | BOTH | other (n : ℤ)
  deriving DecidableEq

/-- Result of one call: the code and the array of the caller. -/
abbrev CodeBuf := ℤ × Buf ℂ

/-- Lines 848-861 of fnft_nsev.c: copy of the entries 11 and 21 of the scattering matrix for frequency `i`,
times `2^Ws[i]` if normalisation is on. State `H11_vals`, `H21_vals`. -/
noncomputable def contCopyBody (coef : Buf ℂ) (Ws : Option (Buf ℤ)) (i : ℕ) (H : Buf ℂ × Buf ℂ) :
    Option (Buf ℂ × Buf ℂ) := do
  let h11 ← coef.rd (i * 4)
  let h21 ← coef.rd (i * 4 + 2)
  let scl ← match Ws with
    | none => some 1
    | some Ws => (Ws.rd i).map fun w => (2 : ℂ) ^ w
  let a ← H.1.wr i (h11 * scl)
  let b ← H.2.wr i (h21 * scl)
  return (a, b)

/-- The branch for slow methods, fnft_nsev.c:832-862. Result: `H11_vals` and `H21_vals` (two halves of one
allocated block in C), or the code that is returned. -/
noncomputable def contSlow (D : ℕ) (q r : Option (Buf ℂ)) (eps_t : ℝ) (kappa : ℤ) (M : ℕ) (xi : Buf ℂ)
    (normalize : Bool) (d : NseDisc) : Option (Except ℤ (Buf ℂ × Buf ℂ)) := do
  let Ws : Option (Buf ℤ) := if normalize then some (Buf.malloc (4 * M)) else none
  let R ← nse_scatter_matrix D q r eps_t kappa M (some xi) (some (Buf.malloc (4 * M))) Ws d 0
  if R.ret ≠ SUCCESS then return .error (E_SUBROUTINE R.ret)
  let H ← forLoop M (contCopyBody R.result R.W) (Buf.malloc M, Buf.malloc M)
  return .ok H

/-- `nse_discretization_lambda_to_z(1, eps_t, &x, ...)`. -/
noncomputable def lambdaToZ1 (eps_t : ℝ) (x : ℂ) (d : NseDisc) : Option (ℤ × ℂ) := do
  let r ← nse_lambda_to_z 1 eps_t (Buf.ofList [x]) d
  let z ← r.2.rd 0
  return (r.1, z)

/-- `poly_chirpz(deg, p, A, V, M, H)` followed by `CHECK_RETCODE`. -/
noncomputable def chirpzChk (deg : ℕ) (p : Buf ℂ) (A V : ℂ) (M : ℕ) : Option (Except ℤ (Buf ℂ)) := do
  match ← poly_chirpz deg (some p) A V M (some (Buf.malloc M)) with
  | (rc, some b) => return if rc = SUCCESS then .ok b else .error (E_SUBROUTINE rc)
  | (rc, none) => return .error (E_SUBROUTINE rc)

/-- The branch for polynomial transfer matrices, fnft_nsev.c:864-884. -/
noncomputable def contFast (deg : ℕ) (tm : Buf ℂ) (eps_t XI0 eps_xi : ℝ) (M : ℕ) (d : NseDisc) :
    Option (Except ℤ (Buf ℂ × Buf ℂ)) := do
  let V ← lambdaToZ1 eps_t (eps_xi : ℂ) d
  if V.1 ≠ SUCCESS then return .error (E_SUBROUTINE V.1)
  let A ← lambdaToZ1 eps_t (-XI0 : ℂ) d
  if A.1 ≠ SUCCESS then return .error (E_SUBROUTINE A.1)
  match ← chirpzChk deg tm A.2 V.2 M with
  | .error ec => return .error ec
  | .ok H11 =>
    match ← chirpzChk deg (tm.view (2 * (deg + 1))) A.2 V.2 M with
    | .error ec => return .error ec
    | .ok H21 => return .ok (H11, H21)

/-- Loop over the reflection coefficient, fnft_nsev.c:898-904; the flag tells that the function was left
with `E_DIV_BY_ZERO`. -/
noncomputable def contRhoBody (xi H11 H21 : Buf ℂ) (ph : ℝ) (i : ℕ) (s : Bool × Buf ℂ) : Option (Bool × Buf ℂ) :=
  if s.1 then some s
  else do
    let h11 ← H11.rd i
    if h11 = 0 then return (true, s.2)
    else
      let h21 ← H21.rd i
      let x ← xi.rd i
      let b ← s.2.wr i (h21 * exp (I * x * ph) / h11)
      return (false, b)

/-- Loop over `a` and `b`, fnft_nsev.c:921-924. -/
noncomputable def contABBody (offset M : ℕ) (scale : ℂ) (xi H11 H21 : Buf ℂ) (pa pb : ℝ) (i : ℕ) (b : Buf ℂ) :
    Option (Buf ℂ) := do
  let h11 ← H11.rd i
  let h21 ← H21.rd i
  let x ← xi.rd i
  let b ← b.wr (offset + i) (h11 * scale * exp (I * x * pa))
  b.wr (offset + M + i) (h21 * scale * exp (I * x * pb))

/-- `case nsev_cstype_REFLECTION_COEFFICIENT`, fnft_nsev.c:893-905. `none` also when the phase factor is
NaN (this needs an unknown discretization). Result: flag of `E_DIV_BY_ZERO` or code, and the array. -/
noncomputable def contRho (eps_t T1 : ℝ) (M : ℕ) (xi H11 H21 result : Buf ℂ) (d : NseDisc) : Option CodeBuf :=
  match nse_phase_factor_rho eps_t T1 d with
  | (rc, ph) =>
    if rc ≠ SUCCESS then some (E_SUBROUTINE rc, result)
    else match ph with
      | some (some ph) => do
        let s ← forLoop M (contRhoBody xi H11 H21 ph) (false, result)
        return (if s.1 then EC_DIV_BY_ZERO else SUCCESS, s.2)
      | _ => none

/-- `case nsev_cstype_AB`, fnft_nsev.c:910-926. -/
noncomputable def contAB (eps_t : ℝ) (Dg : ℕ) (T0 T1 : ℝ) (W : ℤ) (offset M : ℕ) (xi H11 H21 result : Buf ℂ)
    (d : NseDisc) : Option CodeBuf :=
  match nse_phase_factor_a eps_t Dg T0 T1 d with
  | (rc, pa) =>
    if rc ≠ SUCCESS then some (E_SUBROUTINE rc, result)
    else match nse_phase_factor_b eps_t Dg T0 T1 d with
      | (rc, pb) =>
        if rc ≠ SUCCESS then some (E_SUBROUTINE rc, result)
        else match pa, pb with
          | some (some pa), some (some pb) => do
            let b ← forLoop M (contABBody offset M ((2 : ℂ) ^ W) xi H11 H21 pa pb) result
            return (SUCCESS, b)
          | _, _ => none

/-- The `switch (opts->contspec_type)`, fnft_nsev.c:886-932. -/
noncomputable def contSwitch (cs : CsType) (eps_t : ℝ) (Dg : ℕ) (T0 T1 : ℝ) (W : ℤ) (M : ℕ)
    (xi H11 H21 result : Buf ℂ) (d : NseDisc) : Option CodeBuf :=
  match cs with
  | .BOTH => do
    let r ← contRho eps_t T1 M xi H11 H21 result d
    if r.1 ≠ SUCCESS then return r
    contAB eps_t Dg T0 T1 W M M xi H11 H21 r.2 d
  | .REFLECTION_COEFFICIENT => contRho eps_t T1 M xi H11 H21 result d
  | .AB => contAB eps_t Dg T0 T1 W 0 M xi H11 H21 result d
  | .other _ => some (EC_INVALID_ARGUMENT, result)

/-- Computation of `H11_vals`, `H21_vals`, fnft_nsev.c:831-884. -/
noncomputable def contH (deg : ℕ) (W : ℤ) (tm : Option (Buf ℂ)) (q r : Option (Buf ℂ)) (eps_t : ℝ) (D : ℕ)
    (XI0 eps_xi : ℝ) (M : ℕ) (xi : Buf ℂ) (kappa : ℤ) (normalize : Bool) (d : NseDisc) :
    Option (Except ℤ (Buf ℂ × Buf ℂ)) :=
  match tm with
  | none =>
    if deg = 0 ∧ W = 0 then contSlow D q r eps_t kappa M xi normalize d
    else some (.error (E_SUBROUTINE EC_INVALID_ARGUMENT)) -- `poly_chirpz` rejects the NULL pointer
  | some tm => contFast deg tm eps_t XI0 eps_xi M d

/-- `nsev_compute_contspec`, fnft_nsev.c:780-934. `T`, `XI` are not NULL. For `D_given ≤ 1` or `M ≤ 1` the
step sizes are not finite numbers in C; these cases are outside of the model (`none`). -/
noncomputable def nsev_compute_contspec (deg : ℕ) (W : ℤ) (tm : Option (Buf ℂ)) (q r : Option (Buf ℂ)) (T0 T1 : ℝ)
    (D : ℕ) (XI0 XI1 : ℝ) (M : ℕ) (result : Buf ℂ) (kappa : ℤ) (cs : CsType) (normalize : Bool) (d : NseDisc) :
    Option CodeBuf :=
  let up := nse_upsampling_factor d
  if up = 0 then some (EC_INVALID_ARGUMENT, result)
  else
    let Dg := D / up
    if Dg ≤ 1 ∨ M ≤ 1 then none
    else do
      let eps_t : ℝ := (T1 - T0) / (Dg - 1)
      let eps_xi : ℝ := (XI1 - XI0) / (M - 1)
      let xi ← fill 0 M (fun i => some ((XI0 + eps_xi * i : ℝ) : ℂ)) (Buf.malloc M)
      match ← contH deg W tm q r eps_t D XI0 eps_xi M xi kappa normalize d with
      | .error ec => return (ec, result)
      | .ok H => contSwitch cs eps_t Dg T0 T1 W M xi H.1 H.2 result d

/-- The transfer matrix of `fnft_nsev_base`, fnft_nsev.c:527-552: `deg`, `W` and the polynomial matrix for
fast methods, zeros and no matrix for slow ones; or the code that is returned. `none` also when the code of
`nse_fscatter` is that of an uninitialised variable. -/
noncomputable def nsevTransfer (D : ℕ) (q r : Option (Buf ℂ)) (eps_t : ℝ) (normalize : Bool) (d : NseDisc) :
    Option (Except ℤ (ℕ × ℤ × Option (Buf ℂ))) := do
  let i ← nse_fscatter_numel D d
  if i = 0 then return .ok (0, 0, none)
  else
    let R ← nse_fscatter D q r eps_t (some (Buf.malloc i)) (some 0) (if normalize then some 0 else none) d
    let rc ← R.ret
    if rc ≠ SUCCESS then return .error (E_SUBROUTINE rc)
    else return .ok (R.deg, R.W, some R.result)

end FNFT

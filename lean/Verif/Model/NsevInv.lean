import Verif.Model.Specfact
import Verif.Model.Finv
import Verif.Model.Nsev
/-!
# Model of /repo/src/fnft_nsev_inverse.c

Exact arithmetic; all allocations succeed; the arrays of the caller do not overlap. `NULL` is `none`. A division by a complex zero (the result is
not a number in C) is outside of the model (`none`).
-/
namespace FNFT
open Kiss Complex

/-- `fnft_nsev_inverse_cstype_t`, /repo/include/fnft_nsev_inverse.h:58-62. -/
inductive InvCs | REFLECTION_COEFFICIENT | B_OF_XI | B_OF_TAU | other (n : ℤ)
  deriving DecidableEq

/-- `fnft_nsev_inverse_dstype_t`, /repo/include/fnft_nsev_inverse.h:76-79. -/
inductive InvDs | NORMING_CONSTANTS | RESIDUES | other (n : ℤ)
  deriving DecidableEq

/-- `fnft_nsev_inverse_csmethod_t`, /repo/include/fnft_nsev_inverse.h:108-113. -/
inductive InvMeth | DEFAULT | REFL_COEFF | AB_FROM_ITER | USE_SEED | other (n : ℤ)
  deriving DecidableEq

/-- `fnft_nsev_inverse_opts_t`, /repo/include/fnft_nsev_inverse.h:156-163. -/
structure InvOpts where
  disc : NseDisc
  cs : InvCs
  meth : InvMeth
  ds : InvDs
  max_iter : ℕ
  over : ℕ

/-- `fnft_nsev_inverse_default_opts`, fnft_nsev_inverse.c:27-39. -/
def inv_default_opts : InvOpts := ⟨.D2SPLIT2A, .REFLECTION_COEFFICIENT, .DEFAULT, .NORMING_CONSTANTS, 100, 8⟩

/-- Division of complex numbers. -/
noncomputable def cdiv (x y : ℂ) : Option ℂ := if y = 0 then none else some (x / y)

/-- `fnft_nsev_inverse_XI`, fnft_nsev_inverse.c:41-66: code and `XI`. -/
noncomputable def fnft_nsev_inverse_XI (D : ℕ) (T : Option (ℝ × ℝ)) (M : ℕ) (XI : Option (ℝ × ℝ)) (d : NseDisc) :
    Option (ℤ × Option (ℝ × ℝ)) :=
  if D < 2 then some (EC_INVALID_ARGUMENT, XI)
  else if M = 0 then some (EC_INVALID_ARGUMENT, XI)
  else match XI, T with
  | some _, some (T0, T1) =>
    if ¬ T0 < T1 then some (EC_INVALID_ARGUMENT, XI)
    else do
      let eps_t : ℝ := (T1 - T0) / ((D : ℝ) - 1)
      let XIC := Buf.ofList [exp (2 * Real.pi * I * ((M / 2 + 1 : ℕ) : ℂ) / M), -1]
      let R ← nse_z_to_lambda 2 eps_t XIC d
      let x0 ← R.2.rd 0
      let x1 ← R.2.rd 1
      return (R.1, some (x0.re, x1.re))
  | _, _ => some (EC_INVALID_ARGUMENT, XI)

/-! ## The transfer matrix -/

/-- The phase factor, fnft_nsev_inverse.c:265-285: code or value. (The pointers are not NULL.) -/
noncomputable def invPhase (eps_t : ℝ) (D : ℕ) (T0 T1 : ℝ) (o : InvOpts) : Option (Except ℤ ℝ) :=
  match o.cs with
  | .REFLECTION_COEFFICIENT =>
    match nse_phase_factor_rho eps_t T1 o.disc with
    | (ret, p) => if ret ≠ SUCCESS then some (.error (E_SUBROUTINE ret)) else p.bind fun p => p.map .ok
  | .B_OF_XI =>
    match nse_phase_factor_b eps_t D T0 T1 o.disc with
    | (ret, p) => if ret ≠ SUCCESS then some (.error (E_SUBROUTINE ret)) else p.bind fun p => p.map .ok
  | _ => some (.error EC_INVALID_ARGUMENT)

/-- The loops of `remove_boundary_conds_and_reorder_for_fft`, fnft_nsev_inverse.c:284-292 (`M` is even and at least 2): `contspec`,
`contspec_reordered`. -/
noncomputable def invReorder (M : ℕ) (cs : Buf ℂ) (XI0 XI1 phase : ℝ) : Option (Buf ℂ × Buf ℂ) := do
  let eps_xi : ℝ := (XI1 - XI0) / ((M : ℝ) - 1)
  let cs ← forLoop M (fun i (b : Buf ℂ) => do
    let v ← b.rd i
    b.wr i (v * exp (-I * ((XI0 + i * eps_xi : ℝ) : ℂ) * phase))) cs
  let ro ← fill 0 (M / 2 + 1) (fun i => cs.rd (i + (M / 2 - 1))) (Buf.malloc M)
  let ro ← fill (M / 2 + 1) (M - (M / 2 + 1)) (fun i => cs.rd (i - (M / 2 + 1))) ro
  return (cs, ro)

/-- `remove_boundary_conds_and_reorder_for_fft`, fnft_nsev_inverse.c:252-297: `contspec`, `contspec_reordered`, or a code. -/
noncomputable def invRemove (M : ℕ) (cs : Buf ℂ) (XI0 XI1 : ℝ) (D : ℕ) (T0 T1 : ℝ) (o : InvOpts) :
    Option (Except ℤ (Buf ℂ × Buf ℂ)) := do
  match ← invPhase ((T1 - T0) / ((D : ℝ) - 1)) D T0 T1 o with
  | .error ec => return .error ec
  | .ok phase =>
    let R ← invReorder M cs XI0 XI1 phase
    return .ok R

/-- The coefficients `b_coeffs` that `remove_boundary_conds_and_reorder_for_fft` and the FFT give, fnft_nsev_inverse.c:334-343,
586-596: `contspec`, `b_coeffs`, or code and `contspec`. -/
noncomputable def invCoeffs (M : ℕ) (cs : Buf ℂ) (XI0 XI1 : ℝ) (D : ℕ) (T0 T1 : ℝ) (o : InvOpts) :
    Option (Except (ℤ × Buf ℂ) (Buf ℂ × Buf ℂ)) := do
  match ← invRemove M cs XI0 XI1 D T0 T1 o with
  | .error ec => return .error (E_SUBROUTINE ec, cs)
  | .ok (cs, ro) =>
    match ← mkPlan M (-1) with
    | (_, some pf) =>
      let b ← fft pf ro (Buf.malloc M)
      return .ok (cs, b)
    | (rc, none) => return .error (E_SUBROUTINE rc, cs)

/-- `i0`, fnft_nsev_inverse.c:349, 602. -/
def invI0 (deg M : ℕ) : ℕ := if deg ≤ M - 1 then 0 else deg - (M - 1)

/-- The polynomials of `B(z)` in the transfer matrix, fnft_nsev_inverse.c:350-360, 603-610. (The index `M-1-deg+i` is computed with
wrap-around, so that it is `(M-1+i)-deg`.) -/
noncomputable def invFillB (M deg : ℕ) (b : Buf ℂ) (kappa : ℤ) (tm : Buf ℂ) : Option (Buf ℂ) := do
  let i0 := invI0 deg M
  let tm ← fill (deg + 1) i0 (fun _ => some 0) tm
  let tm ← fill (2 * (deg + 1)) i0 (fun _ => some 0) tm
  let tm ← fill (deg + 1 + i0) (deg + 1 - i0) (fun j => do
    let v ← b.rd (M - 1 + (j - (deg + 1)) - deg)
    return -(kappa : ℂ) * (starRingEnd ℂ) (v / M)) tm
  fill (2 * (deg + 1) + i0) (deg + 1 - i0) (fun j => do
    let v ← b.rd (deg - (j - 2 * (deg + 1)))
    return v / M) tm

/-- The result of a construction of the transfer matrix: code, `contspec`, `transfer_matrix`. -/
structure TfRes where
  ret : ℤ
  cs : Buf ℂ
  tm : Buf ℂ

/-- `transfer_matrix_from_reflection_coefficient_TFMATRIX_CONTAINS_REFL_COEFF`, fnft_nsev_inverse.c:303-371. -/
noncomputable def invTfRefl (M : ℕ) (cs : Buf ℂ) (XI0 XI1 : ℝ) (D : ℕ) (T0 T1 : ℝ) (deg : ℕ) (tm : Buf ℂ) (kappa : ℤ) (o : InvOpts) :
    Option TfRes := do
  match ← invCoeffs M cs XI0 XI1 D T0 T1 o with
  | .error (ec, cs) => return ⟨ec, cs, tm⟩
  | .ok (cs, b) =>
    let tm ← fill 0 (deg + 1) (fun _ => some 0) tm
    let tm ← fill (3 * (deg + 1)) (deg + 1) (fun _ => some 0) tm
    let tm ← invFillB M deg b kappa tm
    let tm ← tm.wr deg 1
    let tm ← tm.wr (3 * (deg + 1)) 1
    return ⟨SUCCESS, cs, tm⟩

/-- State of the iteration in `..._TFMATRIX_CONTAINS_AB_FROM_ITER`: `contspec_reordered`, `a_coeffs`, `b_coeffs`, `fft_in`, `fft_out`,
`prev_phase_change`, `prev_phase_change_diff` (`none`: infinite). -/
structure IterSt where
  ro : Buf ℂ
  a : Buf ℂ
  b : Buf ℂ
  fin : Buf ℂ
  fout : Buf ℂ
  prev : Option ℝ
  prevd : Option ℝ

open Classical in
/-- `fft_in[i]`, fnft_nsev_inverse.c:431-433. A square root of a number that is not positive (the result is not finite) is outside of
the model. -/
noncomputable def iterVal (kappa : ℤ) (D : ℕ) (q : ℂ) : Option ℂ :=
  if 1 + (kappa : ℝ) * ‖q‖ * ‖q‖ ≤ 0 then none else some (q / Real.sqrt (1 + (kappa : ℝ) * ‖q‖ * ‖q‖) / D)

/-- One iteration, fnft_nsev_inverse.c:426-482, up to the update of the spectrum: state and `cur_phase_change`, or code. -/
noncomputable def iterStep (D : ℕ) (cs : Buf ℂ) (pf pi : Plan) (kappa : ℤ) (s : IterSt) : Option (Except ℤ (IterSt × ℝ)) := do
  let fin ← fill 0 D (fun i => do
    let q ← s.ro.rd i
    iterVal kappa D q) s.fin
  let b ← fft pf fin s.b
  let b ← finvReverse true D b
  let A ← poly_specfact (D - 1) (some b) (some s.a) 32 kappa
  if A.1 ≠ SUCCESS then return .error (E_SUBROUTINE A.1)
  else
    let a ← A.2
    let fin ← fill 0 D (fun i => a.rd (D - 1 - i)) fin
    let fout ← fft pi fin s.fout
    let fout ← forLoop D (fun i (f : Buf ℂ) => do
      let v ← f.rd i
      f.wr i ((arg v : ℝ) : ℂ)) fout
    let cur ← forLoop D (fun i (c : ℝ) => do
      let v ← fout.rd i
      return c + ‖v‖ / D) 0
    let ro ← fill 0 (D / 2 + 1) (fun i => do
      let c ← cs.rd (i + (D / 2 - 1))
      let f ← fout.rd i
      return c * exp (I * f)) s.ro
    let ro ← fill (D / 2 + 1) (D - (D / 2 + 1)) (fun i => do
      let c ← cs.rd (i - (D / 2 + 1))
      let f ← fout.rd i
      return c * exp (I * f)) ro
    return .ok (⟨ro, a, b, fin, fout, s.prev, s.prevd⟩, cur)

open Classical in
/-- The tests at the end of an iteration, fnft_nsev_inverse.c:476-484: is the loop left, and the state. -/
noncomputable def iterTest (s : IterSt) (cur : ℝ) : Bool × IterSt :=
  match s.prev with
  | none => (false, { s with prev := some cur, prevd := none })
  | some p =>
    let d := |cur - p|
    if d < 10 * EPSILON then (true, s)
    else
      match s.prevd with
      | none => (false, { s with prev := some cur, prevd := some d })
      | some pd => if d > 0.9 * pd then (true, { s with prev := some cur }) else (false, { s with prev := some cur, prevd := some d })

/-- The loop `for (iter=0; iter<max_iter; iter++)`, fnft_nsev_inverse.c:426-486; the first argument is `max_iter - iter`. -/
noncomputable def iterLoop (D : ℕ) (cs : Buf ℂ) (pf pi : Plan) (kappa : ℤ) : ℕ → IterSt → Option (Except ℤ IterSt)
  | 0, s => some (.ok s)
  | n + 1, s => do
    match ← iterStep D cs pf pi kappa s with
    | .error ec => return .error ec
    | .ok (s, cur) =>
      if (iterTest s cur).1 then return .ok (iterTest s cur).2 else iterLoop D cs pf pi kappa n (iterTest s cur).2

/-- Building the transfer matrix from `a_coeffs` and `b_coeffs`, fnft_nsev_inverse.c:490-499; `deg = D`. The last loop of
`transfer_matrix_from_B_of_tau`, fnft_nsev_inverse.c:667-675, does the same for coefficients that are already in place. -/
noncomputable def invFillAB (D : ℕ) (a b : Buf ℂ) (kappa : ℤ) (tm : Buf ℂ) : Option (Buf ℂ) := do
  let tm ← fill 1 D (fun j => a.rd (j - 1)) tm
  let tm ← fill (D + 1) D (fun j => do
    let v ← b.rd (D - 1 - (j - (D + 1)))
    return -(kappa : ℂ) * (starRingEnd ℂ) v) tm
  let tm ← fill (2 * (D + 1) + 1) D (fun j => b.rd (j - (2 * (D + 1) + 1))) tm
  let tm ← fill (3 * (D + 1)) D (fun j => a.rd (D - 1 - (j - 3 * (D + 1)))) tm
  let tm ← tm.wr 0 0
  let tm ← tm.wr (2 * (D + 1) - 1) 0
  let tm ← tm.wr (2 * (D + 1)) 0
  tm.wr (4 * (D + 1) - 1) 0

/-- `transfer_matrix_from_reflection_coefficient_TFMATRIX_CONTAINS_AB_FROM_ITER`, fnft_nsev_inverse.c:376-508. -/
noncomputable def invTfIter (M : ℕ) (cs : Buf ℂ) (XI0 XI1 : ℝ) (D : ℕ) (T0 T1 : ℝ) (deg : ℕ) (tm : Buf ℂ) (kappa : ℤ) (o : InvOpts) :
    Option TfRes :=
  if D < 2 ∨ D &&& (D - 1) ≠ 0 then some ⟨EC_INVALID_ARGUMENT, cs, tm⟩
  else if M ≠ D then some ⟨EC_INVALID_ARGUMENT, cs, tm⟩
  else if D ≠ deg then some ⟨EC_ASSERTION_FAILED, cs, tm⟩
  else if kappa ≠ -1 then some ⟨EC_INVALID_ARGUMENT, cs, tm⟩
  else do
    match ← mkPlan D (-1) with
    | (_, some pf) =>
      match ← mkPlan D 1 with
      | (_, some pi) =>
        match ← invRemove M cs XI0 XI1 D T0 T1 o with
        | .error ec => return ⟨E_SUBROUTINE ec, cs, tm⟩
        | .ok (cs, ro) =>
          match ← iterLoop D cs pf pi kappa o.max_iter ⟨ro, Buf.malloc D, Buf.malloc D, Buf.malloc M, Buf.malloc M, none, none⟩ with
          | .error ec => return ⟨ec, cs, tm⟩
          | .ok s =>
            let tm ← invFillAB D s.a s.b kappa tm
            return ⟨SUCCESS, cs, tm⟩
      | (rc, none) => return ⟨E_SUBROUTINE rc, cs, tm⟩
    | (rc, none) => return ⟨E_SUBROUTINE rc, cs, tm⟩

/-- `transfer_matrix_from_reflection_coefficient`, fnft_nsev_inverse.c:513-556 (`XI` is not NULL). -/
noncomputable def invTfRho (M : ℕ) (cs : Buf ℂ) (XI0 XI1 : ℝ) (D : ℕ) (T0 T1 : ℝ) (deg : ℕ) (tm : Buf ℂ) (kappa : ℤ) (o : InvOpts) :
    Option TfRes :=
  match o.meth with
  | .DEFAULT | .REFL_COEFF => do
    let R ← invTfRefl M cs XI0 XI1 D T0 T1 deg tm kappa o
    return { R with ret := chk R.ret }
  | .AB_FROM_ITER => do
    let R ← invTfIter M cs XI0 XI1 D T0 T1 deg tm kappa o
    return { R with ret := chk R.ret }
  | _ => some ⟨EC_INVALID_ARGUMENT, cs, tm⟩

/-- `transfer_matrix_from_b_of_xi`, fnft_nsev_inverse.c:561-628. -/
noncomputable def invTfB (M : ℕ) (cs : Buf ℂ) (XI0 XI1 : ℝ) (D : ℕ) (T0 T1 : ℝ) (deg : ℕ) (tm : Buf ℂ) (kappa : ℤ) (o : InvOpts) :
    Option TfRes := do
  match ← invCoeffs M cs XI0 XI1 D T0 T1 o with
  | .error (ec, cs) => return ⟨ec, cs, tm⟩
  | .ok (cs, b) =>
    let tm ← invFillB M deg b kappa tm
    let A ← poly_specfact deg (some (tm.view (2 * (deg + 1)))) (some tm) o.over kappa
    let tm ← A.2
    if A.1 ≠ SUCCESS then return ⟨E_SUBROUTINE A.1, cs, tm⟩
    else
      let tm ← fill (3 * (deg + 1)) (deg + 1) (fun j => tm.rd (deg - (j - 3 * (deg + 1)))) tm
      return ⟨SUCCESS, cs, tm⟩

/-- `transfer_matrix_from_B_of_tau`, fnft_nsev_inverse.c:633-679. (`degree1step` is not zero; the spectral factor is computed into a
separate array and stored by `invFillAB`, together with `b_coeffs`.) -/
noncomputable def invTfTau (M : ℕ) (cs : Buf ℂ) (D : ℕ) (T0 T1 : ℝ) (tm : Buf ℂ) (kappa : ℤ) (o : InvOpts) : Option TfRes :=
  if M ≠ D then some ⟨EC_INVALID_ARGUMENT, cs, tm⟩
  else if T0 ≠ -T1 then some ⟨EC_INVALID_ARGUMENT, cs, tm⟩
  else if o.meth ≠ .DEFAULT then some ⟨EC_INVALID_ARGUMENT, cs, tm⟩
  else do
    let degree1step : ℝ := nse_degree o.disc
    let eps_t : ℝ := (T1 - T0) / ((D : ℝ) - 1)
    let b ← fill 0 D (fun i => do
      let v ← cs.rd i
      return 2 * eps_t * v / degree1step) (Buf.malloc D)
    let b0 ← b.rd 0
    let b ← b.wr 0 (b0 * 0.5)
    let b1 ← b.rd (D - 1)
    let b ← b.wr (D - 1) (b1 * 0.5)
    let A ← poly_specfact (D - 1) (some b) (some (Buf.malloc D)) o.over kappa
    let a ← A.2
    if A.1 ≠ SUCCESS then return ⟨E_SUBROUTINE A.1, cs, tm⟩
    else
      let tm ← invFillAB D a b kappa tm
      return ⟨SUCCESS, cs, tm⟩

/-- `precompensate_for_cdt_phaseshifts`, fnft_nsev_inverse.c:1026-1046: `contspec`. -/
noncomputable def invPrecomp (M : ℕ) (cs : Buf ℂ) (XI0 XI1 : ℝ) (K : ℕ) (bs : Buf ℂ) : Option (Buf ℂ) :=
  if K = 0 then some cs
  else
    let eps_xi : ℝ := (XI1 - XI0) / ((M : ℝ) - 1)
    forLoop M (fun i (b : Buf ℂ) => forLoop K (fun k (b : Buf ℂ) => do
      let v ← b.rd i
      let l ← bs.rd k
      let f ← cdiv (((XI0 + i * eps_xi : ℝ) : ℂ) - l) (((XI0 + i * eps_xi : ℝ) : ℂ) - (starRingEnd ℂ) l)
      b.wr i (v * f)) b) cs

/-! ## Adding the discrete spectrum -/

/-- The search for `zc_point`, fnft_nsev_inverse.c:727-734: state `zc_point`, flag `j`. -/
noncomputable def invZcBody (T0 eps_t : ℝ) (i : ℕ) (s : ℕ × Bool) : Option (ℕ × Bool) :=
  if T0 + eps_t * i ≥ 0 ∧ s.2 = false then some (i, true) else some s

/-- `zc_point`, fnft_nsev_inverse.c:725-734. -/
noncomputable def invZc (D : ℕ) (T0 eps_t : ℝ) : Option ℕ := do
  let s ← forLoop D (invZcBody T0 eps_t) (0, false)
  return s.1

/-- Exchange of two elements of an array. -/
def bufSwap (i j : ℕ) (b : Buf ℂ) : Option (Buf ℂ) := do
  let x ← b.rd i
  let y ← b.rd j
  let b ← b.wr i y
  b.wr j x

open Classical in
/-- Inner loop of the sorting, fnft_nsev_inverse.c:743-753; `j = i+1+d`. State: `bnd_states`, `norm_consts`. -/
noncomputable def sortBody (i d : ℕ) (s : Buf ℂ × Buf ℂ) : Option (Buf ℂ × Buf ℂ) := do
  let x ← s.1.rd i
  let y ← s.1.rd (i + 1 + d)
  if x.im < y.im then
    let b ← bufSwap i (i + 1 + d) s.1
    let n ← bufSwap i (i + 1 + d) s.2
    return (b, n)
  else return s

/-- The sorting, fnft_nsev_inverse.c:742-753. -/
noncomputable def invSort (K : ℕ) (s : Buf ℂ × Buf ℂ) : Option (Buf ℂ × Buf ℂ) :=
  forLoop K (fun i s => forLoop (K - (i + 1)) (sortBody i) s) s

open Classical in
/-- The check for multiplicity, fnft_nsev_inverse.c:755-760: true if two neighbours are equal. -/
noncomputable def invMult (K : ℕ) (bs : Buf ℂ) : Option Bool :=
  forLoop (K - 1) (fun i (f : Bool) => do
    if f then return true
    else
      let x ← bs.rd i
      let y ← bs.rd (i + 1)
      return decide (y = x)) false

/-- The values `acoeff_cs`, fnft_nsev_inverse.c:770-802, or the code. `g` is unspecified contents of memory. -/
noncomputable def invACoeff (K : ℕ) (bs : Buf ℂ) (D : ℕ) (q : Buf ℂ) (T0 T1 : ℝ) (contspec_flag : Bool) (g : Garbage) :
    Option (Except ℤ (Buf ℂ)) :=
  if contspec_flag then do
    let r ← fill 0 D (fun i => do
      let v ← q.rd i
      return -(starRingEnd ℂ) v) (Buf.malloc D)
    let R ← nse_scatter_bound_states D (some q) (some r) T0 T1 K (some bs) (some (Buf.malloc K)) (some (Buf.malloc K))
      (some (Buf.malloc K)) (some (Buf.malloc K)) .BO 1 (g 0) (g 1)
    if R.ret ≠ SUCCESS then return .error (E_SUBROUTINE R.ret)
    else
      let a ← forLoop K (fun i (a : Buf ℂ) => do
        let ws ← R.Ws
        let w ← ws.rd i
        let v ← a.rd i
        a.wr i (v * (2 : ℂ) ^ w)) R.a
      return .ok a
  else do
    let a ← fill 0 K (fun _ => some 1) (Buf.malloc K)
    return .ok a

open Classical in
/-- One residue is converted, fnft_nsev_inverse.c:804-811. -/
noncomputable def invResidue (K : ℕ) (bs a : Buf ℂ) (i : ℕ) (nc : Buf ℂ) : Option (Buf ℂ) := do
  let a0 ← a.rd i
  let li ← bs.rd i
  let tmp ← forLoop K (fun j (tmp : ℂ) => do
    if j = i then return tmp
    else
      let lj ← bs.rd j
      cdiv (tmp * (li - lj)) (li - (starRingEnd ℂ) lj)) a0
  let n ← nc.rd i
  let y ← cdiv n (2 * I * (li.im : ℂ))
  nc.wr i (y * tmp)

/-- One step of the recursion for the ratios, fnft_nsev_inverse.c:833-834, 854-855. -/
noncomputable def rhoStep (li lj rho f rj : ℂ) : Option ℂ :=
  cdiv ((lj - li) * rj + (rj - rho) * f) (lj - (starRingEnd ℂ) li - (1 + (starRingEnd ℂ) rho * rj) * f)

/-- One iteration of the loop over `i`, fnft_nsev_inverse.c:827-837, 848-858. State: `qt`, `rhok`. -/
noncomputable def solBody (K : ℕ) (bs : Buf ℂ) (i : ℕ) (s : ℂ × Buf ℂ) : Option (ℂ × Buf ℂ) := do
  let rho ← s.2.rd i
  let li ← bs.rd i
  let f : ℂ := 2 * I * (li.im : ℂ) / ((1 + ‖rho‖ * ‖rho‖ : ℝ) : ℂ)
  let rk ← forLoop (K - (i + 1)) (fun d (rk : Buf ℂ) => do
    let lj ← bs.rd (i + 1 + d)
    let rj ← rk.rd (i + 1 + d)
    let x ← rhoStep li lj rho f rj
    rk.wr (i + 1 + d) x) s.2
  return (s.1 + 2 * (starRingEnd ℂ) rho * f * I, rk)

/-- The value `qt` for one point of time, fnft_nsev_inverse.c:823-838, 844-859; `sg` is the sign in the exponent. -/
noncomputable def solPoint (K : ℕ) (bs nc : Buf ℂ) (sg t : ℝ) : Option ℂ := do
  let rk ← fill 0 K (fun i => do
    let c ← nc.rd i
    let l ← bs.rd i
    return c * exp (sg * 2 * I * l * t)) (Buf.malloc K)
  let s ← forLoop K (solBody K bs) (0, rk)
  return s.1

/-- The multi-soliton, fnft_nsev_inverse.c:819-861: `q`. -/
noncomputable def invSoliton (K : ℕ) (bs nc : Buf ℂ) (D zc : ℕ) (T0 eps_t : ℝ) (q : Buf ℂ) : Option (Buf ℂ) := do
  let q ← fill zc (D - zc) (fun n => solPoint K bs nc 1 (T0 + eps_t * n)) q
  let nc ← forLoop K (fun i (nc : Buf ℂ) => do
    let c ← nc.rd i
    let y ← cdiv 1 c
    nc.wr i y) nc
  fill 0 zc (fun n => do
    let x ← solPoint K bs nc (-1) (T0 + eps_t * n)
    return (starRingEnd ℂ) x) q

/-- The numbers `ks`, `ch`, `sh`, `u1` for a sample, fnft_nsev_inverse.c:948-952 and elsewhere. If `ks = 0`, they are not used. -/
structure EfStep where
  ks : ℂ
  ch : ℂ
  sh : ℂ
  u1 : ℂ

/-- fnft_nsev_inverse.c:948-952, 966-970, 991-995, 1009-1013; `h` is half of the step. -/
noncomputable def efStep (l q : ℂ) (h : ℝ) : EfStep :=
  let ks : ℂ := -((‖q‖ * ‖q‖ : ℝ) : ℂ) - l * l
  let k := csqrt ks
  let ch := cosh (k * h)
  let sh := sinh (k * h) / k
  ⟨ks, ch, sh, l * sh * I⟩

open Classical in
/-- A half step forwards, fnft_nsev_inverse.c:955-962, 971-976. -/
noncomputable def efFwd (l q : ℂ) (h : ℝ) (v : ℂ × ℂ) : ℂ × ℂ :=
  let s := efStep l q h
  if s.ks ≠ 0 then ((s.ch - s.u1) * v.1 + (q * s.sh) * v.2, (-(starRingEnd ℂ) q * s.sh) * v.1 + (s.ch + s.u1) * v.2)
  else v

open Classical in
/-- A half step backwards, fnft_nsev_inverse.c:998-1006, 1014-1020. -/
noncomputable def efBwd (l q : ℂ) (h : ℝ) (v : ℂ × ℂ) : Option (ℂ × ℂ) :=
  let s := efStep l q h
  if s.ks ≠ 0 then do
    let scl := ((s.ch - s.u1) * (s.ch + s.u1)) - ((-(starRingEnd ℂ) q * s.sh) * (q * s.sh))
    let x ← cdiv ((s.ch + s.u1) * v.1 + (-q * s.sh) * v.2) scl
    let y ← cdiv (((starRingEnd ℂ) q * s.sh) * v.1 + (s.ch - s.u1) * v.2) scl
    return (x, y)
  else some v

/-- The loop for `phi`, fnft_nsev_inverse.c:940-978, for the bound state `i`; `n = m+1`. -/
noncomputable def efPhi (K i : ℕ) (l : ℂ) (D : ℕ) (q : Buf ℂ) (T0 h : ℝ) (phi : Buf ℂ) : Option (Buf ℂ) := do
  let phi ← phi.wr (i * D) (exp (-I * l * T0))
  let phi ← phi.wr (i * D + K * D) 0
  forLoop (D - 1) (fun m (phi : Buf ℂ) => do
    let v1 ← phi.rd (i * D + m)
    let v2 ← phi.rd (i * D + K * D + m)
    let q0 ← q.rd m
    let q1 ← q.rd (m + 1)
    let w := efFwd l q1 h (efFwd l q0 h (v1, v2))
    let phi ← phi.wr (i * D + (m + 1)) w.1
    phi.wr (i * D + K * D + (m + 1)) w.2) phi

/-- The loop for `psi`, fnft_nsev_inverse.c:981-1022, for the bound state `i`; `n = D-1-m`. -/
noncomputable def efPsi (K i : ℕ) (l : ℂ) (D : ℕ) (q : Buf ℂ) (T1 h : ℝ) (psi : Buf ℂ) : Option (Buf ℂ) := do
  let psi ← psi.wr (i * D + (D - 1)) 0
  let psi ← psi.wr (i * D + K * D + (D - 1)) (exp (I * l * T1))
  forLoop (D - 1) (fun m (psi : Buf ℂ) => do
    let v1 ← psi.rd (i * D + (D - 1 - m))
    let v2 ← psi.rd (i * D + K * D + (D - 1 - m))
    let q1 ← q.rd (D - 1 - m)
    let q0 ← q.rd (D - 1 - m - 1)
    let w ← efBwd l q1 h (v1, v2)
    let w ← efBwd l q0 h w
    let psi ← psi.wr (i * D + (D - 1 - m - 1)) w.1
    psi.wr (i * D + K * D + (D - 1 - m - 1)) w.2) psi

/-- `compute_eigenfunctions`, fnft_nsev_inverse.c:921-1019: `phi`, `psi`. -/
noncomputable def invEigen (K : ℕ) (bs : Buf ℂ) (D : ℕ) (q : Buf ℂ) (T0 T1 : ℝ) : Option (Buf ℂ × Buf ℂ) := do
  let h : ℝ := (T1 - T0) / ((D : ℝ) - 1) / 2
  let phi ← forLoop K (fun i (phi : Buf ℂ) => do
    let l ← bs.rd i
    efPhi K i l D q T0 h phi) (Buf.malloc (D * K * 2))
  let psi ← forLoop K (fun i (psi : Buf ℂ) => do
    let l ← bs.rd i
    efPsi K i l D q T1 h psi) (Buf.malloc (D * K * 2))
  return (phi, psi)

/-- One application of a Darboux matrix, fnft_nsev_inverse.c:888-893. -/
noncomputable def dbApply (l S1 S2 : ℂ) (v : ℂ × ℂ) : ℂ × ℂ :=
  ((l - S1) * v.1 - S2 * v.2, (starRingEnd ℂ) S2 * v.1 + (l - (starRingEnd ℂ) S1) * v.2)

/-- One iteration of the loop over `i`, fnft_nsev_inverse.c:880-904. State: `qn`, `S1`, `S2`. -/
noncomputable def dbBody (K D n : ℕ) (bs nc phi psi : Buf ℂ) (i : ℕ) (s : ℂ × Buf ℂ × Buf ℂ) : Option (ℂ × Buf ℂ × Buf ℂ) := do
  let p1 ← phi.rd (n + i * D)
  let p2 ← phi.rd (n + (K + i) * D)
  let s1 ← psi.rd (n + i * D)
  let s2 ← psi.rd (n + (K + i) * D)
  let l ← bs.rd i
  let v ← forLoop i (fun j (v : (ℂ × ℂ) × (ℂ × ℂ)) => do
    let S1 ← s.2.1.rd j
    let S2 ← s.2.2.rd j
    return (dbApply l S1 S2 v.1, dbApply l S1 S2 v.2)) ((p1, p2), (s1, s2))
  let c ← nc.rd i
  let beta ← cdiv (v.1.1 - c * v.2.1) (v.1.2 - c * v.2.2)
  let tmp : ℂ := ((‖beta‖ * ‖beta‖ : ℝ) : ℂ)
  let S1 ← s.2.1.wr i ((tmp * l + (starRingEnd ℂ) l) / (1 + tmp))
  let S2 ← s.2.2.wr i (2 * I * (l.im : ℂ) * beta / (1 + tmp))
  return (s.1 - 2 * I * (2 * I * (l.im : ℂ) * beta / (1 + tmp)), S1, S2)

/-- The Darboux transform of the seed potential, fnft_nsev_inverse.c:872-908: `q`. -/
noncomputable def invDarboux (K : ℕ) (bs nc : Buf ℂ) (D : ℕ) (T0 T1 : ℝ) (q : Buf ℂ) : Option (Buf ℂ) := do
  let E ← invEigen K bs D q T0 T1
  forLoop D (fun n (q : Buf ℂ) => do
    let qn ← q.rd n
    let s ← forLoop K (dbBody K D n bs nc E.1 E.2) (qn, Buf.malloc K, Buf.malloc K)
    q.wr n s.1) q

/-- The norming constants, fnft_nsev_inverse.c:766-813, or the code. -/
noncomputable def invNorm (K : ℕ) (bs nc : Buf ℂ) (D : ℕ) (q : Buf ℂ) (T0 T1 : ℝ) (contspec_flag : Bool) (ds : InvDs) (g : Garbage) :
    Option (Except ℤ (Buf ℂ)) :=
  if ds = .RESIDUES then do
    match ← invACoeff K bs D q T0 T1 contspec_flag g with
    | .error ec => return .error ec
    | .ok a =>
      let nc ← forLoop K (invResidue K bs a) nc
      return .ok nc
  else some (.ok nc)

/-- `add_discrete_spectrum`, fnft_nsev_inverse.c:681-919 (`K` is not zero and the pointers are not NULL): code, `q`. -/
noncomputable def invDiscrete (K : ℕ) (bound_states normconsts : Buf ℂ) (D : ℕ) (q : Buf ℂ) (T0 T1 : ℝ) (contspec_flag : Bool) (o : InvOpts)
    (g : Garbage) : Option (ℤ × Buf ℂ) := do
  let eps_t : ℝ := (T1 - T0) / ((D : ℝ) - 1)
  let zc ← invZc D T0 eps_t
  let bs ← fill 0 K (fun i => bound_states.rd i) (Buf.malloc K)
  let nc ← fill 0 K (fun i => normconsts.rd i) (Buf.malloc K)
  let s ← invSort K (bs, nc)
  if ← invMult K s.1 then return (EC_SANITY_CHECK_FAILED, q)
  else
    match ← invNorm K s.1 s.2 D q T0 T1 contspec_flag o.ds g with
    | .error ec => return (ec, q)
    | .ok nc =>
      if contspec_flag = false ∧ o.meth ≠ .USE_SEED then
        let q ← invSoliton K s.1 nc D zc T0 eps_t q
        return (SUCCESS, q)
      else if (contspec_flag = false ∧ o.meth = .USE_SEED) ∨ (contspec_flag = true ∧ o.meth ≠ .USE_SEED) then
        let q ← invDarboux K s.1 nc D T0 T1 q
        return (SUCCESS, q)
      else return (EC_INVALID_ARGUMENT, q)

/-! ## Main routine -/

/-- What a call of `fnft_nsev_inverse` leaves behind: code, `contspec`, `q`. -/
structure InvRes where
  ret : ℤ
  cs : Option (Buf ℂ)
  q : Option (Buf ℂ)

/-- Step 1, fnft_nsev_inverse.c:192-227: the transfer matrix. `XI` is only used where it is not NULL. -/
noncomputable def invTransfer (M : ℕ) (cs : Buf ℂ) (XI : ℝ × ℝ) (K : ℕ) (bs : Buf ℂ) (D : ℕ) (T0 T1 : ℝ) (deg : ℕ) (kappa : ℤ)
    (o : InvOpts) : Option TfRes :=
  match o.cs with
  | .REFLECTION_COEFFICIENT => do
    let cs ← invPrecomp M cs XI.1 XI.2 K bs
    let R ← invTfRho M cs XI.1 XI.2 D T0 T1 deg (Buf.malloc (4 * (deg + 1))) kappa o
    return { R with ret := chk R.ret }
  | .B_OF_XI => do
    let R ← invTfB M cs XI.1 XI.2 D T0 T1 deg (Buf.malloc (4 * (deg + 1))) kappa o
    return { R with ret := chk R.ret }
  | .B_OF_TAU => do
    let R ← invTfTau M cs D T0 T1 (Buf.malloc (4 * (deg + 1))) kappa o
    return { R with ret := chk R.ret }
  | .other _ => some ⟨EC_INVALID_ARGUMENT, cs, Buf.malloc (4 * (deg + 1))⟩

/-- The continuous part, fnft_nsev_inverse.c:174-237: code, `contspec`, `q`. -/
noncomputable def invCont (M : ℕ) (cs : Buf ℂ) (XI : ℝ × ℝ) (K : ℕ) (bs : Buf ℂ) (D : ℕ) (q : Buf ℂ) (T0 T1 : ℝ) (kappa : ℤ)
    (o : InvOpts) : Option (ℤ × Buf ℂ × Buf ℂ) := do
  let deg := D * nse_degree o.disc
  if deg = 0 then return (EC_INVALID_ARGUMENT, cs, q)
  else
    let R ← invTransfer M cs XI K bs D T0 T1 deg kappa o
    if R.ret ≠ SUCCESS then return (R.ret, R.cs, q)
    else
      let F ← nse_finvscatter deg (some R.tm) (some q) ((T1 - T0) / ((D : ℝ) - 1)) kappa o.disc
      let q ← F.2.2
      return (chk F.1, R.cs, q)

/-- The discrete part, fnft_nsev_inverse.c:239-246. -/
noncomputable def invDisc (K : ℕ) (bs nc : Buf ℂ) (D : ℕ) (q : Buf ℂ) (T0 T1 : ℝ) (contspec_flag : Bool) (o : InvOpts) (g : Garbage) :
    Option (ℤ × Buf ℂ) :=
  if K > 0 then do
    let R ← invDiscrete K bs nc D q T0 T1 contspec_flag o g
    return (chk R.1, R.2)
  else some (SUCCESS, q)

/-- The checks of the bound states, fnft_nsev_inverse.c:152-156: true if one is not in the upper half plane. -/
noncomputable def invLower (K : ℕ) (bs : Buf ℂ) : Option Bool :=
  forLoop K (fun i (f : Bool) => do
    if f then return true
    else
      let x ← bs.rd i
      return decide (x.im ≤ 0)) false

open Classical in
/-- `fnft_nsev_inverse`, fnft_nsev_inverse.c:122-250; `opts` is `inv_default_opts` for NULL. -/
noncomputable def fnft_nsev_inverse (M : ℕ) (contspec : Option (Buf ℂ)) (XI : Option (ℝ × ℝ)) (K : ℕ)
    (bound_states normconsts : Option (Buf ℂ)) (D : ℕ) (q : Option (Buf ℂ)) (T : Option (ℝ × ℝ)) (kappa : ℤ) (o : InvOpts) (g : Garbage) :
    Option InvRes :=
  let bad (ec : ℤ) : Option InvRes := some ⟨ec, contspec, q⟩
  if M > 0 ∧ contspec = none then bad EC_INVALID_ARGUMENT
  else if contspec ≠ none ∧ M % 2 ≠ 0 then bad EC_INVALID_ARGUMENT
  else if contspec ≠ none ∧ M < D then bad EC_INVALID_ARGUMENT
  else if D < 2 ∨ D &&& (D - 1) ≠ 0 then bad EC_INVALID_ARGUMENT
  else match q, T with
  | some q, some (T0, T1) =>
    if ¬ T0 < T1 then bad EC_INVALID_ARGUMENT
    else if kappa ≠ 1 ∧ kappa ≠ -1 then bad EC_INVALID_ARGUMENT
    else if K > 0 ∧ kappa ≠ 1 then bad EC_SANITY_CHECK_FAILED
    else if K > 0 ∧ bound_states = none then bad EC_INVALID_ARGUMENT
    else do
      let bs := bound_states.getD (Buf.malloc 0)
      if ← invLower K bs then bad EC_SANITY_CHECK_FAILED
      else if K > 0 ∧ normconsts = none then bad EC_INVALID_ARGUMENT
      else if o.disc ≠ .D2SPLIT2A ∧ o.disc ≠ .D2SPLIT2_MODAL then bad EC_INVALID_ARGUMENT
      else if contspec = none ∧ K = 0 then bad EC_SANITY_CHECK_FAILED
      else if XI = none ∧ contspec ≠ none ∧ o.cs ≠ .B_OF_TAU then bad EC_INVALID_ARGUMENT
      else
        match contspec with
        | none =>
          let R ← invDisc K bs (normconsts.getD (Buf.malloc 0)) D q T0 T1 false o g
          return ⟨R.1, none, some R.2⟩
        | some cs =>
          let C ← invCont M cs (XI.getD (0, 0)) K bs D q T0 T1 kappa o
          if C.1 ≠ SUCCESS then return ⟨C.1, some C.2.1, some C.2.2⟩
          else
            let R ← invDisc K bs (normconsts.getD (Buf.malloc 0)) D C.2.2 T0 T1 true o g
            return ⟨R.1, some C.2.1, some R.2⟩
  | _, _ => bad EC_INVALID_ARGUMENT

end FNFT

import Verif.Model.Nsev
import Verif.Model.GridSearch
/-!
# Model of /repo/src/fnft_nsep.c

Complex numbers are exact; all allocations succeed; the arrays of the caller do not overlap. `NULL` is `none`.
The root finder `poly_roots_fasteigen` (Fortran) is a parameter, as in `Model/Nsev`. The fields `tol`, `floquet_range` of the
options are finite numbers. Warnings are not modelled (the flags `warn_flags` are, where the control flow depends on them).
-/
namespace FNFT
open Complex

/-- `fnft_nsep_loc_t`, /repo/include/fnft_nsep.h:58-63. -/
inductive NsepLoc | SUBSAMPLE_AND_REFINE | NEWTON | GRIDSEARCH | MIXED | other (n : ℤ)
  deriving DecidableEq

/-- `fnft_nsep_filt_t`, /repo/include/fnft_nsep.h:75-79. -/
inductive NsepFilt | NONE | MANUAL | AUTO | other (n : ℤ)
  deriving DecidableEq

/-- `fnft_nsep_opts_t`, /repo/include/fnft_nsep.h:145-156. -/
structure NsepOpts where
  loc : NsepLoc
  filt : NsepFilt
  box : Fin 4 → Dbl
  max_evals : ℕ
  disc : NseDisc
  nrm : Bool
  range0 : ℝ
  range1 : ℝ
  pps : ℕ
  Dsub : ℕ
  tol : ℝ

/-- `default_opts` and `fnft_nsep_default_opts` (before the first call of `fnft_nsep`), fnft_nsep.c:28-51. -/
noncomputable def nsep_default_opts : NsepOpts where
  loc := .SUBSAMPLE_AND_REFINE
  filt := .AUTO
  box := ![.num ⊥, .num ⊤, .num ⊥, .num ⊤]
  max_evals := 50
  disc := .D2SPLIT2A
  nrm := true
  range0 := -1
  range1 := 1
  pps := 2
  Dsub := 0
  tol := -1

/-- `oversampling_factor`, fnft_nsep.c:44. -/
def nsepOver : ℕ := 32

/-- The output arguments `*K_ptr`, `main_spec`, `*M_ptr`, `aux_spec`, and the options record, which the routines modify. -/
structure NsepSt where
  K : ℕ
  main : Option (Buf ℂ)
  M : ℕ
  aux : Option (Buf ℂ)
  opts : NsepOpts

/-! ## Helpers -/

/-- `map_coeff = 2/degree1step`, replaced by one if it is infinite (slow methods), fnft_nsep.c:303-306, 563-566, 788-791, 1063-1067. -/
noncomputable def nsepMap (d : NseDisc) : ℝ := if nse_degree d = 0 then 1 else 2 / (nse_degree d : ℝ)

/-- `update_bounding_box_if_auto`, fnft_nsep.c:1042-1075. -/
noncomputable def nsepBox (eps_t : ℝ) (o : NsepOpts) : NsepOpts :=
  if o.filt = .AUTO then
    let re : ℝ := 0.9 * Real.pi / (|nsepMap o.disc| * eps_t)
    let im : ℝ := -Real.log 0.1 / (|nsepMap o.disc| * eps_t)
    { o with box := ![.num ((-re : ℝ) : EReal), .num (re : EReal), .num ((-im : ℝ) : EReal), .num (im : EReal)] }
  else o

/-- `misc_filter_nonreal(&K, vals, tol)` on an array of (finite) complex numbers: code, `K`, `vals`. -/
noncomputable def nonrealC (K : ℕ) (vals : Buf ℂ) (tol : Dbl) : Option (ℤ × ℕ × Buf ℂ) := do
  let R ← misc_filter_nonreal (some K) (some (vals.map toCDbl)) tol
  let n ← R.2.1
  let v ← R.2.2
  return (R.1, n, v.map ofCDbl)

/-- `if (opts_ptr->filtering != fnft_nsep_filt_NONE) misc_filter(&K, roots, NULL, opts_ptr->bounding_box)` and `CHECK_RETCODE`:
the number and the array, or a code. -/
noncomputable def nsepFilter (o : NsepOpts) (K : ℕ) (b : Buf ℂ) : Option (Except ℤ (ℕ × Buf ℂ)) :=
  if o.filt = .NONE then some (.ok (K, b))
  else do
    let F ← filterC K b o.box
    if F.1 ≠ SUCCESS then return .error (E_SUBROUTINE F.1)
    else return .ok F.2

/-- `if (skip_real_flag != 0) misc_filter_nonreal(&K, roots, tol_im)` and `CHECK_RETCODE`. -/
noncomputable def nsepNonreal (skip : Bool) (tol : Dbl) (K : ℕ) (b : Buf ℂ) : Option (Except ℤ (ℕ × Buf ℂ)) :=
  if skip then do
    let F ← nonrealC K b tol
    if F.1 ≠ SUCCESS then return .error (E_SUBROUTINE F.1)
    else return .ok F.2
  else some (.ok (K, b))

/-- The two filters in a row, fnft_nsep.c:621-630, 638-647, 694-701. -/
noncomputable def nsepFilters (o : NsepOpts) (skip : Bool) (tol : Dbl) (K : ℕ) (b : Buf ℂ) : Option (Except ℤ (ℕ × Buf ℂ)) := do
  match ← nsepFilter o K b with
  | .error ec => return .error ec
  | .ok F => nsepNonreal skip tol F.1 F.2

/-- `memcpy(dst + off, src, K * sizeof(COMPLEX))`. -/
def copyAt (off K : ℕ) (src dst : Buf ℂ) : Option (Buf ℂ) := fill off K (fun i => src.rd (i - off)) dst

/-- `p[i] = transfer_matrix[i] + CONJ(transfer_matrix[deg-i])`, fnft_nsep.c:337-338, 588-589. -/
noncomputable def nsepPoly (deg : ℕ) (tm : Buf ℂ) : Option (Buf ℂ) :=
  fill 0 (deg + 1) (fun i => do
    let x ← tm.rd i
    let y ← tm.rd (deg - i)
    return x + (starRingEnd ℂ) y) (Buf.malloc (deg + 1))

/-- `p[deg/2] += v` -/
noncomputable def addCentre (deg : ℕ) (v : ℂ) (p : Buf ℂ) : Option (Buf ℂ) := do
  let x ← p.rd (deg / 2)
  p.wr (deg / 2) (x + v)

/-! ## Grid search -/

/-- A finite double. -/
noncomputable def Dbl.fin? : Dbl → Option ℝ
  | .num x => if x = ⊤ ∨ x = ⊥ then none else some x.toReal
  | .nan => none

/-- `PHI`, fnft_nsep.c:308-314. Infinite or NaN bounds are outside of the model. -/
noncomputable def gsPhi (eps_t : ℝ) (o : NsepOpts) : Option (ℝ × ℝ) := do
  let x0 ← (o.box 0).fin?
  let x1 ← (o.box 1).fin?
  let P0 := nsepMap o.disc * eps_t * x0
  let P1 := nsepMap o.disc * eps_t * x1
  return if P0 > P1 then (P1, P0) else (P0, P1)

/-- One search with transformation of the roots and filtering, fnft_nsep.c:342-360, 376-396, 418-431 (`limit`: with the comparison
with `deg`): number and buffer, or a code. -/
noncomputable def gsPoints (limit : Bool) (deg : ℕ) (p : Buf ℂ) (PHI : ℝ × ℝ) (eps_t : ℝ) (o : NsepOpts) (roots : Buf ℂ) :
    Option (Except ℤ (ℕ × Buf ℂ)) := do
  let R ← poly_roots_fftgridsearch deg (some p) (some (nsepOver * deg)) (some PHI) (some roots)
  if R.ret ≠ SUCCESS then return .error (E_SUBROUTINE R.ret)
  else
    let K ← R.M
    let b ← R.roots
    if limit ∧ K > deg then return .error EC_OTHER
    else
      let S ← nse_z_to_lambda K eps_t b o.disc
      if S.1 ≠ SUCCESS then return .error (E_SUBROUTINE S.1)
      else nsepFilter o K S.2

/-- The main spectrum, fnft_nsep.c:323-413; `main` is `main_spec`, of which the part from `off` on is used, `K0` is `*K_ptr`.
Result: code, `K`, `main_spec`, `roots`. -/
noncomputable def gsMain (deg : ℕ) (W : ℤ) (tm : Buf ℂ) (PHI : ℝ × ℝ) (eps_t : ℝ) (o : NsepOpts) (off K0 : ℕ) (main roots : Buf ℂ) :
    Option (ℤ × ℕ × Buf ℂ × Buf ℂ) := do
  let p ← nsepPoly deg tm
  let p ← addCentre deg (2 * (2 : ℂ) ^ (-W)) p
  match ← gsPoints true deg p PHI eps_t o roots with
  | .error ec => return (ec, K0, main, roots)
  | .ok (K, roots) =>
    let K := if K > K0 then K0 else K
    let main ← copyAt off K roots main
    let p ← addCentre deg (-(4 * (2 : ℂ) ^ (-W))) p
    match ← gsPoints true deg p PHI eps_t o roots with
    | .error ec => return (ec, K0, main, roots)
    | .ok (K', roots) =>
      let K' := if K + K' > K0 then (if K < K0 then K0 - K else 0) else K'
      let main ← copyAt (off + K) K' roots main
      return (SUCCESS, K + K', main, roots)

/-- The auxiliary spectrum, fnft_nsep.c:416-442: code, `M`, `aux_spec`. -/
noncomputable def gsAux (deg : ℕ) (tm : Buf ℂ) (PHI : ℝ × ℝ) (eps_t : ℝ) (o : NsepOpts) (off M0 : ℕ) (aux roots : Buf ℂ) :
    Option (ℤ × ℕ × Buf ℂ) := do
  match ← gsPoints false deg (tm.view (deg + 1)) PHI eps_t o roots with
  | .error ec => return (ec, M0, aux)
  | .ok (M, roots) =>
    let M := if M > M0 then M0 else M
    let aux ← copyAt off M roots aux
    return (SUCCESS, M, aux)

/-- `if (main_spec != NULL)`; `junk` is the value of the uninitialised variable `K`. -/
noncomputable def gsMainIf (junk deg : ℕ) (W : ℤ) (tm : Buf ℂ) (PHI : ℝ × ℝ) (eps_t : ℝ) (o : NsepOpts) (off K0 : ℕ)
    (main : Option (Buf ℂ)) (roots : Buf ℂ) : Option (ℤ × ℕ × Option (Buf ℂ) × Buf ℂ) :=
  match main with
  | none => some (SUCCESS, junk, none, roots)
  | some main => do
    let R ← gsMain deg W tm PHI eps_t o off K0 main roots
    return (R.1, R.2.1, some R.2.2.1, R.2.2.2)

/-- `if (aux_spec != NULL)`. -/
noncomputable def gsAuxIf (deg : ℕ) (tm : Buf ℂ) (PHI : ℝ × ℝ) (eps_t : ℝ) (o : NsepOpts) (off M0 : ℕ) (aux : Option (Buf ℂ))
    (roots : Buf ℂ) : Option (ℤ × ℕ × Option (Buf ℂ)) :=
  match aux with
  | none => some (SUCCESS, 0, none)
  | some aux => do
    let R ← gsAux deg tm PHI eps_t o off M0 aux roots
    return (R.1, R.2.1, some R.2.2)

/-- `gridsearch` after the computation of the transfer matrix, fnft_nsep.c:303-446. -/
noncomputable def gsSpectra (junk deg : ℕ) (W : ℤ) (tm : Buf ℂ) (eps_t : ℝ) (offK offM : ℕ) (s : NsepSt) : Option (ℤ × NsepSt) := do
  let o := nsepBox eps_t s.opts
  let PHI ← gsPhi eps_t o
  let A ← gsMainIf junk deg W tm PHI eps_t o offK s.K s.main (Buf.malloc (nsepOver * deg))
  if A.1 ≠ SUCCESS then return (A.1, { s with main := A.2.2.1, opts := o })
  else
    let B ← gsAuxIf deg tm PHI eps_t o offM s.M s.aux A.2.2.2
    if B.1 ≠ SUCCESS then return (B.1, { s with main := A.2.2.1, aux := B.2.2, opts := o })
    else return (SUCCESS, ⟨A.2.1, A.2.2.1, B.2.1, B.2.2, o⟩)

/-- `gridsearch`, fnft_nsep.c:241-456. The arrays are `main_spec + offK`, `aux_spec + offM`. -/
noncomputable def nsep_gridsearch (junk D : ℕ) (q : Buf ℂ) (T0 T1 : ℝ) (kappa : ℤ) (offK offM : ℕ) (s : NsepSt) :
    Option (ℤ × NsepSt) :=
  let up := nse_upsampling_factor s.opts.disc
  if up = 0 then some (EC_INVALID_ARGUMENT, s)
  else do
    let eps_t : ℝ := (T1 - T0) / D
    let P ← nse_preprocess_signal D (some q) eps_t kappa D s.opts.disc
    match P.out with
    | none => return (chk P.ret, s)
    | some p =>
      match ← nsevTransfer (D * up) (some p.1) (some p.2) eps_t s.opts.nrm s.opts.disc with
      | .error ec => return (ec, s)
      | .ok (_, _, none) => return (EC_INVALID_ARGUMENT, s)
      | .ok (deg, W, some tm) => gsSpectra junk deg W tm eps_t offK offM s

/-! ## Newton's method -/

/-- `in_box`, fnft_nsep.c:867-871. -/
def nsepInBox (z : ℂ) (box : Fin 4 → Dbl) : Prop :=
  (box 0).le (.num (z.re : EReal)) ∧ Dbl.le (.num (z.re : EReal)) (box 1) ∧
    (box 2).le (.num (z.im : EReal)) ∧ Dbl.le (.num (z.im : EReal)) (box 3)

/-- One call of `nse_scatter_matrix` for one value of lambda with derivatives, fnft_nsep.c:904-907, 933-935, 1005-1008: the entries of `M` and
the value of `W`; or the code that is returned. -/
noncomputable def monoEval (D : ℕ) (q r : Buf ℂ) (eps_t : ℝ) (kappa : ℤ) (nrm : Bool) (d : NseDisc) (l : ℂ) :
    Option (Except ℤ (Buf ℂ × Option (Buf ℤ))) := do
  let R ← nse_scatter_matrix D (some q) (some r) eps_t kappa 1 (some (Buf.ofList [l])) (some (Buf.malloc 8))
    (if nrm then some (Buf.ofList [0]) else none) d 1
  if R.ret ≠ SUCCESS then return .error (E_SUBROUTINE R.ret)
  else return .ok (R.result, R.W)

/-- `scl = (normalization_flag) ? POW(2, W) : 1`, fnft_nsep.c:909, 936. -/
noncomputable def monoScl (W : Option (Buf ℤ)) : Option ℂ :=
  match W with
  | none => some 1
  | some w => (w.rd 0).map fun w => (2 : ℂ) ^ w

/-- `a(λ) + ã(λ)` and its derivative, fnft_nsep.c:904-911, 933-946. -/
noncomputable def mainEval (D : ℕ) (q r : Buf ℂ) (eps_t : ℝ) (kappa : ℤ) (nrm : Bool) (d : NseDisc) (l : ℂ) :
    Option (Except ℤ (ℂ × ℂ)) := do
  match ← monoEval D q r eps_t kappa nrm d l with
  | .error ec => return .error ec
  | .ok (m, W) =>
    let scl ← monoScl W
    let m0 ← m.rd 0
    let m3 ← m.rd 3
    let m4 ← m.rd 4
    let m7 ← m.rd 7
    return .ok (scl * (m0 + m3), scl * (m4 + m7))

/-- `b(λ)` and its derivative, up to a common factor, fnft_nsep.c:1005-1014. -/
noncomputable def auxEval (D : ℕ) (q r : Buf ℂ) (eps_t : ℝ) (kappa : ℤ) (nrm : Bool) (d : NseDisc) (l : ℂ) :
    Option (Except ℤ (ℂ × ℂ)) := do
  match ← monoEval D q r eps_t kappa nrm d l with
  | .error ec => return .error ec
  | .ok (m, _) =>
    let m1 ← m.rd 1
    let m5 ← m.rd 5
    return .ok (m1, m5)

/-- The result of the line search: `nevals` increment, `best_m`, `next_f`, `next_f_prime`. -/
structure LineOut where
  used : ℕ
  m : ℕ
  f : ℂ
  f' : ℂ

open Classical in
/-- The loop `for (m=1; m<=max_m; m++)` with `max_m = 2`, written out, fnft_nsep.c:929-950. (The first comparison is with
infinity.) `eval` gives `f` and `f'`. -/
noncomputable def lineSearch (eval : ℂ → Option (Except ℤ (ℂ × ℂ))) (tol : ℝ) (z incr : ℂ) : Option (Except ℤ LineOut) := do
  match ← eval (z - 1 * incr) with
  | .error ec => return .error ec
  | .ok (f1, f1') =>
    if ‖f1‖ < tol then return .ok ⟨1, 1, f1, f1'⟩
    else
      match ← eval (z - 2 * incr) with
      | .error ec => return .error ec
      | .ok (f2, f2') =>
        if ‖f2‖ < ‖f1‖ then return .ok ⟨2, 2, f2, f2'⟩
        else return .ok ⟨2, 1, f1, f1'⟩

open Classical in
/-- The loop `for (nevals=1; nevals<=max_evals;)` for one value, fnft_nsep.c:918-969; the state is `nevals`, `mainspec[k]`,
`next_f`, `next_f_prime`. Result: code, `mainspec[k]`. The first argument bounds the number of passes (`none` when it is used up). -/
noncomputable def mainLoop (eval : ℂ → Option (Except ℤ (ℂ × ℂ))) (tol : ℝ) (box : Fin 4 → Dbl) (max_evals : ℕ) :
    ℕ → ℕ → ℂ → ℂ → ℂ → Option (ℤ × ℂ)
  | 0, _, _, _, _ => none
  | fuel + 1, nevals, z, f, f' =>
    if ¬ nevals ≤ max_evals then some (SUCCESS, z)
    else if f' = 0 then some (EC_DIV_BY_ZERO, z)
    else do
      match ← lineSearch eval tol z (f / f') with
      | .error ec => return (ec, z)
      | .ok L =>
        let best : ℂ := L.m * (f / f')
        let z := z - best
        if ‖best‖ ≤ tol ∨ ‖f‖ ≤ tol then
          if L.f' = 0 then return (EC_DIV_BY_ZERO, z) else return (SUCCESS, z - L.f / L.f')
        else if ¬ nsepInBox z box then return (SUCCESS, z)
        else mainLoop eval tol box max_evals fuel (nevals + L.used) z L.f L.f'

/-- Refinement of one value, fnft_nsep.c:904-969. -/
noncomputable def mainPoint (eval : ℂ → Option (Except ℤ (ℂ × ℂ))) (tol : ℝ) (box : Fin 4 → Dbl) (max_evals : ℕ) (z : ℂ) :
    Option (ℤ × ℂ) := do
  match ← eval z with
  | .error ec => return (ec, z)
  | .ok (f, f') => mainLoop eval tol box max_evals (max_evals + 1) 1 z f f'

open Classical in
/-- The inner loop of `refine_auxspec`, fnft_nsep.c:1003-1030; the first argument is `max_evals - nevals`. -/
noncomputable def auxPoint (eval : ℂ → Option (Except ℤ (ℂ × ℂ))) (tol : ℝ) (box : Fin 4 → Dbl) : ℕ → ℂ → Option (ℤ × ℂ)
  | 0, z => some (SUCCESS, z)
  | n + 1, z => do
    match ← eval z with
    | .error ec => return (ec, z)
    | .ok (f, f') =>
      if f' = 0 then return (EC_DIV_BY_ZERO, z)
      else
        let z := z - f / f'
        if ‖f / f'‖ ≤ tol ∨ ‖f‖ ≤ tol then return (SUCCESS, z)
        else if ¬ nsepInBox z box then return (SUCCESS, z)
        else auxPoint eval tol box n z

/-- One iteration of the loop over the values. State: code (`≠ SUCCESS`: the function was left), array. -/
noncomputable def refineBody (point : ℂ → Option (ℤ × ℂ)) (off k : ℕ) (s : ℤ × Buf ℂ) : Option (ℤ × Buf ℂ) :=
  if s.1 ≠ SUCCESS then some s
  else do
    let z ← s.2.rd (off + k)
    let R ← point z
    let b ← s.2.wr (off + k) R.2
    return (R.1, b)

/-- `f = a + ã + rhs`. -/
noncomputable def addRhs (rhs : ℝ) (eval : ℂ → Option (Except ℤ (ℂ × ℂ))) (l : ℂ) : Option (Except ℤ (ℂ × ℂ)) := do
  match ← eval l with
  | .error ec => return .error ec
  | .ok (f, f') => return .ok (f + (rhs : ℂ), f')

/-- `refine_mainspec`, fnft_nsep.c:874-980, for the `K` values from `off` on: code and array. -/
noncomputable def refine_mainspec (D : ℕ) (q r : Buf ℂ) (eps_t : ℝ) (off K : ℕ) (spec : Buf ℂ) (max_evals : ℕ) (rhs tol : ℝ)
    (kappa : ℤ) (d : NseDisc) (box : Fin 4 → Dbl) (nrm : Bool) : Option (ℤ × Buf ℂ) :=
  if max_evals = 0 then some (SUCCESS, spec)
  else forLoop K (refineBody (mainPoint (addRhs rhs (mainEval D q r eps_t kappa nrm d)) tol box max_evals) off) (SUCCESS, spec)

/-- `refine_auxspec`, fnft_nsep.c:983-1040: code and array. -/
noncomputable def refine_auxspec (D : ℕ) (q r : Buf ℂ) (eps_t : ℝ) (K : ℕ) (spec : Buf ℂ) (max_evals : ℕ) (tol : ℝ)
    (kappa : ℤ) (d : NseDisc) (box : Fin 4 → Dbl) (nrm : Bool) : Option (ℤ × Buf ℂ) :=
  if max_evals = 0 then some (SUCCESS, spec)
  else forLoop K (refineBody (auxPoint (auxEval D q r eps_t kappa nrm d) tol box max_evals) 0) (SUCCESS, spec)

open Classical in
/-- `refine_tol`, fnft_nsep.c:535-538, 782-785. -/
noncomputable def nsepTol (o : NsepOpts) : ℝ := if o.tol < 0 then Real.sqrt EPSILON else o.tol

/-- `rhs`, fnft_nsep.c:596-606, 807-817. -/
noncomputable def nsepRhs (o : NsepOpts) (nval : ℕ) : ℝ :=
  2 * (o.range0 + nval * (if o.pps > 1 then (o.range1 - o.range0) / ((o.pps : ℝ) - 1) else o.range1 - o.range0))

/-- Iteration `nval` of the loop over the right hand sides in `newton`, fnft_nsep.c:815-828. -/
noncomputable def newtonSpine (D : ℕ) (q r : Buf ℂ) (eps_t : ℝ) (K : ℕ) (kappa : ℤ) (o : NsepOpts) (nval : ℕ) (s : ℤ × Buf ℂ) :
    Option (ℤ × Buf ℂ) :=
  if s.1 ≠ SUCCESS then some s
  else do
    let R ← refine_mainspec D q r eps_t (nval * K) K s.2 o.max_evals (-nsepRhs o nval) (nsepTol o) kappa o.disc o.box o.nrm
    return (chk R.1, R.2)

/-- Refinement of the main spectrum in `newton`, fnft_nsep.c:797-839: code, `*K_ptr`, array. -/
noncomputable def newtonMain (D : ℕ) (q r : Buf ℂ) (eps_t : ℝ) (K : ℕ) (kappa : ℤ) (o : NsepOpts) (main : Option (Buf ℂ)) :
    Option (ℤ × ℕ × Option (Buf ℂ)) :=
  match main with
  | none => some (SUCCESS, K, none)
  | some main => do
    let R ← forLoop o.pps (newtonSpine D q r eps_t K kappa o) (SUCCESS, main)
    if R.1 ≠ SUCCESS then return (R.1, K, some R.2)
    else
      match ← nsepFilter o (K * o.pps) R.2 with
      | .error ec => return (ec, K, some R.2)
      | .ok F => return (SUCCESS, F.1, some F.2)

/-- Refinement of the auxiliary spectrum in `newton`, fnft_nsep.c:842-858: code, `*M_ptr`, array. -/
noncomputable def newtonAux (D : ℕ) (q r : Buf ℂ) (eps_t : ℝ) (M : ℕ) (kappa : ℤ) (o : NsepOpts) (aux : Option (Buf ℂ)) :
    Option (ℤ × ℕ × Option (Buf ℂ)) :=
  match aux with
  | none => some (SUCCESS, M, none)
  | some aux => do
    let R ← refine_auxspec D q r eps_t M aux o.max_evals (nsepTol o) kappa o.disc o.box o.nrm
    if R.1 ≠ SUCCESS then return (E_SUBROUTINE R.1, M, some R.2)
    else
      match ← nsepFilter o M R.2 with
      | .error ec => return (ec, M, some R.2)
      | .ok F => return (SUCCESS, F.1, some F.2)

/-- `newton`, fnft_nsep.c:731-864. -/
noncomputable def nsep_newton (D : ℕ) (q : Buf ℂ) (T0 T1 : ℝ) (kappa : ℤ) (s : NsepSt) : Option (ℤ × NsepSt) :=
  let up := nse_upsampling_factor s.opts.disc
  if up = 0 then some (EC_INVALID_ARGUMENT, s)
  else do
    let eps_t : ℝ := (T1 - T0) / D
    let P ← nse_preprocess_signal D (some q) eps_t kappa D s.opts.disc
    match P.out with
    | none => return (chk P.ret, s)
    | some p =>
      if P.Dsub ≠ D then return (EC_ASSERTION_FAILED, s)
      else
        let o := nsepBox eps_t s.opts
        let A ← newtonMain (D * up) p.1 p.2 eps_t s.K kappa o s.main
        if A.1 ≠ SUCCESS then return (A.1, { s with main := A.2.2, opts := o })
        else
          let B ← newtonAux (D * up) p.1 p.2 eps_t s.M kappa o s.aux
          return (B.1, ⟨A.2.1, A.2.2, B.2.1, B.2.2, o⟩)

/-! ## Subsample and refine -/

open Classical in
/-- Difference of doubles. -/
noncomputable def Dbl.sub : Dbl → Dbl → Dbl
  | .num x, .num y => if (x = ⊤ ∧ y = ⊤) ∨ (x = ⊥ ∧ y = ⊥) then .nan else .num (x - y)
  | _, _ => .nan

/-- Quotient of a double and a positive integer. -/
noncomputable def Dbl.divNat : Dbl → ℕ → Dbl
  | .num x, n => .num (x / (n : EReal))
  | .nan, _ => .nan

/-- `tol_im`, fnft_nsep.c:568-569 (`D ≥ 2`). -/
noncomputable def nsepTolIm (D : ℕ) (o : NsepOpts) : Dbl := ((o.box 3).sub (o.box 2)).divNat (nsepOver * (D - 1))

/-- `Dsub`, fnft_nsep.c:512-516. -/
noncomputable def nsepDsub (D Dsub : ℕ) : ℕ :=
  if Dsub = 0 then 2 ^ ⌈0.5 * Real.logb 2 (D * Real.logb 2 D * Real.logb 2 D)⌉₊
  else 2 ^ ⌊Real.logb 2 Dsub + 1 / 2⌋₊

/-- The slow method that is used for the refinement, fnft_nsep.c:489, 528-532 (the value zero is the first enumerator). -/
def nsepSlow (d : NseDisc) : NseDisc :=
  if nse_upsampling_factor d = 2 then .CF4_2 else if nse_upsampling_factor d = 1 then .BO else .D2SPLIT2_MODAL

/-- What the refinement needs: the signal, `D_effective`, `eps_t`, `kappa`, the step of the subsampled signal, the flag
`skip_real_flag`, `tol_im`. -/
structure SubCtx where
  Deff : ℕ
  q : Buf ℂ
  r : Buf ℂ
  eps_t : ℝ
  eps_sub : ℝ
  kappa : ℤ
  skip : Bool
  tol_im : Dbl

/-- Initial guesses from the roots of the polynomial, filtering, refinement and filtering for one right hand side,
fnft_nsep.c:611-647: number and buffer, or a code. -/
noncomputable def subPoints (roots : RootFinder) (c : SubCtx) (deg : ℕ) (p : Buf ℂ) (rhs : ℝ) (o : NsepOpts) (buf : Buf ℂ) :
    Option (Except ℤ (ℕ × Buf ℂ)) := do
  let R ← roots deg p buf
  if R.1 ≠ SUCCESS then return .error (E_SUBROUTINE R.1)
  else
    let S ← nse_z_to_lambda deg c.eps_sub R.2 o.disc
    if S.1 ≠ SUCCESS then return .error (E_SUBROUTINE S.1)
    else
      match ← nsepFilters o c.skip c.tol_im deg S.2 with
      | .error ec => return .error ec
      | .ok (K, b) =>
        let N ← refine_mainspec c.Deff c.q c.r c.eps_t 0 K b o.max_evals (-rhs) (nsepTol o) c.kappa (nsepSlow o.disc) o.box o.nrm
        if N.1 ≠ SUCCESS then return .error (E_SUBROUTINE N.1)
        else nsepFilters o c.skip c.tol_im K N.2

/-- State of the loop over the right hand sides: code, `warn_flags[0] == 1` (the loop was left), `K`, `main_spec`, `roots`. -/
structure SubSt where
  ret : ℤ
  full : Bool
  K : ℕ
  main : Buf ℂ
  roots : Buf ℂ

/-- Iteration `nval` of the loop over the right hand sides, fnft_nsep.c:604-663; `K0` is `*K_ptr`. -/
noncomputable def subSpine (roots : RootFinder) (c : SubCtx) (deg : ℕ) (W : ℤ) (p : Buf ℂ) (o : NsepOpts) (K0 nval : ℕ) (s : SubSt) :
    Option SubSt :=
  if s.ret ≠ SUCCESS ∨ s.full then some s
  else do
    let p ← addCentre deg (-(nsepRhs o nval * (2 : ℂ) ^ (-W))) p
    match ← subPoints roots c deg p (nsepRhs o nval) o s.roots with
    | .error ec => return { s with ret := ec }
    | .ok (Kn, b) =>
      let full := decide (s.K + Kn > K0)
      let Kn := if s.K + Kn > K0 then K0 - s.K else Kn
      let main ← copyAt s.K Kn b s.main
      return ⟨SUCCESS, full, s.K + Kn, main, b⟩

/-- The main spectrum, fnft_nsep.c:575-665: code, `K`, `main_spec`, `roots`. -/
noncomputable def subMain (roots : RootFinder) (c : SubCtx) (deg : ℕ) (W : ℤ) (tm : Buf ℂ) (o : NsepOpts) (K0 : ℕ)
    (main : Option (Buf ℂ)) (buf : Buf ℂ) : Option (ℤ × ℕ × Option (Buf ℂ) × Buf ℂ) :=
  match main with
  | none => some (SUCCESS, 0, none, buf)
  | some main => do
    let p ← nsepPoly deg tm
    let s ← forLoop o.pps (subSpine roots c deg W p o K0) ⟨SUCCESS, false, 0, main, buf⟩
    return (s.ret, s.K, some s.main, s.roots)

/-- The auxiliary spectrum, fnft_nsep.c:668-713: code, `M`, `aux_spec`. The code of the root finder is not looked at, and the filter
for real values is only applied after the refinement. -/
noncomputable def subAux (roots : RootFinder) (c : SubCtx) (deg : ℕ) (tm : Buf ℂ) (o : NsepOpts) (M0 : ℕ) (aux : Option (Buf ℂ))
    (buf : Buf ℂ) : Option (ℤ × ℕ × Option (Buf ℂ)) :=
  match aux with
  | none => some (SUCCESS, 0, none)
  | some aux => do
    let R ← roots deg (tm.view (deg + 1)) buf
    let S ← nse_z_to_lambda deg c.eps_sub R.2 o.disc
    if S.1 ≠ SUCCESS then return (E_SUBROUTINE S.1, M0, some aux)
    else
      match ← nsepFilter o deg S.2 with
      | .error ec => return (ec, M0, some aux)
      | .ok (M, b) =>
        let N ← refine_auxspec c.Deff c.q c.r c.eps_t M b o.max_evals (nsepTol o) c.kappa (nsepSlow o.disc) o.box o.nrm
        if N.1 ≠ SUCCESS then return (E_SUBROUTINE N.1, M0, some aux)
        else
          match ← nsepFilters o c.skip c.tol_im M N.2 with
          | .error ec => return (ec, M0, some aux)
          | .ok (M, b) =>
            let M := if M > M0 then M0 else M
            let aux ← copyAt 0 M b aux
            return (SUCCESS, M, some aux)

/-- `subsample_and_refine` after the computation of the transfer matrix, fnft_nsep.c:562-717. -/
noncomputable def subSpectra (roots : RootFinder) (c : SubCtx) (deg : ℕ) (W : ℤ) (tm : Buf ℂ) (o : NsepOpts) (s : NsepSt) :
    Option (ℤ × NsepSt) := do
  let A ← subMain roots c deg W tm o s.K s.main (tm.view (3 * (deg + 1)))
  if A.1 ≠ SUCCESS then return (A.1, { s with main := A.2.2.1, opts := o })
  else
    let B ← subAux roots c deg tm o s.M s.aux A.2.2.2
    if B.1 ≠ SUCCESS then return (B.1, { s with main := A.2.2.1, aux := B.2.2, opts := o })
    else return (SUCCESS, ⟨A.2.1, A.2.2.1, B.2.1, B.2.2, o⟩)

/-- `subsample_and_refine`, fnft_nsep.c:461-727. -/
noncomputable def nsep_subsample (roots : RootFinder) (D : ℕ) (q : Buf ℂ) (T0 T1 : ℝ) (kappa : ℤ) (skip : Bool) (s : NsepSt) :
    Option (ℤ × NsepSt) :=
  let up := nse_upsampling_factor s.opts.disc
  if up = 0 then some (EC_INVALID_ARGUMENT, s)
  else do
    let eps_t : ℝ := (T1 - T0) / D
    let P ← nse_preprocess_signal D (some q) eps_t kappa D s.opts.disc
    match P.out with
    | none => return (chk P.ret, s)
    | some p =>
      let Q ← nse_preprocess_signal D (some q) eps_t kappa (nsepDsub D s.opts.Dsub) s.opts.disc
      match Q.out, Q.first_last with
      | some qs, some fl =>
        let nskip := D / Q.Dsub
        if fl.1 ≠ 0 ∨ fl.2 + nskip ≠ D then return (EC_ASSERTION_FAILED, s)
        else
          let eps_sub : ℝ := nskip * eps_t
          match ← nsevTransfer (Q.Dsub * up) (some qs.1) (some qs.2) eps_sub s.opts.nrm s.opts.disc with
          | .error ec => return (ec, s)
          | .ok (_, _, none) => return (EC_INVALID_ARGUMENT, s)
          | .ok (deg, W, some tm) =>
            let o := nsepBox eps_sub s.opts
            subSpectra roots ⟨D * up, p.1, p.2, eps_t, eps_sub, kappa, skip, nsepTolIm D o⟩ deg W tm o s
      | _, _ => return (chk Q.ret, s)

/-! ## Main routine -/

/-- `case fnft_nsep_loc_MIXED`, fnft_nsep.c:151-190. (In the defocusing case, `main_spec` is not handed over to the first routine.) -/
noncomputable def nsepMixed (roots : RootFinder) (junk D : ℕ) (q : Buf ℂ) (T0 T1 : ℝ) (kappa : ℤ) (s : NsepSt) :
    Option (ℤ × NsepSt) := do
  let A ← nsep_subsample roots D q T0 T1 kappa true (if kappa = 1 then s else { s with K := 0, main := none })
  let main := if kappa = 1 then A.2.main else s.main
  if A.1 ≠ SUCCESS then return (chk A.1, ⟨s.K, main, s.M, A.2.aux, A.2.opts⟩)
  else if A.2.K > s.K ∨ A.2.M > s.M then return (EC_ASSERTION_FAILED, ⟨s.K, main, s.M, A.2.aux, A.2.opts⟩)
  else
    let B ← nsep_gridsearch junk D q T0 T1 kappa A.2.K A.2.M ⟨s.K - A.2.K, main, s.M - A.2.M, A.2.aux, A.2.opts⟩
    if B.1 ≠ SUCCESS then return (chk B.1, { B.2 with K := s.K, M := s.M })
    else return (SUCCESS, { B.2 with K := A.2.K + B.2.K, M := A.2.M + B.2.M })

/-- The `switch`, fnft_nsep.c:149-217. -/
noncomputable def nsepSwitch (roots : RootFinder) (junk D : ℕ) (q : Buf ℂ) (T0 T1 : ℝ) (kappa : ℤ) (s : NsepSt) : Option (ℤ × NsepSt) :=
  match s.opts.loc with
  | .MIXED => nsepMixed roots junk D q T0 T1 kappa s
  | .SUBSAMPLE_AND_REFINE => do
    let R ← nsep_subsample roots D q T0 T1 kappa false s
    return (chk R.1, R.2)
  | .NEWTON => do
    let R ← nsep_newton D q T0 T1 kappa s
    return (chk R.1, R.2)
  | .GRIDSEARCH => do
    let R ← nsep_gridsearch junk D q T0 T1 kappa 0 0 s
    return (chk R.1, R.2)
  | .other _ => some (EC_INVALID_ARGUMENT, s)

/-- Sum of a double and a finite number. -/
noncomputable def Dbl.addR : Dbl → ℝ → Dbl
  | .num x, y => .num (x + (y : EReal))
  | .nan, _ => .nan

/-- Shift of the bounding box, fnft_nsep.c:144-147, 229-232. -/
noncomputable def nsepShiftBox (L : ℝ) (o : NsepOpts) : NsepOpts :=
  if o.filt = .MANUAL then { o with box := ![(o.box 0).addR L, (o.box 1).addR L, o.box 2, o.box 3] } else o

/-- Removal of the phase rotation, fnft_nsep.c:139-140. -/
noncomputable def nsepRotate (D : ℕ) (q : Buf ℂ) (L T0 eps_t : ℝ) : Option (Buf ℂ) :=
  fill 0 D (fun i => do
    let x ← q.rd i
    return x * exp (2 * I * L * (T0 + eps_t * i))) (Buf.malloc D)

/-- `for (i=0; i < n; i++) spec[i] += Lam_shift`, fnft_nsep.c:219-226. -/
noncomputable def nsepShift (n : ℕ) (L : ℝ) (spec : Option (Buf ℂ)) : Option (Option (Buf ℂ)) :=
  match spec with
  | none => some none
  | some b => do
    let b ← forLoop n (fun i (b : Buf ℂ) => do
      let x ← b.rd i
      b.wr i (x + (L : ℂ))) b
    return some b

open Classical in
/-- `fnft_nsep`, fnft_nsep.c:94-237. The pointers `K_ptr`, `M_ptr` are `none` or the numbers they point to; `opts` (`default_opts` for
NULL), `sheet` tells whether `sheet_indices` is not NULL. The result contains the code and the output arguments and the options
afterwards; `st = none` if nothing was written. -/
noncomputable def fnft_nsep (roots : RootFinder) (junk D : ℕ) (q : Option (Buf ℂ)) (T : Option (ℝ × ℝ)) (phase_shift : ℝ)
    (K_ptr : Option ℕ) (main : Option (Buf ℂ)) (M_ptr : Option ℕ) (aux : Option (Buf ℂ)) (sheet : Bool) (kappa : ℤ) (o : NsepOpts) :
    Option (ℤ × Option NsepSt) :=
  if D < 2 ∨ D &&& (D - 1) ≠ 0 then some (EC_INVALID_ARGUMENT, none)
  else match q with
  | none => some (EC_INVALID_ARGUMENT, none)
  | some q =>
    match T with
    | none => some (EC_INVALID_ARGUMENT, none)
    | some (T0, T1) =>
      if T0 ≥ T1 then some (EC_INVALID_ARGUMENT, none)
      else if |kappa| ≠ 1 then some (EC_INVALID_ARGUMENT, none)
      else match K_ptr, M_ptr with
      | some K, some M =>
        if sheet then some (EC_NOT_YET_IMPLEMENTED, none)
        else if o.filt ≠ .NONE ∧ main = none ∧ aux ≠ none then some (EC_INVALID_ARGUMENT, none)
        else do
          let L : ℝ := phase_shift / (-2 * (T1 - T0))
          let eps_t : ℝ := (T1 - T0) / D
          let qp ← nsepRotate D q L T0 eps_t
          let R ← nsepSwitch roots junk D qp T0 T1 kappa ⟨K, main, M, aux, nsepShiftBox (-L) o⟩
          if R.1 ≠ SUCCESS then return (R.1, some R.2)
          else
            let main ← nsepShift R.2.K L R.2.main
            let aux ← nsepShift R.2.M L R.2.aux
            return (SUCCESS, some ⟨R.2.K, main, R.2.M, aux, nsepShiftBox L R.2.opts⟩)
      | _, _ => some (EC_INVALID_ARGUMENT, none)

end FNFT

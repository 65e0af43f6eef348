import Verif.Model.PolyFmult
import Verif.Model.AknsFscatter
import Verif.Model.NseDisc
import Mathlib.Analysis.SpecialFunctions.Trigonometric.Arctan
/-!
# Model of fnft__akns_finvscatter_q_from_r.inc

The include file is a template; its parameters are collected in `FinvKind`. The stack of the iterative implementation is
modelled with its size: an access to an element that does not exist is undefined behaviour (`none`), like the use of a field
that was not written. All allocations succeed.
-/
namespace FNFT
open Kiss Complex

/-- The three ways in which the `switch (discretization)` of the base case can go, .inc:206-216. -/
inductive FinvDisc | modal | split2A | unsupported
  deriving DecidableEq

/-- The macros that parametrise the template. -/
structure FinvKind where
  /-- `FNFT__AKNS_FINVSCATTER_Q_FROM_R` -/
  qFromR : ℂ → ℂ
  /-- `FNFT__AKNS_FINVSCATTER_Q_FROM_R_RETURN_R_INSTEAD_OF_Q` -/
  returnR : Bool
  /-- `FNFT__AKNS_FINVSCATTER_Q_FROM_R_TRANSPOSE_TF_MATRIX` -/
  transpose : Bool

/-- The arrays that the pointers `T` and `Ti` of the stack elements can point into: the transfer matrix and the arrays `T1`, `T1i`,
`T2i` of a stack element. -/
inductive FLoc
  | tm
  | T1 (i : ℕ)
  | T1i (i : ℕ)
  | T2i (i : ℕ)
  deriving DecidableEq

/-- The fields of `struct finvscatter_stack_elem` that change, .inc:48-66. A pointer is an array and an offset; `Ti` can be NULL; `q`
is an offset into the array `q`. -/
structure FinvFrame where
  deg : ℕ
  T : FLoc × ℕ
  T_stride : ℕ
  Ti : Option (FLoc × ℕ)
  Ti_stride : ℕ
  q : ℕ
  start_pos : ℕ

/-- The fields that are computed in advance: plans, and whether `mode_offset` is 2. -/
structure FinvPlan where
  fwd : Plan
  inv : Plan
  space : Bool

/-- The state: stack elements (`none`: not yet written), arrays, `q`, FFT buffers and `ret_code` (`none`: not yet written). -/
structure FinvSt where
  fr : ℕ → Option FinvFrame
  mem : FLoc → Buf ℂ
  q : Buf ℂ
  B : Bufs
  ret : Option ℤ

/-- What is constant during the recursion: number of stack elements, their plans (`none`: no such element), parameters. -/
structure FinvPar where
  size : ℕ
  pl : ℕ → Option FinvPlan
  kind : FinvKind
  disc : FinvDisc
  eps : ℝ

/-- How an iteration of the `while` loop ends: `i++; continue`, `i--`, `goto leave_fun`. -/
inductive FinvNext
  | push (s : FinvSt)
  | pop (s : FinvSt)
  | leave (ec : ℤ) (s : FinvSt)

/-- `s[i+1] = f`, `s[i].start_pos = pos`. -/
def finvPush (P : FinvPar) (i : ℕ) (cur child : FinvFrame) (pos : ℕ) (s : FinvSt) : Option FinvNext :=
  if i + 1 < P.size then
    some (.push { s with fr := Function.update (Function.update s.fr (i + 1) (some child)) i (some { cur with start_pos := pos }) })
  else none

/-- Step 1, .inc:114-126. -/
def finvStep1 (P : FinvPar) (i : ℕ) (f : FinvFrame) (s : FinvSt) : Option FinvNext :=
  finvPush P i f ⟨f.deg / 2, (f.T.1, f.T.2 + f.deg / 2), f.T_stride, some (.T2i i, f.deg / 2), f.deg + 1, f.q + f.deg / 2, 0⟩ 1 s

/-- `poly_fmult_two_polys2x2(deg, p1, p1_stride, p2, p2_stride, result, result_stride, ...)` with the plans of stack element `j`;
the array of the result is not one of the factors' arrays. -/
noncomputable def finvMul (P : FinvPar) (j deg : ℕ) (p1 : FLoc × ℕ) (s1 : ℕ) (p2 : FLoc × ℕ) (s2 : ℕ) (res : FLoc × ℕ) (rs : ℕ)
    (s : FinvSt) : Option FinvSt :=
  if res.1 ≠ p1.1 ∧ res.1 ≠ p2.1 then do
    let pl ← P.pl j
    let R ← runPhases deg (fun e => if e.1 then (s.mem p2.1, p2.2 + e.2 * s2) else (s.mem p1.1, p1.2 + e.2 * s1)) res.2 rs
      pl.fwd pl.inv (modes2x2 pl.space) calls2x2 (s.mem res.1, s.B)
    return { s with mem := Function.update s.mem res.1 R.1, B := R.2, ret := some SUCCESS }
  else none

/-- Steps 2 and 3, .inc:128-152. -/
noncomputable def finvStep23 (P : FinvPar) (i : ℕ) (f : FinvFrame) (s : FinvSt) : Option FinvNext := do
  let s ← finvMul P i f.deg (.T2i i, 0) (f.deg + 1) f.T f.T_stride (.T1 i, 0) (2 * f.deg + 1) s
  finvPush P i f ⟨f.deg / 2, (.T1 i, f.deg), 2 * f.deg + 1, some (.T1i i, 0), f.deg / 2 + 1, f.q, 0⟩ 2 s

/-- Step 4, .inc:154-169. -/
noncomputable def finvStep4 (P : FinvPar) (i : ℕ) (f : FinvFrame) (s : FinvSt) : Option FinvNext :=
  match f.Ti with
  | none => some (.pop s)
  | some Ti => do
    let s ← finvMul P (i + 1) (f.deg / 2) (.T1i i, 0) (f.deg / 2 + 1) (.T2i i, f.deg / 2) (f.deg + 1) Ti f.Ti_stride s
    return .pop s

/-- A list of stores into an array. -/
def storeList (l : List (ℕ × ℂ)) (b : Buf ℂ) : Option (Buf ℂ) := l.foldlM (fun b p => b.wr p.1 p.2) b

/-- The sample that is stored, .inc:199-216; `none`: the discretization is not supported. -/
noncomputable def finvSample (P : FinvPar) (Q R : ℂ) : Option ℂ :=
  let X := if P.kind.returnR then R else Q
  match P.disc with
  | .modal => some (X / P.eps)
  | .split2A => some (Real.arctan ‖X‖ * exp (I * arg X) / P.eps)
  | .unsupported => none

/-- Base case, .inc:171-216. A division by `T_11[1] = 0` (the result is not a number) is outside of the model. -/
noncomputable def finvBase (P : FinvPar) (f : FinvFrame) (s : FinvSt) : Option FinvNext := do
  let T21 ← (s.mem f.T.1).rd (f.T.2 + 2 * f.T_stride + 1)
  let T11 ← (s.mem f.T.1).rd (f.T.2 + 1)
  if T11 = 0 then none
  else
    let R := T21 / T11
    let Q := P.kind.qFromR R
    let scl_den := 1 - Q * R
    if scl_den = 0 then return .leave EC_DIV_BY_ZERO s
    else
      let scl := 1 / csqrt scl_den
      let Ti ← f.Ti
      let b ← storeList
        [(Ti.2, scl), (Ti.2 + 1, 0), (Ti.2 + f.Ti_stride, -scl * Q), (Ti.2 + f.Ti_stride + 1, 0),
          (Ti.2 + 2 * f.Ti_stride, 0), (Ti.2 + 2 * f.Ti_stride + 1, -scl * R),
          (Ti.2 + 3 * f.Ti_stride, 0), (Ti.2 + 3 * f.Ti_stride + 1, scl)] (s.mem Ti.1)
      let s := { s with mem := Function.update s.mem Ti.1 b }
      match finvSample P Q R with
      | none => return .leave EC_INVALID_ARGUMENT s
      | some x => do
        let q ← s.q.wr f.q x
        return .pop { s with q := q }

/-- One iteration of the `while` loop of `finvscatter_recurse`, .inc:86-226. -/
noncomputable def finvStep (P : FinvPar) (i : ℕ) (s : FinvSt) : Option FinvNext := do
  let f ← s.fr i
  if f.start_pos = 1 then finvStep23 P i f s
  else if f.start_pos = 2 then finvStep4 P i f s
  else if f.deg > 1 then finvStep1 P i f s
  else if f.deg = 1 then finvBase P f s
  else return .leave EC_ASSERTION_FAILED s

/-- `finvscatter_recurse`, .inc:72-230: `i` is the current level. The first argument bounds the number of iterations (`none` when
it is used up). The result is `ret_code` and the state. -/
noncomputable def finvRun (P : FinvPar) : ℕ → ℕ → FinvSt → Option (Option ℤ × FinvSt)
  | 0, _, _ => none
  | fuel + 1, i, s => do
    match ← finvStep P i s with
    | .push s => finvRun P fuel (i + 1) s
    | .pop s => if i = 0 then return (s.ret, s) else finvRun P fuel (i - 1) s
    | .leave ec s => return (some ec, s)

/-- The pre-computed plans and flags, .inc:346-368 (for `stack_size` levels, or the code of the failing subroutine). -/
noncomputable def finvPlans : ℕ → ℕ → Option (Except ℤ (ℕ → Option FinvPlan))
  | 0, _ => some (.ok fun _ => none)
  | n + 1, deg => do
    let len ← twoPolysLen deg
    match ← mkPlan len (-1) with
    | (_, some pf) =>
      match ← mkPlan len 1 with
      | (_, some pi) =>
        match ← finvPlans n (deg / 2) with
        | .ok pl => return .ok fun i => match i with | 0 => some ⟨pf, pi, decide (¬ len > deg + 1)⟩ | i + 1 => pl i
        | .error ec => return .error ec
      | (rc, none) => return .error (E_SUBROUTINE (E_SUBROUTINE rc))
    | (rc, none) => return .error (E_SUBROUTINE (E_SUBROUTINE rc))

/-- The arrays at the beginning, .inc:349-351; `size` levels, level `i` has degree `deg / 2^i`. -/
def finvMem (size deg : ℕ) (tm : Buf ℂ) : FLoc → Buf ℂ
  | .tm => tm
  | .T1 i => if i < size then Buf.malloc (4 * (2 * (deg / 2 ^ i) + 1)) else Buf.malloc 0
  | .T1i i => if i < size then Buf.malloc (4 * (deg / 2 ^ i / 2 + 1)) else Buf.malloc 0
  | .T2i i => if i < size then Buf.calloc (4 * (deg / 2 ^ i + 1)) else Buf.malloc 0

/-- `#ifdef ..._TRANSPOSE_TF_MATRIX`, .inc:286-288. The loop reads and writes different parts of the array. -/
def finvTranspose (tr : Bool) (deg : ℕ) (tm : Buf ℂ) : Option (Buf ℂ) :=
  if tr then do
    let tm ← tm.wr (2 * (deg + 1)) 0
    fill (2 * (deg + 1) + 1) deg (fun k => tm.rd (k - (2 * (deg + 1) + 1) + (deg + 1))) tm
  else some tm

/-- `#ifdef ..._TRANSPOSE_TF_MATRIX`, .inc:380-384. -/
def finvReverse (tr : Bool) (D : ℕ) (q : Buf ℂ) : Option (Buf ℂ) :=
  if tr then
    forLoop (D / 2) (fun i q => do
      let tmp ← q.rd i
      let x ← q.rd (D - 1 - i)
      let q ← q.wr i x
      q.wr (D - 1 - i) tmp) q
  else some q

/-- The result: code, transfer matrix and `q`. -/
structure FinvRes where
  ret : ℤ
  tm : Buf ℂ
  q : Buf ℂ

/-- The routine after its checks, .inc:258-406; `D` is a power of two, so that `ROUND(LOG2(D))` is its exponent. `4*deg` iterations
suffice for the recursion (theorem `C30_finvscatter`). -/
noncomputable def finvMain (kind : FinvKind) (disc : FinvDisc) (D deg : ℕ) (tm q : Buf ℂ) (eps : ℝ) : Option FinvRes := do
  let tm ← finvTranspose kind.transpose deg tm
  let len ← twoPolysLen deg
  let size := Nat.log 2 D + 1
  match ← finvPlans size deg with
  | .error ec => return ⟨ec, tm, q⟩
  | .ok pl =>
    let R ← finvRun ⟨size, pl, kind, disc, eps⟩ (4 * deg) 0
      ⟨Function.update (fun _ => none) 0 (some ⟨deg, (.tm, 0), deg + 1, none, 0, 0, 0⟩), finvMem size deg tm, q,
        ⟨Buf.malloc len, Buf.malloc len, Buf.malloc len⟩, none⟩
    let ret ← R.1
    if ret ≠ SUCCESS then return ⟨E_SUBROUTINE ret, R.2.mem .tm, R.2.q⟩
    let q ← finvReverse kind.transpose D R.2.q
    return ⟨SUCCESS, R.2.mem .tm, q⟩

/-- The template routine, .inc:232-406, for a discretization of degree `ddeg`; NULL is `none`. -/
noncomputable def finvscatter (kind : FinvKind) (disc : FinvDisc) (ddeg deg : ℕ) (tm q : Option (Buf ℂ)) (eps : ℝ) (kappaOk : Bool) :
    Option (ℤ × Option (Buf ℂ) × Option (Buf ℂ)) :=
  match tm, q with
  | some t, some x =>
    if deg = 0 ∨ ¬ eps > 0 ∨ kappaOk = false ∨ ddeg = 0 then some (EC_INVALID_ARGUMENT, tm, q)
    else if deg / ddeg < 2 ∨ (deg / ddeg) &&& (deg / ddeg - 1) ≠ 0 then some (EC_OTHER, tm, q)
    else do
      let R ← finvMain kind disc (deg / ddeg) deg t x eps
      return (R.ret, some R.tm, some R.q)
  | _, _ => some (EC_INVALID_ARGUMENT, tm, q)

/-- The macros for the NSE, /repo/src/private/fnft__nse_finvscatter.c:23-27. -/
noncomputable def nseFinvKind (kappa : ℤ) : FinvKind := ⟨fun R => -(kappa : ℂ) * (starRingEnd ℂ) R, false, false⟩

/-- The `switch` in the base case for the NSE. -/
def nseFinvDisc : NseDisc → FinvDisc
  | .D2SPLIT2_MODAL => .modal
  | .D2SPLIT2A => .split2A
  | _ => .unsupported

/-- `nse_finvscatter`, fnft__nse_finvscatter.c:20-36 with the template. -/
noncomputable def nse_finvscatter (deg : ℕ) (tm q : Option (Buf ℂ)) (eps : ℝ) (kappa : ℤ) (d : NseDisc) :
    Option (ℤ × Option (Buf ℂ) × Option (Buf ℂ)) :=
  finvscatter (nseFinvKind kappa) (nseFinvDisc d) (nse_degree d) deg tm q eps (decide (kappa = -1 ∨ kappa = 1))

end FNFT

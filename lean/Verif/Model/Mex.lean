import Verif.Model.Nsev
import Verif.Model.Kdvv
import Verif.Model.Manakovv
import Verif.Model.Nsep
import Verif.Model.NsevInv
/-!
# Model of the MATLAB interface (matlab/mex_fnft_*.c)

A gateway gets the number `nlhs` of requested outputs and the list of input arrays. It reads the samples and the parameters, works through the optional inputs,
allocates memory, calls the C routine, and copies its results to MATLAB arrays. The C routine is a parameter here (`call`), so that the theorems hold for every
routine that behaves as its documentation says; they are combined with the models of the C routines in `Props/Mex`.

Simplifications: numbers in MATLAB arrays are finite reals; conversions to unsigned integers are rounded down and do not overflow; `mxMalloc` does not fail (in MEX functions it ends the
function itself); memory that is not released is not tracked because MATLAB releases the memory of `mxMalloc` when a gateway returns; messages are not modelled.
-/
namespace FNFT

/-- Classes of MATLAB arrays. -/
inductive MxClass | double | single | char | other
  deriving DecidableEq

/-- `mxArray`. `re`, `im` is the memory behind `mxGetPr`, `mxGetPi` as an array of doubles: its length is the number of doubles that fit into the data of the array (zero for a NULL pointer). -/
structure MxArray where
  cls : MxClass
  cplx : Bool
  rows : ℕ
  cols : ℕ
  re : Buf ℝ
  im : Buf ℝ
  str : String

namespace MxArray
/-- `mxGetNumberOfElements` -/
def numel (a : MxArray) : ℕ := a.rows * a.cols
/-- `mxGetScalar` -/
def scalar (a : MxArray) : Option ℝ := a.re.rd 0
/-- `re[j] + I*im[j]` with `re = mxGetPr(a)`, `im = mxGetPi(a)` -/
noncomputable def cval (a : MxArray) (j : ℕ) : Option ℂ := do
  let x ← a.re.rd j
  let y ← a.im.rd j
  return (x : ℂ) + Complex.I * (y : ℂ)
/-- `!mxIsDouble(a) || mxGetM(a) != 1 || mxGetN(a) != n`, negated -/
def isRow (n : ℕ) (a : MxArray) : Bool := decide (a.cls = .double ∧ a.rows = 1 ∧ a.cols = n)
/-- `!mxIsDouble(a) || mxGetNumberOfElements(a) != 1`, negated -/
def isScalar (a : MxArray) : Bool := decide (a.cls = .double ∧ a.numel = 1)
/-- `!mxIsComplex(a) || mxGetM(a) != 1`, negated -/
def isCplxRow (a : MxArray) : Bool := decide (a.cplx = true ∧ a.rows = 1)
/-- `!mxIsEmpty(a) && (!mxIsComplex(a) || mxGetM(a) != 1)`, negated -/
def isCplxRowOrEmpty (a : MxArray) : Bool := decide (a.numel = 0) || a.isCplxRow
end MxArray

/-- `(int)x` -/
noncomputable def toInt (x : ℝ) : ℤ := if 0 ≤ x then ⌊x⌋ else ⌈x⌉

/-- `x[0]`, `x[1]` with `x = mxGetPr(a)` -/
def mxPair (a : MxArray) : Option (ℝ × ℝ) := do
  let x ← a.re.rd 0
  let y ← a.re.rd 1
  return (x, y)

/-- Loops like mex_fnft_nsev.c:150-151, 410-411: a new array with `n` complex numbers from a MATLAB array. -/
noncomputable def mxComplex (n : ℕ) (a : MxArray) : Option (Buf ℂ) := fill 0 n a.cval (Buf.malloc n)

/-- A complex matrix that is returned to MATLAB (`mxCreateDoubleMatrix(rows, cols, mxCOMPLEX)`, initialised with zeros). -/
structure MxMat where
  rows : ℕ
  cols : ℕ
  val : Buf ℂ

def mxEmpty : MxMat := ⟨0, 0, Buf.calloc 0⟩

/-- Loops like mex_fnft_nsev.c:456-459: a row vector with the first `n` values of an array. -/
noncomputable def mxRow (n : ℕ) (b : Option (Buf ℂ)) : Option MxMat := do
  let b ← b
  let v ← fill 0 n b.rd (Buf.calloc n)
  return ⟨1, n, v⟩

/-- The gateway ends with `mexErrMsgTxt`: wrong inputs, or the C routine has returned an error. -/
inductive MexErr
  | usage
  | failed (ec : ℤ)

/-- The memory behind `plhs`: `max(nlhs, 1)` pointers. -/
abbrev Plhs := Buf MxMat

/-! ## Optional inputs -/

/-- What the branch for a certain string in the chain of `strcmp`s does: set something, or test the input behind the string and use it.
`val2` is for two inputs behind the string. The test may read the data of the array. -/
inductive OptAct (σ : Type)
  | flag (f : σ → σ)
  | val (ok : MxArray → Option Bool) (f : MxArray → σ → Option σ)
  | val2 (ok : MxArray → Option Bool) (f : MxArray → σ → Option σ) (ok' : MxArray → Option Bool) (f' : MxArray → σ → Option σ)

/-- The loops over the optional inputs, for instance mex_fnft_nsev.c:99-357. -/
def mexParse {σ : Type} (tbl : String → Option (OptAct σ)) : List MxArray → σ → Option (Except MexErr σ)
  | [], s => some (.ok s)
  | a :: r, s =>
    if a.cls ≠ .char then some (.error .usage)
    else match tbl a.str with
    | none => some (.error .usage)
    | some (.flag f) => mexParse tbl r (f s)
    | some (.val ok f) => match r with
      | [] => some (.error .usage)
      | b :: r => do
        if ¬ (← ok b) then return .error .usage
        mexParse tbl r (← f b s)
    | some (.val2 ok f ok' f') => match r with
      | [] => some (.error .usage)
      | b :: r => do
        if ¬ (← ok b) then return .error .usage
        let s ← f b s
        match r with
        | [] => return .error .usage
        | c :: r => do
          if ¬ (← ok' c) then return .error .usage
          mexParse tbl r (← f' c s)

open Classical in
/-- `!mxIsDouble(a) || mxGetNumberOfElements(a) != 1 || mxGetScalar(a) < 0.0`, negated -/
noncomputable def okNonneg (a : MxArray) : Option Bool :=
  if a.isScalar then do return !decide ((← a.scalar) < 0) else some false

open Classical in
/-- The same with `mxGetScalar(a) <= 0.0`, negated -/
noncomputable def okPos (a : MxArray) : Option Bool :=
  if a.isScalar then do return !decide ((← a.scalar) ≤ 0) else some false

open Classical in
/-- The same with `mxGetScalar(a) < 1`, negated -/
noncomputable def okOne (a : MxArray) : Option Bool :=
  if a.isScalar then do return !decide ((← a.scalar) < 1) else some false

/-- `k+1 == nrhs || !mxIsComplex(..) || mxGetM(..) != 1 || mxGetN(..) < 1`, negated (without the first condition) -/
def okGuesses (a : MxArray) : Option Bool := some (a.isCplxRow && decide (1 ≤ a.cols))

/-- The four numbers of a box. -/
noncomputable def mxBox (a : MxArray) : Option (Fin 4 → Dbl) := do
  let x0 ← a.re.rd 0
  let x1 ← a.re.rd 1
  let x2 ← a.re.rd 2
  let x3 ← a.re.rd 3
  return ![.num (x0 : EReal), .num (x1 : EReal), .num (x2 : EReal), .num (x3 : EReal)]

/-! ## mex_fnft_nsev.c and mex_fnft_kdvv.c -/

/-- Variables of the gateways for `fnft_nsev` and `fnft_kdvv` that the optional inputs change. -/
structure VGate (O : Type) where
  M : ℕ
  K : ℕ
  bs : Option (Buf ℂ)
  skipCs : Bool
  skipBs : Bool
  skipNc : Bool
  o : O

/-- The strings for the discretizations, mex_fnft_nsev.c:234-349. -/
def nsevDiscName : String → Option NseDisc
  | "discr_modal" => some .D2SPLIT2_MODAL
  | "discr_2split1A" => some .D2SPLIT1A
  | "discr_2split1B" => some .D2SPLIT1B
  | "discr_2split2A" => some .D2SPLIT2A
  | "discr_2split2B" => some .D2SPLIT2B
  | "discr_2split2S" => some .D2SPLIT2S
  | "discr_2split3A" => some .D2SPLIT3A
  | "discr_2split3B" => some .D2SPLIT3B
  | "discr_2split3S" => some .D2SPLIT3S
  | "discr_2split4A" => some .D2SPLIT4A
  | "discr_2split4B" => some .D2SPLIT4B
  | "discr_2split5A" => some .D2SPLIT5A
  | "discr_2split5B" => some .D2SPLIT5B
  | "discr_2split6A" => some .D2SPLIT6A
  | "discr_2split6B" => some .D2SPLIT6B
  | "discr_2split7A" => some .D2SPLIT7A
  | "discr_2split7B" => some .D2SPLIT7B
  | "discr_2split8A" => some .D2SPLIT8A
  | "discr_2split8B" => some .D2SPLIT8B
  | "discr_4split4A" => some .D4SPLIT4A
  | "discr_4split4B" => some .D4SPLIT4B
  | "discr_BO" => some .BO
  | "discr_CF4_2" => some .CF4_2
  | "discr_CF4_3" => some .CF4_3
  | "discr_CF5_3" => some .CF5_3
  | "discr_CF6_4" => some .CF6_4
  | "discr_ES4" => some .ES4
  | "discr_TES4" => some .TES4
  | _ => none

/-- The branches of mex_fnft_nsev.c:114-355. -/
noncomputable def nsevOptTable : String → Option (OptAct (VGate NsevOpts))
  | "M" => some (.val okNonneg fun a s => do return { s with M := ⌊← a.scalar⌋₊ })
  | "bsloc_fasteigen" => some (.flag fun s => { s with o := { s.o with loc := .FAST_EIGENVALUE } })
  | "bsloc_newton" => some (.val okGuesses fun a s => do
      return { s with K := a.cols, bs := some (← mxComplex a.cols a), o := { s.o with loc := .NEWTON } })
  | "bsloc_niter" => some (.val okNonneg fun a s => do return { s with o := { s.o with niter := ⌊← a.scalar⌋₊ } })
  | "bsloc_tol" => some (.val okNonneg fun a s => do return { s with o := { s.o with tol := .num ((← a.scalar : ℝ) : EReal) } })
  | "bsloc_subsamp_refine" => some (.flag fun s => { s with o := { s.o with loc := .SUBSAMPLE_AND_REFINE } })
  | "bsloc_Dsub" => some (.val okNonneg fun a s => do return { s with o := { s.o with Dsub := ⌊← a.scalar⌋₊ } })
  | "bsfilt_none" => some (.flag fun s => { s with o := { s.o with filt := .NONE } })
  | "bsfilt_basic" => some (.flag fun s => { s with o := { s.o with filt := .BASIC } })
  | "bsfilt_full" => some (.flag fun s => { s with o := { s.o with filt := .FULL } })
  | "bsfilt_manual" => some (.val (fun a => some (a.isRow 4)) fun a s => do return { s with o := { s.o with filt := .MANUAL, box := ← mxBox a } })
  | "RE" => some (.flag fun s => { s with o := { s.o with rich := 1 } })
  | "dstype_residues" => some (.flag fun s => { s with o := { s.o with ds := .RESIDUES } })
  | "cstype_ab" => some (.flag fun s => { s with o := { s.o with cs := .AB } })
  | "skip_cs" => some (.flag fun s => { s with skipCs := true })
  | "skip_bs" => some (.flag fun s => { s with skipBs := true, skipNc := true })
  | "skip_nc" => some (.flag fun s => { s with skipNc := true })
  | "skip_normalization" => some (.flag fun s => { s with o := { s.o with nrm := false } })
  | "quiet" => some (.flag fun s => s)
  | str => (nsevDiscName str).map fun d => .flag fun s => { s with o := { s.o with disc := d } }

/-- The arguments of the call of `fnft_nsev` and `fnft_kdvv`, mex_fnft_nsev.c:415-416, mex_fnft_kdvv.c:387-388 (`kappa` is not used there); `st` contains the pointers to the outputs. -/
structure VCall (O : Type) where
  D : ℕ
  q : Buf ℂ
  T : ℝ × ℝ
  M : ℕ
  XI : ℝ × ℝ
  kappa : ℤ
  opts : O
  st : NsevSt

/-- Length of the continuous spectrum, mex_fnft_nsev.c:368-371, 426-429. -/
def csLen (cs : CsType) (M : ℕ) : ℕ := if cs = .AB then 2 * M else M

/-- Allocation of the arrays for the results, mex_fnft_nsev.c:367-404, mex_fnft_kdvv.c:338-372; `maxK` is the length of the array for the bound states if there are no initial guesses. -/
def vGateBufs {O : Type} (cs : O → CsType) (maxK : ℕ) (s : VGate O) : NsevSt :=
  let contspec := if s.skipCs then none else some (Buf.malloc (csLen (cs s.o) s.M))
  let KB : ℕ × Option (Buf ℂ) := if s.skipBs then (s.K, s.bs) else match s.bs with
    | some b => (s.K, some b)
    | none => (maxK, some (Buf.malloc maxK))
  ⟨contspec, some KB.1, KB.2, if s.skipNc then none else some (Buf.malloc KB.1)⟩

/-- Conversion of the results, mex_fnft_nsev.c:424-492, mex_fnft_kdvv.c:396-end. The first block creates a matrix for `plhs[0]` that is replaced if the continuous spectrum is skipped. -/
noncomputable def vGateOut {O : Type} (cs : O → CsType) (nlhs : ℕ) (s : VGate O) (r : NsevSt) : Option Plhs := do
  let p : Plhs := Buf.malloc (max nlhs 1)
  let c ← if s.skipCs then some mxEmpty else mxRow (csLen (cs s.o) s.M) r.contspec
  let p ← p.wr 0 c
  let K ← r.K
  let p ← if s.skipBs then (if 2 ≤ nlhs then p.wr 1 mxEmpty else some p) else do p.wr 1 (← mxRow K r.bs)
  if s.skipNc then (if 3 ≤ nlhs then p.wr 2 mxEmpty else some p) else do p.wr 2 (← mxRow K r.nc)

open Classical in
/-- The tests of the first inputs, mex_fnft_nsev.c:64-93. The outer `none` stands for an access to memory that does not belong to an array; the inner one for rejected inputs. -/
noncomputable def nsevGateInputs (q T XI kappa : MxArray) : Option (Option ((ℝ × ℝ) × (ℝ × ℝ) × ℤ)) :=
  if ¬ (q.isCplxRow ∧ T.isRow 2 ∧ XI.isRow 2 ∧ kappa.isScalar) then some none
  else do
    let k := toInt (← kappa.scalar)
    if q.numel < 2 then return none
    let t ← mxPair T
    if t.1 ≥ t.2 then return none
    let x ← mxPair XI
    if x.1 ≥ x.2 then return none
    if k ≠ 1 ∧ k ≠ -1 then return none
    return some (t, x, k)

/-- `mexFunction` of mex_fnft_nsev.c:28-510. -/
noncomputable def mex_fnft_nsev (call : VCall NsevOpts → Option (ℤ × NsevSt)) (nlhs : ℕ) (prhs : List MxArray) : Option (Except MexErr Plhs) :=
  match prhs with
  | q :: T :: XI :: kappa :: rest => do
    match ← nsevGateInputs q T XI kappa with
    | none => return .error .usage
    | some (t, x, k) =>
      let D := q.numel
      match ← mexParse nsevOptTable rest ⟨D, D, none, false, decide (nlhs < 2), decide (nlhs < 3), nsev_default_opts⟩ with
      | .error e => return .error e
      | .ok s =>
        let maxK := if nsev_max_K D (some s.o) = 0 then D else nsev_max_K D (some s.o)
        let qb ← mxComplex D q
        let R ← call ⟨D, qb, t, s.M, x, k, s.o, vGateBufs NsevOpts.cs maxK s⟩
        if R.1 ≠ SUCCESS then return .error (.failed R.1)
        return .ok (← vGateOut NsevOpts.cs nlhs s R.2)
  | _ => some (.error .usage)

/-- The strings for the discretizations, mex_fnft_kdvv.c:211-323. -/
def kdvvDiscName : String → Option KdvDisc
  | "discr_modal" => some .D2SPLIT2_MODAL
  | "discr_2split1A" => some .D2SPLIT1A
  | "discr_2split1B" => some .D2SPLIT1B
  | "discr_2split2A" => some .D2SPLIT2A
  | "discr_2split2B" => some .D2SPLIT2B
  | "discr_2split2S" => some .D2SPLIT2S
  | "discr_2split3A" => some .D2SPLIT3A
  | "discr_2split3B" => some .D2SPLIT3B
  | "discr_2split3S" => some .D2SPLIT3S
  | "discr_2split4A" => some .D2SPLIT4A
  | "discr_2split4B" => some .D2SPLIT4B
  | "discr_2split5A" => some .D2SPLIT5A
  | "discr_2split5B" => some .D2SPLIT5B
  | "discr_2split6A" => some .D2SPLIT6A
  | "discr_2split6B" => some .D2SPLIT6B
  | "discr_2split7A" => some .D2SPLIT7A
  | "discr_2split7B" => some .D2SPLIT7B
  | "discr_2split8A" => some .D2SPLIT8A
  | "discr_2split8B" => some .D2SPLIT8B
  | "discr_4split4A" => some .D4SPLIT4A
  | "discr_4split4B" => some .D4SPLIT4B
  | "discr_BO" => some .BO
  | "discr_CF4_2" => some .CF4_2
  | "discr_CF4_3" => some .CF4_3
  | "discr_CF5_3" => some .CF5_3
  | "discr_CF6_4" => some .CF6_4
  | "discr_ES4" => some .ES4
  | "discr_TES4" => some .TES4
  | _ => none

/-- The branches of mex_fnft_kdvv.c:109-329. -/
noncomputable def kdvvOptTable : String → Option (OptAct (VGate KdvvOpts))
  | "M" => some (.val okNonneg fun a s => do return { s with M := ⌊← a.scalar⌋₊ })
  | "bsloc_newton" => some (.val okGuesses fun a s => do
      return { s with K := a.cols, bs := some (← mxComplex a.cols a), o := { s.o with loc := .NEWTON } })
  | "bsloc_gridsearch_refine" => some (.flag fun s => { s with o := { s.o with loc := .GRIDSEARCH_AND_REFINE } })
  | "bsloc_niter" => some (.val okNonneg fun a s => do return { s with o := { s.o with niter := ⌊← a.scalar⌋₊ } })
  | "grid_spacing" => some (.val okPos fun a s => do return { s with o := { s.o with grid_spacing := ← a.scalar } })
  | "RE" => some (.flag fun s => { s with o := { s.o with rich := 1 } })
  | "dstype_residues" => some (.flag fun s => { s with o := { s.o with ds := .RESIDUES } })
  | "cstype_ab" => some (.flag fun s => { s with o := { s.o with cs := .AB } })
  | "skip_cs" => some (.flag fun s => { s with skipCs := true })
  | "skip_bs" => some (.flag fun s => { s with skipBs := true, skipNc := true })
  | "skip_nc" => some (.flag fun s => { s with skipNc := true })
  | "skip_normalization" => some (.flag fun s => { s with o := { s.o with nrm := false } })
  | "quiet" => some (.flag fun s => s)
  | str => (kdvvDiscName str).map fun d => .flag fun s => { s with o := { s.o with disc := d } }

open Classical in
/-- The tests of the first inputs, mex_fnft_kdvv.c:59-85. -/
noncomputable def kdvvGateInputs (q T XI : MxArray) : Option (Option ((ℝ × ℝ) × (ℝ × ℝ))) :=
  if q.cplx ∨ q.rows ≠ 1 ∨ ¬ (T.isRow 2 ∧ XI.isRow 2) then some none
  else do
    if q.numel < 2 then return none
    let t ← mxPair T
    if t.1 ≥ t.2 then return none
    let x ← mxPair XI
    if x.1 ≥ x.2 then return none
    return some (t, x)

/-- `mexFunction` of mex_fnft_kdvv.c:29-448. -/
noncomputable def mex_fnft_kdvv (call : VCall KdvvOpts → Option (ℤ × NsevSt)) (nlhs : ℕ) (prhs : List MxArray) : Option (Except MexErr Plhs) :=
  match prhs with
  | q :: T :: XI :: rest => do
    match ← kdvvGateInputs q T XI with
    | none => return .error .usage
    | some (t, x) =>
      let D := q.numel
      match ← mexParse kdvvOptTable rest ⟨D, D, none, false, decide (nlhs < 2), decide (nlhs < 3), kdvv_default_opts⟩ with
      | .error e => return .error e
      | .ok s =>
        let qb ← fill 0 D (fun j => (q.re.rd j).map fun x : ℝ => (x : ℂ)) (Buf.malloc D)
        let R ← call ⟨D, qb, t, s.M, x, 0, s.o, vGateBufs KdvvOpts.cs 1024 s⟩
        if R.1 ≠ SUCCESS then return .error (.failed R.1)
        return .ok (← vGateOut KdvvOpts.cs nlhs s R.2)
  | _ => some (.error .usage)

/-! ## mex_fnft_manakovv.c -/

/-- Variables of the gateway that the optional inputs change. -/
structure ManGate where
  M : ℕ
  skipCs : Bool
  skipBs : Bool
  o : ManvOpts

/-- The branches of mex_fnft_manakovv.c:121-220. -/
noncomputable def manvOptTable : String → Option (OptAct ManGate)
  | "M" => some (.val okNonneg fun a s => do return { s with M := ⌊← a.scalar⌋₊ })
  | "RE" => some (.flag fun s => { s with o := { s.o with rich := 1 } })
  | "cstype_ab" => some (.flag fun s => { s with o := { s.o with cs := .AB } })
  | "cstype_both" => some (.flag fun s => { s with o := { s.o with cs := .BOTH } })
  | "skip_bs" => some (.flag fun s => { s with skipBs := true })
  | "skip_contspec" => some (.flag fun s => { s with skipCs := true })
  | "quiet" => some (.flag fun s => s)
  | "discr_2split3A" => some (.flag fun s => { s with o := { s.o with disc := .D2SPLIT3A } })
  | "discr_2split3B" => some (.flag fun s => { s with o := { s.o with disc := .D2SPLIT3B } })
  | "discr_2split4A" => some (.flag fun s => { s with o := { s.o with disc := .D2SPLIT4A } })
  | "discr_2split4B" => some (.flag fun s => { s with o := { s.o with disc := .D2SPLIT4B } })
  | "discr_2split6B" => some (.flag fun s => { s with o := { s.o with disc := .D2SPLIT6B } })
  | "discr_4split4A" => some (.flag fun s => { s with o := { s.o with disc := .D4SPLIT4A } })
  | "discr_4split4B" => some (.flag fun s => { s with o := { s.o with disc := .D4SPLIT4B } })
  | "discr_4split6B" => some (.flag fun s => { s with o := { s.o with disc := .D4SPLIT6B } })
  | "discr_FTES4_4A" => some (.flag fun s => { s with o := { s.o with disc := .FTES4_4A } })
  | "discr_FTES4_4B" => some (.flag fun s => { s with o := { s.o with disc := .FTES4_4B } })
  | "discr_FTES4_suzuki" => some (.flag fun s => { s with o := { s.o with disc := .FTES4_suzuki } })
  | "discr_BO" => some (.flag fun s => { s with o := { s.o with disc := .BO } })
  | "discr_CF4_2" => some (.flag fun s => { s with o := { s.o with disc := .CF4_2 } })
  | _ => none

/-- The arguments of the call of `fnft_manakovv`, mex_fnft_manakovv.c:275-276. -/
structure ManCall where
  D : ℕ
  q1 : Buf ℂ
  q2 : Buf ℂ
  T : ℝ × ℝ
  M : ℕ
  XI : ℝ × ℝ
  kappa : ℤ
  opts : ManvOpts
  st : ManvSt

/-- Length of the continuous spectrum, mex_fnft_manakovv.c:249-254, 284-289. -/
def manLen (cs : CsType) (M : ℕ) : ℕ := if cs = .AB then 3 * M else if cs = .REFLECTION_COEFFICIENT then 2 * M else 5 * M

open Classical in
/-- The tests of the first inputs, mex_fnft_manakovv.c:66-101. -/
noncomputable def manGateInputs (q1 q2 T XI kappa : MxArray) : Option (Option ((ℝ × ℝ) × (ℝ × ℝ) × ℤ)) :=
  if ¬ (q1.isCplxRow ∧ q2.isCplxRow ∧ T.isRow 2 ∧ XI.isRow 2 ∧ kappa.isScalar) then some none
  else do
    let k := toInt (← kappa.scalar)
    if q1.numel < 2 ∨ q2.numel ≠ q1.numel then return none
    let t ← mxPair T
    if t.1 ≥ t.2 then return none
    let x ← mxPair XI
    if x.1 ≥ x.2 then return none
    if k ≠ 1 ∧ k ≠ -1 then return none
    return some (t, x, k)

/-- Conversion of the results, mex_fnft_manakovv.c:283-328. -/
noncomputable def manGateOut (nlhs : ℕ) (s : ManGate) (r : ManvSt) : Option Plhs := do
  let p : Plhs := Buf.malloc (max nlhs 1)
  let c ← if s.skipCs then some mxEmpty else mxRow (manLen s.o.cs s.M) r.contspec
  let p ← p.wr 0 c
  if s.skipBs then (if 2 ≤ nlhs then p.wr 1 mxEmpty else some p) else do p.wr 1 (← mxRow (← r.K) r.bs)

/-- `mexFunction` of mex_fnft_manakovv.c:31-356. -/
noncomputable def mex_fnft_manakovv (call : ManCall → Option (ℤ × ManvSt)) (nlhs : ℕ) (prhs : List MxArray) : Option (Except MexErr Plhs) :=
  match prhs with
  | q1 :: q2 :: T :: XI :: kappa :: rest => do
    match ← manGateInputs q1 q2 T XI kappa with
    | none => return .error .usage
    | some (t, x, k) =>
      let D := q1.numel
      match ← mexParse manvOptTable rest ⟨D, false, false, manakovv_default_opts⟩ with
      | .error e => return .error e
      | .ok s =>
        if s.skipBs = false ∧ manakovv_max_K D (some s.o) = 0 then return .error .usage
        let K := if s.skipBs then D else manakovv_max_K D (some s.o)
        let bs := if s.skipBs then none else some (Buf.malloc K)
        let cs := if s.skipCs then none else some (Buf.malloc (manLen s.o.cs s.M))
        let b1 ← mxComplex D q1
        let b2 ← mxComplex D q2
        let R ← call ⟨D, b1, b2, t, s.M, x, k, s.o, ⟨cs, some K, bs⟩⟩
        if R.1 ≠ SUCCESS then return .error (.failed R.1)
        return .ok (← manGateOut nlhs s R.2)
  | _ => some (.error .usage)

/-! ## mex_fnft_nsep.c -/

/-- Variables of the gateway that the optional inputs change. -/
structure NsepGate where
  K : ℕ
  main : Option (Buf ℂ)
  M : ℕ
  aux : Option (Buf ℂ)
  phase : ℝ
  up : ℕ
  o : NsepOpts

/-- The branches of mex_fnft_nsep.c:89-235. -/
noncomputable def nsepOptTable : String → Option (OptAct NsepGate)
  | "filt_none" => some (.flag fun s => { s with o := { s.o with filt := .NONE } })
  | "filt_manual" => some (.val (fun a => some (a.isRow 4)) fun a s => do return { s with o := { s.o with filt := .MANUAL, box := ← mxBox a } })
  | "points_per_spine" => some (.val okNonneg fun a s => do return { s with o := { s.o with pps := ⌊← a.scalar⌋₊ } })
  | "phase_shift" => some (.val (fun a => some a.isScalar) fun a s => do return { s with phase := ← a.scalar })
  | "loc_mixed" => some (.flag fun s => { s with o := { s.o with loc := .MIXED } })
  | "loc_subsample_and_refine" => some (.flag fun s => { s with o := { s.o with loc := .SUBSAMPLE_AND_REFINE } })
  | "loc_newton" => some (.val2
      (fun a => some a.isCplxRowOrEmpty) (fun a s => do return { s with K := a.cols, main := some (← mxComplex a.cols a), o := { s.o with loc := .NEWTON } })
      (fun a => some a.isCplxRowOrEmpty) (fun a s => do return { s with M := a.cols, aux := some (← mxComplex a.cols a), o := { s.o with disc := .BO } }))
  | "loc_gridsearch" => some (.flag fun s => { s with o := { s.o with loc := .GRIDSEARCH } })
  | "loc_max_evals" => some (.val okNonneg fun a s => do return { s with o := { s.o with max_evals := ⌊← a.scalar⌋₊ } })
  | "loc_Dsub" => some (.val okNonneg fun a s => do return { s with o := { s.o with Dsub := ⌊← a.scalar⌋₊ } })
  | "skip_normalization" => some (.flag fun s => { s with o := { s.o with nrm := false } })
  | "quiet" => some (.flag fun s => s)
  | "discr_modal" => some (.flag fun s => { s with o := { s.o with disc := .D2SPLIT2_MODAL } })
  | "discr_2split2A" => some (.flag fun s => { s with o := { s.o with disc := .D2SPLIT2A } })
  | "discr_2split4A" => some (.flag fun s => { s with up := 4, o := { s.o with disc := .D2SPLIT4A } })
  | "discr_2split4B" => some (.flag fun s => { s with up := 2, o := { s.o with disc := .D2SPLIT4B } })
  | "discr_4split4B" => some (.flag fun s => { s with up := 4, o := { s.o with disc := .D4SPLIT4B } })
  | _ => none

/-- The arguments of the call of `fnft_nsep`, mex_fnft_nsep.c:271-272. -/
structure NsepCall where
  D : ℕ
  q : Buf ℂ
  T : ℝ × ℝ
  phase : ℝ
  K : ℕ
  main : Option (Buf ℂ)
  M : ℕ
  aux : Option (Buf ℂ)
  kappa : ℤ
  opts : NsepOpts

/-- What `fnft_nsep` returns: `*K_ptr`, `*M_ptr` and the two arrays. -/
structure NsepRet where
  K : ℕ
  main : Option (Buf ℂ)
  M : ℕ
  aux : Option (Buf ℂ)

open Classical in
/-- The tests of the first inputs, mex_fnft_nsep.c:51-75. -/
noncomputable def nsepGateInputs (q T kappa : MxArray) : Option (Option ((ℝ × ℝ) × ℤ)) :=
  if ¬ (q.isCplxRow ∧ T.isRow 2 ∧ kappa.isScalar) then some none
  else do
    let k := toInt (← kappa.scalar)
    if q.numel < 2 ∨ q.numel &&& (q.numel - 1) ≠ 0 then return none
    let t ← mxPair T
    if t.1 ≥ t.2 then return none
    if k ≠ 1 ∧ k ≠ -1 then return none
    return some (t, k)

/-- Lengths and arrays for the results, mex_fnft_nsep.c:240-257 (the array for the sheet indices is not used): `K`, `main_spec`, `M`, `aux_spec`, or `none` if the length of the guesses
is rejected. The division by zero for `points_per_spine = 0` is undefined. -/
def nsepGateBufs (D : ℕ) (s : NsepGate) : Option (Option (ℕ × Option (Buf ℂ) × ℕ × Option (Buf ℂ))) :=
  if s.o.loc ≠ .NEWTON then
    let K := s.o.pps * s.up * D + 1
    let M := s.up * D
    some (some (K, some (Buf.malloc K), M, some (Buf.malloc M)))
  else if s.o.pps = 0 then none
  else if s.K % s.o.pps ≠ 0 then some none
  else some (some (s.K / s.o.pps, s.main, s.M, s.aux))

/-- Conversion of the results, mex_fnft_nsep.c:279-296. -/
noncomputable def nsepGateOut (nlhs : ℕ) (r : NsepRet) : Option Plhs := do
  let p : Plhs := Buf.malloc (max nlhs 1)
  let p ← p.wr 0 (← mxRow r.K r.main)
  p.wr 1 (← mxRow r.M r.aux)

/-- `mexFunction` of mex_fnft_nsep.c:26-320. The messages of `mxRow` come after both matrices have been created; this order does not matter. -/
noncomputable def mex_fnft_nsep (call : NsepCall → Option (ℤ × NsepRet)) (nlhs : ℕ) (prhs : List MxArray) : Option (Except MexErr Plhs) :=
  match prhs with
  | q :: T :: kappa :: rest => do
    match ← nsepGateInputs q T kappa with
    | none => return .error .usage
    | some (t, k) =>
      let D := q.numel
      match ← mexParse nsepOptTable rest ⟨D, none, D, none, 0, 1, nsep_default_opts⟩ with
      | .error e => return .error e
      | .ok s =>
        match ← nsepGateBufs D s with
        | none => return .error .usage
        | some (K, main, M, aux) =>
          let qb ← mxComplex D q
          let R ← call ⟨D, qb, t, s.phase, K, main, M, aux, k, s.o⟩
          if R.1 ≠ SUCCESS then return .error (.failed R.1)
          return .ok (← nsepGateOut nlhs R.2)
  | _ => some (.error .usage)

/-! ## mex_fnft_nsev_inverse.c -/

/-- Variables of the gateway that the optional inputs change; `q0` is the input at `q0_index`. -/
structure InvGate where
  q0 : Option MxArray
  o : InvOpts

/-- The branches of mex_fnft_nsev_inverse.c:113-182. -/
noncomputable def invOptTable (D M : ℕ) : String → Option (OptAct InvGate)
  | "cstype_reflection_coefficient" => some (.flag fun s => { s with o := { s.o with cs := .REFLECTION_COEFFICIENT } })
  | "cstype_B_of_tau" => some (.flag fun s => { s with o := { s.o with cs := .B_OF_TAU } })
  | "cstype_b_of_xi" => some (.flag fun s => { s with o := { s.o with cs := .B_OF_XI } })
  | "dstype_residues" => some (.flag fun s => { s with o := { s.o with ds := .RESIDUES } })
  | "csmethod_use_seed_potential_instead" => some (.val (fun a => some (a.isCplxRow && decide (a.cols = D) && decide (M = 0)))
      fun a s => some { s with q0 := some a, o := { s.o with meth := .USE_SEED } })
  | "csmethod_tfmatrix_contains_refl_coeff" => some (.flag fun s => { s with o := { s.o with meth := .REFL_COEFF } })
  | "csmethod_tfmatrix_contains_ab_from_iter" => some (.flag fun s => { s with o := { s.o with meth := .AB_FROM_ITER } })
  | "discr_modal" => some (.flag fun s => { s with o := { s.o with disc := .D2SPLIT2_MODAL } })
  | "oversampling_factor" => some (.val okOne fun a s => do return { s with o := { s.o with over := ⌊← a.scalar⌋₊ } })
  | "quiet" => some (.flag fun s => s)
  | _ => none

/-- The arguments of the call of `fnft_nsev_inverse`, mex_fnft_nsev_inverse.c:224-225. -/
structure InvCall where
  M : ℕ
  contspec : Option (Buf ℂ)
  XI : ℝ × ℝ
  K : ℕ
  bs : Option (Buf ℂ)
  nc : Option (Buf ℂ)
  D : ℕ
  q : Buf ℂ
  T : ℝ × ℝ
  kappa : ℤ
  opts : InvOpts

open Classical in
/-- The tests of the first inputs, mex_fnft_nsev_inverse.c:53-91: `D`, `T`, `XI`, `kappa`. -/
noncomputable def invGateInputs (c XI bs nc D T kappa : MxArray) : Option (Option (ℕ × (ℝ × ℝ) × (ℝ × ℝ) × ℤ)) :=
  if ¬ (c.isCplxRowOrEmpty ∧ XI.isRow 2 ∧ bs.isCplxRowOrEmpty ∧ nc.isCplxRowOrEmpty ∧ D.isScalar ∧ T.isRow 2 ∧ kappa.isScalar) then some none
  else do
    let d := ⌊← D.scalar⌋₊
    let k := toInt (← kappa.scalar)
    if bs.numel ≠ nc.numel then return none
    let t ← mxPair T
    if t.1 ≥ t.2 then return none
    let x ← mxPair XI
    if x.1 ≥ x.2 then return none
    if d < 2 then return none
    if k ≠ 1 ∧ k ≠ -1 then return none
    return some (d, t, x, k)

/-- `mexFunction` of mex_fnft_nsev_inverse.c:25-250; `call` returns the code and the array with the samples. -/
noncomputable def mex_fnft_nsev_inverse (call : InvCall → Option (ℤ × Option (Buf ℂ))) (nlhs : ℕ) (prhs : List MxArray) : Option (Except MexErr Plhs) :=
  if nlhs < 1 then some (.ok (Buf.malloc 1))
  else match prhs with
  | c :: XI :: bs :: nc :: D :: T :: kappa :: rest => do
    match ← invGateInputs c XI bs nc D T kappa with
    | none => return .error .usage
    | some (d, t, x, k) =>
      let M := c.numel
      let K := bs.numel
      match ← mexParse (invOptTable d M) rest ⟨none, inv_default_opts⟩ with
      | .error e => return .error e
      | .ok s =>
        let cb ← if M > 0 then (mxComplex M c).map some else some none
        let bb ← if K > 0 then (mxComplex K bs).map some else some none
        let nb ← if K > 0 then (mxComplex K nc).map some else some none
        let qb ← match s.q0 with
          | some a => mxComplex d a
          | none => some (Buf.malloc d)
        let R ← call ⟨M, cb, x, K, bb, nb, d, qb, t, k, s.o⟩
        if R.1 ≠ SUCCESS then return .error (.failed R.1)
        let p : Plhs := Buf.malloc (max nlhs 1)
        let p ← p.wr 0 (← mxRow d R.2)
        return .ok p
  | _ => some (.error .usage)

end FNFT

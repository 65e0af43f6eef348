import Mathlib.Data.Finset.Basic
import Mathlib.Logic.Function.Basic

/-!
# Resource skeletons of the allocating routines

Every other part of the model works with successful allocations.  This file models what the
allocating C routines do with memory when allocations and subroutines are allowed to fail: which
pointer variables hold which heap block, in which order blocks are obtained and released, which
failures are tested, where the control flow goes (`goto release_mem`, early `return`), and what
return code is produced.  All arithmetic is dropped: a data dependent branch is a branch that may
go either way, a data dependent loop may run any number of times, and every test that leads to an
error return may or may not fire.  So the executions of a skeleton include all executions of the
C routine (for every input and every pattern of failing allocations).
-/

namespace FNFT.Res

/-- Contents of a C pointer variable: not yet initialised, `NULL`, a pointer to memory of the
caller, or a pointer to the heap block with the given identity (C11, 7.22.3). -/
inductive Val
  | garbage
  | null
  | foreign
  | blk (id : ℕ)
deriving DecidableEq, Repr

/-- Contents of the variable `ret_code`: uninitialised, `SUCCESS` or an error code
(/repo/include/fnft_errwarn.h:39-60; the error codes are not distinguished here). -/
inductive Code
  | garbage
  | ok
  | err
deriving DecidableEq, Repr

/-- Instructions of a skeleton.  Variables, flags and labels are numbered. -/
inductive Instr
  /-- a C label -/
  | label (l : ℕ)
  /-- `v = malloc(..)`, `calloc`, `fft_wrapper_malloc` or the allocation of an FFT plan
  (/repo/include/private/fnft__fft_wrapper.h:84-111, 178-185); may fail with `NULL` -/
  | malloc (v : ℕ)
  /-- `v = NULL` -/
  | setNull (v : ℕ)
  /-- `v` = a pointer provided by the caller -/
  | alias (v : ℕ)
  /-- `free(v)`, `fft_wrapper_free(v)` -/
  | free (v : ℕ)
  /-- `if (v != pointer of the caller) free(v)` (/repo/src/fnft_nsev.c:464-465) -/
  | freeOwn (v : ℕ)
  /-- `if (v1 == NULL || v2 == NULL || ..) { ret_code = E_NOMEM; goto l; }`, which is also the
  macro `CHECK_NOMEM` (/repo/include/private/fnft__errwarn.h:108) -/
  | nomem (vs : List ℕ) (l : ℕ)
  /-- `if (v1 == NULL || v2 == NULL || ..) return E_NOMEM;` -/
  | nomemRet (vs : List ℕ)
  /-- `if (v == NULL) goto l` (no error) -/
  | ifNull (v : ℕ) (l : ℕ)
  /-- the memory behind these pointers is read or written -/
  | use (vs : List ℕ)
  /-- `ret_code = f(..); CHECK_RETCODE(ret_code, l);`
  (/repo/include/private/fnft__errwarn.h:101), any subroutine `f` that may fail -/
  | call (l : ℕ)
  /-- the same for a subroutine that on success stores newly allocated blocks in the given
  variables of its caller and on failure leaves these variables alone -/
  | callAlloc (vs : List ℕ) (l : ℕ)
  /-- `f(..);`, the return code of the subroutine is not used -/
  | callIgnore
  /-- `ret_code = SUCCESS` resp. an uninitialised declaration -/
  | setRet (c : Code)
  /-- `if (..) { ret_code = E_..; goto l; }` with a condition on the data -/
  | errIf (l : ℕ)
  /-- `if (..) return E_..;` with a condition on the data -/
  | retErrIf
  /-- `if (..) goto l;` with a condition on the data -/
  | branch (l : ℕ)
  /-- the value of an option or argument that is tested more than once -/
  | flag (b : ℕ)
  /-- `if (b) goto l;` -/
  | ifFlag (b : ℕ) (l : ℕ)
  /-- `goto l;` -/
  | goto (l : ℕ)
  /-- `if (ret_code != SUCCESS) goto l;` without change of the code -/
  | ifErr (l : ℕ)
  /-- `return ret_code;` -/
  | ret
  /-- `return SUCCESS;` -/
  | retOk
deriving DecidableEq, Repr

/-- State of a run: program counter, pointer variables, flags, the set of allocated blocks, the
next block identity, `ret_code`, and whether an allocation, a subroutine or a check has failed. -/
structure St where
  pc : ℕ
  ptr : ℕ → Val
  flag : ℕ → Bool
  heap : Finset ℕ
  next : ℕ
  ret : Code
  failed : Bool

/-- Result of one step: the run goes on, the routine returns, or it does something undefined. -/
inductive Out
  | cont (s : St)
  | done (c : Code) (s : St)
  | fault

/-- The position of a label. -/
def target (p : List Instr) (l : ℕ) : ℕ := p.idxOf (.label l)

/-- The state after `v = malloc(..)` succeeded: a block that was never used before. -/
def St.alloc (s : St) (v : ℕ) : St :=
  { s with ptr := Function.update s.ptr v (.blk s.next), heap := insert s.next s.heap,
           next := s.next + 1 }

/-- `free(v)`: a no-op for `NULL`, undefined for anything that is not an allocated block
(C11, 7.22.3.3). -/
def St.free (s : St) (v : ℕ) : Option St :=
  match s.ptr v with
  | .null => some s
  | .blk id => if id ∈ s.heap then some { s with heap := s.heap.erase id } else none
  | _ => none

/-- Memory behind the pointer `v` may be accessed. -/
def St.valid (s : St) (v : ℕ) : Bool :=
  match s.ptr v with
  | .foreign => true
  | .blk id => decide (id ∈ s.heap)
  | _ => false

/-- The value of the pointer variable `v` may be compared with `NULL`: it is initialised and not
the address of a block that was released already. -/
def St.readable (s : St) (v : ℕ) : Bool :=
  match s.ptr v with
  | .garbage => false
  | .null => true
  | .foreign => true
  | .blk id => decide (id ∈ s.heap)

/-- One step.  The boolean decides what the environment does: `true` means that the allocation,
subroutine or check succeeds, resp. that a data dependent branch is taken. -/
def step (p : List Instr) (s : St) (c : Bool) : Out :=
  let adv : St := { s with pc := s.pc + 1 }
  let fail : St := { adv with failed := true }
  match p[s.pc]? with
  | none => .fault
  | some i => match i with
    | .label _ => .cont adv
    | .malloc v => if c then .cont (adv.alloc v)
        else .cont { fail with ptr := Function.update s.ptr v .null }
    | .setNull v => .cont { adv with ptr := Function.update s.ptr v .null }
    | .alias v => .cont { adv with ptr := Function.update s.ptr v .foreign }
    | .free v => match adv.free v with
        | some s' => .cont s'
        | none => .fault
    | .freeOwn v => if s.ptr v = .foreign then .cont adv else
        match adv.free v with
        | some s' => .cont s'
        | none => .fault
    | .nomem vs l => if vs.all s.readable then
          if vs.any (fun v => decide (s.ptr v = .null)) then
            .cont { s with pc := target p l, ret := .err, failed := true }
          else .cont adv
        else .fault
    | .nomemRet vs => if vs.all s.readable then
          if vs.any (fun v => decide (s.ptr v = .null)) then
            .done .err { s with failed := true }
          else .cont adv
        else .fault
    | .ifNull v l => if s.readable v then
          if s.ptr v = .null then .cont { s with pc := target p l } else .cont adv
        else .fault
    | .use vs => if vs.all s.valid then .cont adv else .fault
    | .call l => if c then .cont { adv with ret := .ok }
        else .cont { fail with ret := .err, pc := target p l }
    | .callAlloc vs l => if c then .cont { vs.foldl St.alloc adv with ret := .ok }
        else .cont { fail with ret := .err, pc := target p l }
    | .callIgnore => if c then .cont adv else .cont fail
    | .setRet r => .cont { adv with ret := r }
    | .errIf l => if c then .cont adv
        else .cont { fail with ret := .err, pc := target p l }
    | .retErrIf => if c then .cont adv else .done .err { s with failed := true }
    | .branch l => if c then .cont { s with pc := target p l } else .cont adv
    | .flag b => .cont { adv with flag := Function.update s.flag b c }
    | .ifFlag b l => if s.flag b then .cont { s with pc := target p l } else .cont adv
    | .goto l => .cont { s with pc := target p l }
    | .ifErr l => match s.ret with
        | .garbage => .fault
        | .ok => .cont adv
        | .err => .cont { s with pc := target p l }
    | .ret => .done s.ret s
    | .retOk => .done .ok s

/-- A routine: its skeleton, the number of pointer variables and flags, and the variables whose
blocks it hands over to its caller when it succeeds. -/
structure Routine where
  nv : ℕ
  nf : ℕ := 0
  outs : List ℕ := []
  prog : List Instr

/-- A C function starts with uninitialised local variables. -/
def start : St :=
  { pc := 0, ptr := fun _ => .garbage, flag := fun _ => false, heap := ∅, next := 0,
    ret := .garbage, failed := false }

/-! ## The skeletons -/

/-- `ret_code = fft_wrapper_create_plan(&v, ..); CHECK_RETCODE(ret_code, l);`
(/repo/include/private/fnft__fft_wrapper.h:84-111: argument checks, then the allocation of the
plan). -/
def createPlan (v l : ℕ) : List Instr := [.errIf l, .malloc v, .nomem [v] l, .setRet .ok]

/-- `fft_wrapper_destroy_plan(&v)` (/repo/include/private/fnft__fft_wrapper.h:155-167). -/
def destroyPlan (v : ℕ) : List Instr := [.free v, .setNull v]

/-- `poly_chirpz` (/repo/src/private/fnft__poly_chirpz.c:31-104). -/
def polyChirpz : Routine :=
  let Y := 0; let V := 1; let buf := 2; let fwd := 3; let inv := 4
  { nv := 5
    prog :=
      [.setNull fwd, .setNull inv, .setNull Y, .setNull V, .setNull buf, .setRet .ok,
       .retErrIf, .retErrIf, .retErrIf,
       .malloc Y, .malloc V, .malloc buf, .nomem [Y, V, buf] 0]
      ++ createPlan fwd 0 ++ createPlan inv 0 ++
      [.use [buf], .use [fwd, buf, Y], .call 0, .use [buf], .use [fwd, buf, V], .call 0,
       .use [buf, V, Y], .use [inv, buf, V], .call 0, .use [V],
       .label 0]
      ++ destroyPlan fwd ++ destroyPlan inv ++ [.free Y, .free V, .free buf, .ret] }

/-- `poly_fmult` (/repo/src/private/fnft__poly_fmult.c:141-221) for at least two polynomials: the
loop `while (n >= 2)` is entered. -/
def polyFmult : Routine :=
  let b0 := 0; let b1 := 1; let b2 := 2; let fwd := 3; let inv := 4
  { nv := 5
    prog :=
      [.setNull fwd, .setNull inv, .setNull b0, .setNull b1, .setNull b2,
       .malloc b0, .malloc b1, .malloc b2, .nomem [b0, b1, b2] 0, .label 1]
      ++ createPlan fwd 0 ++ createPlan inv 0 ++
      [.label 2, .use [fwd, inv, b0, b1, b2], .call 0, .branch 2]
      ++ destroyPlan fwd ++ destroyPlan inv ++ [.errIf 0, .branch 1, .label 0]
      ++ destroyPlan fwd ++ destroyPlan inv ++ [.free b0, .free b1, .free b2, .ret] }

/-- `poly_fmult`, `poly_fmult2x2`, `poly_fmult3x3` for a single polynomial (matrix): the loop
`while (n >= 2)` is skipped (/repo/src/private/fnft__poly_fmult.c:141-221, 596-768, 770-1007). -/
def polyFmultOne : Routine :=
  let b0 := 0; let b1 := 1; let b2 := 2; let fwd := 3; let inv := 4
  { nv := 5
    prog :=
      [.setNull fwd, .setNull inv, .setNull b0, .setNull b1, .setNull b2,
       .malloc b0, .malloc b1, .malloc b2, .nomem [b0, b1, b2] 0, .label 0]
      ++ destroyPlan fwd ++ destroyPlan inv ++ [.free b0, .free b1, .free b2, .ret] }

/-- `poly_fmult2x2` and `poly_fmult3x3` (/repo/src/private/fnft__poly_fmult.c:596-768, 770-1007)
for at least two matrices; here the test `n%2 != 0` comes before the plans are destroyed. -/
def polyFmultMat : Routine :=
  let b0 := 0; let b1 := 1; let b2 := 2; let fwd := 3; let inv := 4
  { nv := 5
    prog :=
      [.setNull fwd, .setNull inv, .setNull b0, .setNull b1, .setNull b2,
       .malloc b0, .malloc b1, .malloc b2, .nomem [b0, b1, b2] 0, .label 1]
      ++ createPlan fwd 0 ++ createPlan inv 0 ++
      [.label 2, .use [fwd, inv, b0, b1, b2], .call 0, .branch 2, .errIf 0]
      ++ destroyPlan fwd ++ destroyPlan inv ++ [.branch 1, .label 0]
      ++ destroyPlan fwd ++ destroyPlan inv ++ [.free b0, .free b1, .free b2, .ret] }

/-- `poly_specfact` (/repo/src/private/fnft__poly_specfact.c:26-147). -/
def polySpecfact : Routine :=
  let bin := 0; let bout := 1; let bx := 2; let fwd := 3; let inv := 4
  { nv := 5
    prog :=
      [.retErrIf, .retErrIf, .retErrIf, .retErrIf, .setNull fwd, .setNull inv, .setRet .ok,
       .malloc bin, .malloc bout, .malloc bx, .nomem [bin, bout, bx] 0]
      ++ createPlan fwd 0 ++ createPlan inv 0 ++
      [.use [bin], .use [fwd, bin, bout], .call 0, .errIf 0, .use [bout, bx],
       .use [fwd, bx, bin], .call 0, .use [bin], .use [inv, bin, bout], .call 0,
       .use [bx, bout, bin], .use [inv, bin, bout], .call 0, .use [bout],
       .label 0, .free bin, .free bout, .free bx]
      ++ destroyPlan fwd ++ destroyPlan inv ++ [.ret] }

/-- `misc_downsample` (/repo/src/private/fnft__misc.c:255-296); the caller gets `qsub`. -/
def miscDownsample : Routine :=
  { nv := 1
    outs := [0]
    prog := [.retErrIf, .retErrIf, .retErrIf, .retErrIf, .retErrIf, .malloc 0, .nomemRet [0],
             .use [0], .retOk] }

/-- `misc_resample` (/repo/src/private/fnft__misc.c:308-376). -/
def miscResample : Routine :=
  let b0 := 0; let b1 := 1; let freq := 2; let fwd := 3; let inv := 4
  { nv := 5
    prog :=
      [.retErrIf, .retErrIf, .retErrIf, .retErrIf, .setNull fwd, .setNull inv, .setNull b0,
       .setNull b1, .setNull freq, .malloc b0, .malloc b1, .malloc freq,
       .nomem [b0, b1, freq] 0]
      ++ createPlan fwd 0 ++ createPlan inv 0 ++
      [.use [b0], .use [fwd, b0, b1], .call 0, .use [freq, b1], .use [inv, b1, b0], .call 0,
       .use [b0], .label 0]
      ++ destroyPlan fwd ++ destroyPlan inv ++ [.free b0, .free b1, .free freq, .ret] }

/-- `akns_fscatter` (/repo/src/private/fnft__akns_fscatter.c:59-924).  The `switch` over the
splittings only fills `p`; it is one data dependent use of `p`. -/
def aknsFscatter : Routine :=
  let p := 0
  { nv := 1
    prog := [.setNull p, .retErrIf, .retErrIf, .retErrIf, .retErrIf, .retErrIf, .retErrIf,
             .retErrIf, .malloc p, .nomemRet [p], .errIf 0, .label 1, .use [p], .errIf 0,
             .branch 1, .errIf 0, .use [p], .call 0, .label 0, .free p, .ret] }

/-- `manakov_fscatter` (/repo/src/private/fnft__manakov_fscatter.c:138-1095); line 169 jumps to the
release label before the allocation. -/
def manFscatter : Routine :=
  let p := 0
  { nv := 1
    prog := [.setNull p, .retErrIf, .retErrIf, .retErrIf, .retErrIf, .retErrIf, .retErrIf,
             .retErrIf, .errIf 0, .retErrIf, .malloc p, .nomemRet [p], .errIf 0, .use [p],
             .errIf 0, .use [p], .call 0, .label 0, .free p, .ret] }

/-- `poly_roots_fftgridsearch` (/repo/src/private/fnft__poly_roots_fftgridsearch.c:36-155). -/
def fftGridsearch : Routine :=
  let vals := 0
  { nv := 1
    prog := [.setNull vals, .retErrIf, .retErrIf, .retErrIf, .retErrIf, .retErrIf,
             .malloc vals, .nomem [vals] 0, .use [vals], .call 0, .use [vals], .call 0,
             .use [vals], .call 0, .label 1, .branch 2, .use [vals], .errIf 0, .goto 1, .label 2,
             .label 0, .free vals, .ret] }

/-- `akns_discretization_method_weights` (/repo/src/private/fnft__akns_discretization.c:246-415);
the caller gets the two arrays of weights. -/
def methodWeights : Routine :=
  let qr := 0; let eps := 1
  { nv := 2
    outs := [0, 1]
    prog := [.setNull qr, .setNull eps, .setRet .ok, .errIf 0, .malloc qr, .malloc eps,
             .nomem [qr, eps] 0, .use [qr, eps], .label 0, .ifErr 1, .goto 2,
             .label 1, .free qr, .free eps, .label 2, .ret] }

/-- `akns_discretization_preprocess_signal`
(/repo/src/private/fnft__akns_discretization.c:421-675); the caller gets `q_preprocessed` and
`r_preprocessed`.  Label 1 is the case of one resampled signal pair (`CF4_2`, lines 508-534), label
2 that of the other commutator-free schemes (535-631). -/
def aknsPreprocess : Routine :=
  let q1 := 0; let q2 := 1; let q3 := 2; let qrw := 3; let epsw := 4; let qp := 5; let rp := 6
  { nv := 7
    outs := [5, 6]
    prog := [.setRet .ok, .setNull q1, .setNull q2, .setNull q3, .setNull qrw, .setNull epsw,
             .retErrIf, .retErrIf, .retErrIf, .retErrIf, .retErrIf, .retErrIf, .retErrIf,
             .errIf 0, .malloc qp, .malloc rp, .nomem [qp, rp] 0,
             .branch 1, .branch 2, .errIf 0, .use [qp, rp], .goto 3,
             .label 1, .malloc q1, .malloc q2, .nomem [q1, q2] 0, .use [q1], .call 0, .use [q2],
             .call 0, .callAlloc [qrw, epsw] 0, .use [qp, rp, qrw, q1, q2], .goto 3,
             .label 2, .malloc q1, .malloc q3, .nomem [q1, q3] 0, .use [q1], .call 0, .use [q3],
             .call 0, .callAlloc [qrw, epsw] 0, .use [qp, rp, qrw, q1, q3], .label 3,
             .label 0, .free q1, .free q2, .free q3, .free qrw, .free epsw, .ret] }

/-- `manakov_discretization_preprocess_signal`
(/repo/src/private/fnft__manakov_discretization.c:110-235): the six scratch arrays of lines
161-166 are not tested and the return codes of the four calls of `misc_resample` (202-205) are not
used. -/
def manPreprocess : Routine :=
  let a1 := 0; let a2 := 1; let b1 := 2; let b2 := 3; let s1 := 4; let s2 := 5
  let qp := 6; let rp := 7
  { nv := 8
    outs := [6, 7]
    prog := [.setNull a1, .setNull a2, .setNull b1, .setNull b2, .setNull s1, .setNull s2,
             .retErrIf, .retErrIf, .retErrIf, .retErrIf, .retErrIf, .retErrIf, .retErrIf,
             .retErrIf, .setRet .ok, .errIf 0, .malloc qp, .malloc rp, .malloc a1, .malloc b1,
             .malloc a2, .malloc b2, .malloc s1, .malloc s2, .nomem [qp, rp] 0,
             .branch 1, .errIf 0, .use [qp, rp], .goto 2,
             .label 1, .use [s1, s2], .use [s1, a1], .callIgnore, .use [s1, a2], .callIgnore,
             .use [s2, b1], .callIgnore, .use [s2, b2], .callIgnore,
             .use [qp, rp, a1, a2, b1, b2], .label 2, .label 0,
             .free a1, .free a2, .free b1, .free b2, .free s1, .free s2, .ret] }

/-- `akns_scatter_matrix` (/repo/src/private/fnft__akns_scatter.c:103-425).  Flag 0 is set for the
schemes that store precomputed values (`ES4`, `TES4`); the others get scaled step sizes from
`akns_discretization_method_weights`.  Interior pointers into `tmp1` are not separate variables. -/
def aknsScatterMatrix : Routine :=
  let tmp1 := 0; let eps := 1; let qrw := 2
  { nv := 3
    nf := 1
    prog := [.setRet .ok, .retErrIf, .retErrIf, .retErrIf, .retErrIf, .retErrIf, .retErrIf,
             .retErrIf, .retErrIf, .retErrIf, .setNull tmp1, .setNull eps, .errIf 0,
             .flag 0, .ifFlag 0 1, .setNull qrw, .callAlloc [qrw, eps] 3, .free qrw, .use [eps],
             .goto 2, .label 1, .malloc tmp1, .nomem [tmp1] 0, .use [tmp1], .label 2,
             .branch 0, .label 5, .ifFlag 0 6, .use [eps], .goto 7, .label 6, .use [tmp1],
             .label 7, .errIf 0, .call 0, .call 0, .branch 5,
             .label 0, .free eps, .label 3, .free tmp1, .ret] }

/-- `akns_scatter_bound_states` (/repo/src/private/fnft__akns_scatter.c:426-867).  Flag 0: `ES4` or
`TES4`; flag 1: `normalization_flag && !skip_b_flag`.  Line 499 tests `WPHI` again instead of
`WPSI`. -/
def aknsScatterBoundStates : Routine :=
  let tmp1 := 0; let eps := 1; let qrw := 2; let psiphi := 3; let wphi := 4; let wpsi := 5
  { nv := 6
    nf := 2
    prog := [.setRet .ok, .retErrIf, .retErrIf, .retErrIf, .retErrIf, .retErrIf, .retErrIf,
             .retErrIf, .retErrIf, .retErrIf, .retErrIf, .retErrIf, .retErrIf, .retErrIf,
             .setNull tmp1, .setNull eps, .setNull wphi, .setNull wpsi,
             .malloc psiphi, .nomem [psiphi] 0, .flag 1, .ifFlag 1 1, .goto 2,
             .label 1, .malloc wphi, .nomem [wphi] 0, .malloc wpsi, .nomem [wphi] 0, .label 2,
             .errIf 0, .flag 0, .ifFlag 0 3, .setNull qrw, .callAlloc [qrw, eps] 9, .free qrw,
             .use [eps], .goto 4, .label 3, .malloc tmp1, .nomem [tmp1] 0, .use [tmp1],
             .label 4, .use [psiphi], .call 0, .ifFlag 0 5, .use [eps], .goto 6, .label 5,
             .use [tmp1], .label 6, .errIf 0, .use [psiphi], .ifFlag 1 7, .goto 8,
             .label 7, .use [wphi, wpsi], .label 8, .call 0, .branch 4,
             .label 0, .free eps, .label 9, .free tmp1, .free psiphi, .free wphi, .free wpsi,
             .ret] }

/-- `nse_finvscatter`, `kdv_finvscatter`
(/repo/src/private/fnft__akns_finvscatter_q_from_r.inc:231-413).  The stack `s` has arbitrarily
many levels; the skeleton follows the pointers of one level (any one of them): the loops over the
levels run through an arbitrary number of other levels before and after it. -/
def finvscatter : Routine :=
  let b0 := 0; let b1 := 1; let b2 := 2; let s := 3
  let t1 := 4; let t1i := 5; let t2i := 6; let fwd := 7; let inv := 8
  { nv := 9
    prog := [.retErrIf, .retErrIf, .retErrIf, .retErrIf, .retErrIf, .retErrIf, .retErrIf,
             .setRet .ok, .malloc b0, .malloc b1, .malloc b2, .malloc s, .nomem [b0, b1, b2, s] 1,
             .use [s], .setNull t1, .setNull t1i, .setNull t2i, .setNull fwd, .setNull inv,
             -- levels before the one that is followed
             .label 3, .branch 4, .use [s], .errIf 2, .call 2, .goto 3, .label 4,
             .use [s], .malloc t1, .malloc t1i, .malloc t2i, .nomem [t1, t1i, t2i] 2]
            ++ createPlan fwd 2 ++ createPlan inv 2 ++
            -- levels after it
            [.label 5, .branch 6, .use [s], .errIf 2, .call 2, .goto 5, .label 6,
             .use [s, b0, b1, b2, t1, t1i, t2i, fwd, inv], .call 2,
             .label 2, .use [s], .free t1, .free t1i, .free t2i]
            ++ destroyPlan fwd ++ destroyPlan inv ++
            [.label 1, .free b0, .free b1, .free b2, .free s, .ret] }

/-- `fnft_nsev_base` (/repo/src/fnft_nsev.c:472-579) and `fnft_kdvv_base`
(/repo/src/fnft_kdvv.c:388-495).  Flag 0: the method is based on a polynomial transfer matrix. -/
def nsevBase : Routine :=
  let tm := 0
  { nv := 1
    nf := 1
    prog := [.setNull tm, .setRet .ok, .retErrIf, .retErrIf, .retErrIf, .retErrIf, .retErrIf,
             .retErrIf, .retErrIf, .retErrIf, .errIf 0, .flag 0, .ifFlag 0 1, .goto 2,
             .label 1, .malloc tm, .nomem [tm] 0, .use [tm], .call 0, .label 2,
             .branch 3, .call 0, .label 3, .branch 4, .call 0, .branch 4, .call 0, .label 4,
             .label 0, .free tm, .ret] }

/-- `fnft_manakovv_base` (/repo/src/fnft_manakovv.c:342-444). -/
def manakovvBase : Routine :=
  let tm := 0
  { nv := 1
    nf := 1
    prog := [.setNull tm, .setRet .ok, .retErrIf, .retErrIf, .retErrIf, .retErrIf, .retErrIf,
             .retErrIf, .retErrIf, .retErrIf, .retErrIf, .errIf 0, .flag 0, .ifFlag 0 1, .goto 2,
             .label 1, .malloc tm, .nomem [tm] 0, .use [tm], .call 0, .label 2,
             .branch 3, .call 0, .label 3, .ifFlag 0 5, .goto 4, .label 5, .branch 4, .use [tm],
             .call 0, .label 4, .label 0, .free tm, .ret] }

/-- `nsev_compute_boundstates` (/repo/src/fnft_nsev.c:609-777); `q_tmp` lives only inside the full
filtering of `ES4`/`TES4` (lines 660-668). -/
def nsevBoundstates : Routine :=
  let qtmp := 0
  { nv := 1
    prog := [.setRet .ok, .errIf 0, .branch 1, .malloc qtmp, .nomem [qtmp] 0, .use [qtmp],
             .free qtmp, .label 1, .errIf 0, .errIf 0, .branch 2, .call 0, .goto 3,
             .label 2, .call 0, .call 0, .label 3, .retErrIf, .branch 4, .call 0, .call 0,
             .label 4, .label 0, .ret] }

/-- `nsev_compute_contspec` (/repo/src/fnft_nsev.c:780-934).  Lines 827 and 893 return without
releasing the memory.  Flag 0: slow method; flag 1: normalization. -/
def nsevContspec : Routine :=
  let h := 0; let sc := 1; let xi := 2; let ws := 3
  { nv := 4
    nf := 2
    prog := [.setNull h, .setRet .ok, .setNull sc, .setNull xi, .setNull ws, .errIf 0,
             .malloc xi, .nomem [xi] 0, .use [xi], .malloc h, .nomemRet [h],
             .flag 0, .flag 1, .ifFlag 0 1, .call 0, .call 0, .use [h], .call 0, .use [h],
             .call 0, .goto 3,
             .label 1, .malloc sc, .nomem [sc] 0, .ifFlag 1 2, .goto 4, .label 2, .malloc ws,
             .nomem [ws] 0, .label 4, .use [xi, sc], .call 0, .use [h, sc], .ifFlag 1 5, .goto 3,
             .label 5, .use [ws], .label 3, .errIf 0, .branch 6, .call 0, .use [h, xi],
             .retErrIf, .branch 7, .label 6, .call 0, .call 0, .use [h, xi], .label 7,
             .label 0, .free h, .free sc, .free ws, .free xi, .ret] }

/-- `kdvv_compute_contspec` (/repo/src/fnft_kdvv.c:700-893); lines 747 and 852 return without
releasing the memory. -/
def kdvvContspec : Routine :=
  let h := 0; let sc := 1; let xi := 2; let ws := 3
  { nv := 4
    nf := 2
    prog := [.setNull h, .setRet .ok, .setNull sc, .setNull xi, .setNull ws, .errIf 0,
             .malloc xi, .nomem [xi] 0, .use [xi], .malloc h, .nomemRet [h],
             .flag 0, .flag 1, .ifFlag 0 1, .call 0, .call 0, .use [h], .call 0, .use [h],
             .call 0, .use [h], .call 0, .use [h], .call 0, .label 8, .use [xi, h], .call 0,
             .call 0, .branch 8, .goto 3,
             .label 1, .malloc sc, .nomem [sc] 0, .ifFlag 1 2, .goto 4, .label 2, .malloc ws,
             .nomem [ws] 0, .label 4, .use [xi, sc], .call 0, .use [h, sc], .ifFlag 1 5, .goto 3,
             .label 5, .use [ws], .label 3, .errIf 0, .branch 6, .call 0, .use [h, xi],
             .retErrIf, .branch 7, .label 6, .call 0, .call 0, .use [h, xi], .label 7,
             .label 0, .free h, .free sc, .free xi, .free ws, .ret] }

/-- `manakovv_compute_contspec` (/repo/src/fnft_manakovv.c:512-667); lines 559 and 626 return
without releasing the memory. -/
def manakovvContspec : Routine :=
  let h := 0; let sc := 1; let xi := 2
  { nv := 3
    nf := 1
    prog := [.setNull h, .setRet .ok, .setNull sc, .setNull xi, .errIf 0,
             .malloc xi, .nomem [xi] 0, .use [xi], .malloc h, .nomemRet [h],
             .flag 0, .ifFlag 0 1, .call 0, .call 0, .use [h], .call 0, .use [h],
             .call 0, .use [h], .call 0, .goto 3,
             .label 1, .malloc sc, .nomem [sc] 0, .use [xi, sc], .call 0, .use [h, sc],
             .label 3, .errIf 0, .branch 6, .call 0, .use [h, xi],
             .retErrIf, .branch 7, .label 6, .call 0, .call 0, .use [h, xi], .label 7,
             .label 0, .free h, .free sc, .free xi, .ret] }

/-- `nsev_compute_normconsts_or_residues` (/repo/src/fnft_nsev.c:938-1023) and
`kdvv_compute_normconsts_or_residues` (/repo/src/fnft_kdvv.c:897-974).  Lines 1006 and 1011 resp.
957 and 962 return without releasing the memory.  The call for the slow discretization of the KdV
routine is covered by the first `errIf`. -/
def normconsts : Routine :=
  let av := 0; let ap := 1; let ws := 2
  { nv := 3
    nf := 1
    prog := [.setNull av, .setNull ap, .setNull ws, .setRet .ok, .branch 9, .retErrIf, .retErrIf,
             .malloc av, .malloc ap, .nomem [av, ap] 0, .branch 1, .malloc ws, .nomem [ws] 0,
             .label 1, .errIf 0, .use [av, ap], .call 0, .branch 0, .retErrIf, .label 2,
             .retErrIf, .use [ap], .ifNull ws 3, .use [ws], .label 3, .branch 2,
             .label 0, .free av, .free ap, .free ws, .ret, .label 9, .retOk] }

/-- `kdvv_compute_boundstates` (/repo/src/fnft_kdvv.c:498-697).  The `switch` of line 576 goes to the
Newton refinement (label 1), to the grid search (label 5) or, for an unknown localization option,
to the `return` of line 686.  Flag 0: normalization. -/
def kdvvBoundstates : Routine :=
  let xi := 0; let sc := 1; let ls := 2
  { nv := 3
    nf := 1
    prog := [.setRet .ok, .setNull xi, .setNull sc, .setNull ls, .errIf 0, .call 0, .errIf 0,
             .branch 1, .retErrIf, .errIf 0, .errIf 0, .errIf 0,
             .malloc xi, .nomem [xi] 0, .use [xi],
             .malloc sc, .nomem [sc] 0, .flag 0, .ifFlag 0 2, .goto 3, .label 2, .malloc ls,
             .nomem [ls] 0, .label 3, .use [xi, sc], .call 0, .label 4, .use [sc, xi], .errIf 0,
             .branch 4, .label 1, .call 0, .label 0, .free xi, .free sc, .free ls,
             .ret] }

/-- Lines 349-369 of /repo/src/fnft_nsev.c resp. 247-289 of /repo/src/fnft_kdvv.c: the arrays for
the spectrum of the subsampled signal.  Flag 2: a continuous spectrum is computed; flag 3: there
are bound states. -/
def richardsonAlloc (cs bs nrs : ℕ) : List Instr :=
  [.ifFlag 2 20, .goto 21, .label 20, .errIf 0, .malloc cs, .nomem [cs] 0, .label 21,
   .ifFlag 3 22, .goto 23, .label 22, .malloc bs, .errIf 0, .malloc nrs, .nomem [nrs, bs] 0,
   .use [bs], .label 23, .errIf 0]

/-- Lines 411-454 of /repo/src/fnft_nsev.c resp. 327-370 of /repo/src/fnft_kdvv.c: the
extrapolation. -/
def richardsonCombine (cs bs nrs res : ℕ) : List Instr :=
  [.ifFlag 2 24, .goto 25, .label 24, .use [cs], .label 25,
   .ifFlag 3 26, .goto 27, .label 26, .branch 27, .use [bs], .use [nrs, res], .label 27]

/-- `fnft_nsev` (/repo/src/fnft_nsev.c:139-467).  Flag 0: `SUBSAMPLE_AND_REFINE` in the focusing
case; flag 1: Richardson extrapolation; flags 2 and 3 as in `richardsonAlloc`. -/
def fnftNsev : Routine :=
  let qs := 0; let rs := 1; let q := 2; let r := 3; let cs := 4; let bs := 5; let nrs := 6
  let res := 7
  { nv := 8
    nf := 4
    prog := [.setNull qs, .setNull rs, .setNull q, .setNull r, .setNull cs, .setNull bs,
             .setNull nrs, .setNull res, .setRet .ok, .retErrIf, .retErrIf, .retErrIf, .retErrIf,
             .retErrIf, .retErrIf, .retErrIf, .errIf 0, .retErrIf, .errIf 0,
             .flag 0, .flag 1, .flag 2, .flag 3, .alias res, .ifFlag 1 1, .goto 2,
             .label 1, .branch 2, .malloc res, .nomem [res] 0, .label 2,
             .callAlloc [q, r] 0, .ifFlag 0 3, .use [q, r], .call 0, .goto 4,
             .label 3, .callAlloc [qs, rs] 0, .use [qs, rs], .call 0, .use [q, r, res], .call 0,
             .label 4, .ifFlag 1 5, .goto 0, .label 5]
            ++ richardsonAlloc cs bs nrs ++
            [.ifNull qs 6, .free qs, .label 6, .ifNull rs 7, .free rs, .label 7,
             .callAlloc [qs, rs] 0, .use [qs, rs], .call 0]
            ++ richardsonCombine cs bs nrs res ++
            [.label 0, .free qs, .free rs, .free q, .free r, .free cs, .free bs, .free nrs,
             .freeOwn res, .ret] }

/-- `fnft_kdvv` (/repo/src/fnft_kdvv.c:121-383). -/
def fnftKdvv : Routine :=
  let qs := 0; let rs := 1; let q := 2; let r := 3; let cs := 4; let bs := 5; let nrs := 6
  let res := 7
  { nv := 8
    nf := 4
    prog := [.setNull qs, .setNull rs, .setNull q, .setNull r, .setNull cs, .setNull bs,
             .setNull nrs, .setNull res, .setRet .ok, .retErrIf, .retErrIf, .retErrIf, .retErrIf,
             .retErrIf, .retErrIf, .retErrIf, .errIf 0,
             .flag 1, .flag 2, .flag 3, .alias res, .ifFlag 1 1, .goto 2,
             .label 1, .branch 2, .malloc res, .nomem [res] 0, .label 2,
             .callAlloc [q, r] 0, .use [q, r], .call 0, .ifFlag 1 5, .goto 0, .label 5]
            ++ richardsonAlloc cs bs nrs ++
            [.callAlloc [qs, rs] 0, .use [qs, rs], .call 0]
            ++ richardsonCombine cs bs nrs res ++
            [.label 0, .free qs, .free rs, .free q, .free r, .free cs, .free bs, .free nrs,
             .freeOwn res, .ret] }

/-- `fnft_manakovv` (/repo/src/fnft_manakovv.c:111-337).  Flag 0: bound states in the focusing
case; flag 1: Richardson extrapolation; flag 2: a continuous spectrum is computed. -/
def fnftManakovv : Routine :=
  let qs := 0; let rs := 1; let q := 2; let r := 3; let cs := 4; let res := 5
  { nv := 6
    nf := 3
    prog := [.setNull qs, .setNull rs, .setNull q, .setNull r, .setNull cs, .setNull res,
             .setRet .ok, .retErrIf, .retErrIf, .retErrIf, .retErrIf, .retErrIf, .retErrIf,
             .retErrIf, .retErrIf, .errIf 0, .retErrIf, .errIf 0,
             .flag 0, .flag 1, .flag 2, .ifFlag 1 1, .goto 2,
             .label 1, .branch 2, .malloc res, .nomem [res] 0, .label 2,
             .callAlloc [q, r] 0, .branch 3, .use [q, r], .call 0, .use [q, r], .call 0,
             .label 3, .ifFlag 0 4, .goto 5, .label 4, .callAlloc [qs, rs] 0, .use [qs, rs],
             .call 0, .label 5, .ifFlag 1 6, .goto 0, .label 6,
             .ifFlag 2 7, .goto 8, .label 7, .errIf 0, .malloc cs, .nomem [cs] 0, .label 8,
             .errIf 0, .ifNull qs 9, .free qs, .label 9, .ifNull rs 10, .free rs, .label 10,
             .callAlloc [qs, rs] 0, .use [qs, rs], .call 0, .ifFlag 2 11, .goto 0, .label 11,
             .use [cs], .label 0, .free q, .free r, .free qs, .free rs, .free cs, .freeOwn res,
             .ret] }

/-- `fnft_nsep` (/repo/src/fnft_nsep.c:94-236).  Lines 176 and 217 return without releasing the
memory. -/
def fnftNsep : Routine :=
  let q := 0
  { nv := 1
    prog := [.setRet .ok, .setNull q, .retErrIf, .retErrIf, .retErrIf, .retErrIf, .retErrIf,
             .retErrIf, .retErrIf, .retErrIf, .retErrIf, .malloc q, .nomem [q] 0, .use [q],
             .branch 1, .branch 2, .retErrIf, .label 2, .use [q], .call 0, .goto 0,
             .label 1, .use [q], .call 0, .retErrIf, .use [q], .call 0,
             .label 0, .free q, .ret] }

/-- `gridsearch` (/repo/src/fnft_nsep.c:241-456).  The test `degree1step == NAN` of line 304 is
never true.  Flag 0: the main spectrum is computed. -/
def nsepGridsearch : Routine :=
  let tm := 0; let p := 1; let roots := 2; let q := 3; let r := 4
  { nv := 5
    nf := 1
    prog := [.setNull tm, .setNull p, .setNull roots, .setRet .ok, .setNull q, .setNull r,
             .retErrIf, .errIf 0, .callAlloc [q, r] 0, .errIf 0, .malloc tm, .nomem [tm] 0,
             .use [q, r, tm], .call 0, .malloc roots, .nomem [roots] 0, .flag 0, .ifFlag 0 1,
             .goto 2, .label 1, .malloc p, .nomem [p] 0, .use [p, tm], .use [p, roots], .call 0,
             .errIf 0, .call 0, .branch 3, .call 0, .label 3, .use [roots], .use [p, tm, roots],
             .call 0, .errIf 0, .call 0, .branch 4, .call 0, .label 4, .use [roots], .label 2,
             .branch 0, .use [tm, roots], .call 0, .call 0, .branch 5, .call 0, .label 5,
             .use [roots], .label 0, .free tm, .free p, .free roots, .free q, .free r, .ret] }

/-- `subsample_and_refine` (/repo/src/fnft_nsep.c:461-727).  Line 524 returns without releasing the
memory; the return code of the root finder in line 669 is overwritten by that of the next call.
`roots` points into the transfer matrix.  The test `degree1step == NAN` of line 564 is never
true. -/
def nsepSubsample : Routine :=
  let tm := 0; let p := 1; let q := 2; let r := 3; let qs := 4; let rs := 5
  { nv := 6
    prog := [.setNull tm, .setNull p, .setRet .ok, .setNull qs, .setNull rs, .setNull q,
             .setNull r, .retErrIf, .errIf 0, .callAlloc [q, r] 0, .callAlloc [qs, rs] 0,
             .retErrIf, .errIf 0, .malloc tm, .nomem [tm] 0, .use [qs, rs, tm], .call 0,
             .branch 1, .malloc p, .nomem [p] 0, .use [p, tm], .label 2, .use [p, tm], .call 0,
             .call 0, .branch 3, .call 0, .call 0, .label 3, .use [q, r, tm], .call 0, .branch 4,
             .call 0, .call 0, .label 4, .branch 2, .label 1, .branch 0, .use [tm], .callIgnore,
             .call 0, .branch 5, .call 0, .label 5, .use [q, r, tm], .call 0, .branch 0, .call 0,
             .call 0, .label 0, .free tm, .free p, .free q, .free r, .free qs, .free rs, .ret] }

/-- `newton` (/repo/src/fnft_nsep.c:731-864).  The test `degree1step == NAN` of line 789 is never
true. -/
def nsepNewton : Routine :=
  let q := 0; let r := 1
  { nv := 2
    prog := [.setNull q, .setNull r, .setRet .ok, .retErrIf, .errIf 0, .callAlloc [q, r] 0,
             .errIf 0, .branch 1, .label 2, .use [q, r], .call 0, .branch 2, .branch 1, .call 0,
             .label 1, .branch 0, .use [q, r], .call 0, .branch 0, .call 0,
             .label 0, .free q, .free r, .ret] }

/-- `fnft_nsev_inverse` (/repo/src/fnft_nsev_inverse.c:122-246). -/
def fnftNsevInverse : Routine :=
  let tm := 0
  { nv := 1
    prog := [.retErrIf, .retErrIf, .retErrIf, .retErrIf, .retErrIf, .retErrIf, .retErrIf,
             .retErrIf, .retErrIf, .retErrIf, .retErrIf, .retErrIf, .setRet .ok, .setNull tm,
             .branch 1, .errIf 0, .malloc tm, .nomem [tm] 0, .errIf 0, .branch 2, .call 0,
             .label 2, .use [tm], .call 0, .use [tm], .call 0, .label 1, .branch 0, .call 0,
             .label 0, .free tm, .ret] }

/-- `transfer_matrix_from_reflection_coefficient_TFMATRIX_CONTAINS_REFL_COEFF` and
`transfer_matrix_from_b_of_xi` (/repo/src/fnft_nsev_inverse.c:303-371, 561-628); the latter has the
additional call of `poly_specfact`. -/
def invTfMatrix : Routine :=
  let c := 0; let b := 1; let plan := 2
  { nv := 3
    prog := [.setRet .ok, .setNull plan, .malloc c, .malloc b, .nomem [c, b] 0, .use [c],
             .call 0] ++ createPlan plan 0 ++
            [.use [plan, c, b], .call 0, .use [b], .branch 0, .call 0, .label 0]
            ++ destroyPlan plan ++ [.free c, .free b, .ret] }

/-- `transfer_matrix_from_reflection_coefficient_TFMATRIX_CONTAINS_AB_FROM_ITER`
(/repo/src/fnft_nsev_inverse.c:376-508). -/
def invTfMatrixIter : Routine :=
  let c := 0; let fi := 1; let fo := 2; let a := 3; let b := 4; let fwd := 5; let inv := 6
  { nv := 7
    prog := [.setNull fwd, .setNull inv, .setRet .ok, .retErrIf, .retErrIf, .retErrIf, .retErrIf,
             .malloc c, .malloc fi, .malloc fo, .malloc a, .malloc b,
             .nomem [c, fi, fo, a, b] 0] ++ createPlan fwd 0 ++ createPlan inv 0 ++
            [.use [c], .call 0, .label 1, .branch 2, .use [c, fi], .use [fwd, fi, b], .call 0,
             .use [b], .use [a, b], .call 0, .use [a, fi], .use [inv, fi, fo], .call 0,
             .use [fo, c], .branch 1, .label 2, .use [a, b], .label 0, .free c, .free fi,
             .free fo, .free a, .free b] ++ destroyPlan fwd ++ destroyPlan inv ++ [.ret] }

/-- `add_discrete_spectrum` (/repo/src/fnft_nsev_inverse.c:681-919).  Line 905 returns without
releasing the memory. -/
def invAddDiscrete : Routine :=
  let t := 0; let bs := 1; let nc := 2; let cj := 3; let df := 4; let ac := 5
  let r := 6; let ws := 7; let phi := 8; let psi := 9
  { nv := 10
    prog := [.retErrIf, .retErrIf, .setNull bs, .setNull nc, .setNull cj, .setNull df, .setNull ac,
             .setNull phi, .setNull psi, .setNull r, .setNull ws, .setRet .ok, .setNull t,
             .malloc t, .malloc bs, .malloc nc, .malloc cj, .malloc df, .malloc ac,
             .nomem [t, bs, cj, df, nc, ac] 0, .use [t, bs, nc, cj, df], .errIf 0,
             .branch 1, .branch 2, .malloc r, .nomem [r] 0, .malloc ws, .nomem [ws] 0, .use [r],
             .use [bs, r, ac, ws], .call 0, .use [ws, ac], .label 2, .use [ac, bs, nc], .label 1,
             .branch 3, .branch 4, .retErrIf, .label 4, .malloc phi, .malloc psi,
             .nomem [phi, psi] 0, .use [bs, phi, psi], .call 0, .use [phi, psi, bs, nc], .goto 0,
             .label 3, .use [t, bs, nc, cj, df], .label 0, .free t, .free phi, .free psi,
             .free bs, .free cj, .free df, .free nc, .free ac, .free r, .free ws, .ret] }

end FNFT.Res

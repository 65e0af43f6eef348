import Verif.Model.Res

/-!
# What it means that a routine handles memory correctly

Stated for the runs of a skeleton (see `Verif.Model.Res`): at every step the environment decides
freely which allocations, subroutines and checks fail and which way data dependent branches go.
-/

namespace FNFT.Res

/-- The choice `c` of the environment is allowed in `s`: the instructions marked by `ex` are
assumed not to fail. -/
def Allowed (ex : Instr → Bool) (p : List Instr) (s : St) (c : Bool) : Prop :=
  c = true ∨ ∀ i, p[s.pc]? = some i → ex i = false

/-- States that can occur in a run (in which the instructions marked by `ex` do not fail). -/
inductive Reach (ex : Instr → Bool) (p : List Instr) : St → Prop
  | start : Reach ex p start
  | step {s s' : St} {c : Bool} : Reach ex p s → Allowed ex p s c → step p s c = .cont s' →
      Reach ex p s'

/-- The routine returned the code `c` in the state `s` and that is fine:
* the return code was set;
* it is an error code exactly if an allocation, a subroutine or a check has failed;
* if the routine succeeded, then the blocks handed over to the caller are allocated and all other
  blocks were released;
* if it failed, all blocks were released, except possibly those of the variables in `leaky`. -/
structure Clean (r : Routine) (leaky : List ℕ) (c : Code) (s : St) : Prop where
  set : c ≠ .garbage
  reported : c = .err ↔ s.failed = true
  success : c = .ok → (∀ v ∈ r.outs, ∃ id, s.ptr v = .blk id ∧ id ∈ s.heap) ∧
    ∀ id ∈ s.heap, ∃ v ∈ r.outs, s.ptr v = .blk id
  failure : c = .err → ∀ id ∈ s.heap, ∃ v ∈ leaky, s.ptr v = .blk id

/-- In every run in which the instructions marked by `ex` do not fail: nothing undefined happens
(no access to memory that is not allocated, no use of an uninitialised pointer, no release of
memory that is not allocated, in particular no double `free`), and every return is clean. -/
def SafeExcept (ex : Instr → Bool) (r : Routine) (leaky : List ℕ) : Prop :=
  ∀ s, Reach ex r.prog s → ∀ c, Allowed ex r.prog s c →
    match step r.prog s c with
    | .cont _ => True
    | .done code s' => Clean r leaky code s'
    | .fault => False

/-- No instruction is assumed to succeed. -/
def exNone : Instr → Bool := fun _ => false

/-- Every run, for every pattern of failures, is fine and nothing is ever leaked. -/
def Safe (r : Routine) : Prop := SafeExcept exNone r []

/-- A run given by the list of the choices of the environment. -/
def run (p : List Instr) : List Bool → St → Out
  | [], s => .cont s
  | c :: cs, s => match step p s c with
    | .cont s' => run p cs s'
    | o => o

/-- Some run of the routine does something undefined. -/
def CanFault (r : Routine) : Prop := ∃ cs, run r.prog cs start = .fault

/-- Some run of the routine returns with an error code while the blocks of the variables `vs` are
still allocated: they are lost. -/
def CanLeak (r : Routine) (vs : List ℕ) : Prop :=
  ∃ cs s, run r.prog cs start = .done .err s ∧ ∀ v ∈ vs, ∃ id ∈ s.heap, s.ptr v = .blk id

/-- Some run of the routine returns `SUCCESS` although something has failed. -/
def CanHide (r : Routine) : Prop := ∃ cs s, run r.prog cs start = .done .ok s ∧ s.failed = true

/-- Some run of the routine returns an uninitialised value. -/
def CanReturnGarbage (r : Routine) : Prop := ∃ cs s, run r.prog cs start = .done .garbage s

/-! ## The instructions that are assumed to succeed in some of the theorems -/

/-- The failures of the untested allocations and of the calls whose return code is not used. -/
def exMan : Instr → Bool
  | .malloc v => v < 6
  | .callIgnore => true
  | _ => false

def exWpsi : Instr → Bool
  | .malloc v => v = 5
  | _ => false

/-- The failures of the second preprocessing. -/
def exSub : Instr → Bool
  | .callAlloc vs _ => vs = [0, 1]
  | _ => false

def exIgnore : Instr → Bool
  | .callIgnore => true
  | _ => false

end FNFT.Res

import Mathlib.Logic.Function.Basic
import Mathlib.Tactic.Linarith
import Mathlib.Tactic.Ring
import Mathlib.Tactic.NormNum
/-!
# Core of the model: checked C memory, loops, return codes

A C function is modelled as a function into `Option`; `none` is undefined behaviour (an access out of
bounds or a read of memory that was never written).
-/
namespace FNFT

/-- A C array (`malloc`ed block or caller's array): number of elements and contents; a cell that was
never written holds `none`. -/
structure Buf (α : Type*) where
  len : ℕ
  cell : ℕ → Option α

namespace Buf
variable {α : Type*}

/-- `malloc(n * sizeof(T))`, succeeding: `n` uninitialised cells. -/
def malloc (n : ℕ) : Buf α := ⟨n, fun _ => none⟩

/-- `calloc(n, sizeof(T))`, succeeding: `n` cells holding zero. -/
def calloc [Zero α] (n : ℕ) : Buf α := ⟨n, fun _ => some 0⟩

/-- `x = b[i]`; undefined when out of bounds or uninitialised. -/
def rd (b : Buf α) (i : ℕ) : Option α := if i < b.len then b.cell i else none

/-- `b[i] = v`; undefined when out of bounds. -/
def wr (b : Buf α) (i : ℕ) (v : α) : Option (Buf α) :=
  if i < b.len then some ⟨b.len, Function.update b.cell i (some v)⟩ else none

/-- A caller's array with the given contents. -/
def ofList (l : List α) : Buf α := ⟨l.length, fun i => l[i]?⟩

/-- A caller's array of `n` elements with contents `f 0, …, f (n-1)`. -/
def ofFn (n : ℕ) (f : ℕ → α) : Buf α := ⟨n, fun i => some (f i)⟩

/-- The first `l.length` elements of the array are exactly those of `l`. -/
def HoldsList (b : Buf α) (l : List α) : Prop := ∀ i, i < l.length → b.rd i = l[i]?

/-- `b[off..off+n)` is initialised with `f 0, …, f (n-1)`. -/
def Holds (b : Buf α) (off n : ℕ) (f : ℕ → α) : Prop := ∀ i, i < n → b.rd (off + i) = some (f i)

@[simp] theorem malloc_len (n : ℕ) : (malloc n : Buf α).len = n := by
  unfold malloc; rfl
@[simp] theorem ofList_len (l : List α) : (ofList l).len = l.length := by
  unfold ofList; rfl
@[simp] theorem ofFn_len (n : ℕ) (f : ℕ → α) : (ofFn n f).len = n := by
  unfold ofFn; rfl

theorem rd_lt {b : Buf α} {i : ℕ} {v : α} (h : b.rd i = some v) : i < b.len := by
  unfold rd at h; split at h <;> simp_all

theorem rd_ofFn {n : ℕ} {f : ℕ → α} {i : ℕ} (h : i < n) : (ofFn n f).rd i = some (f i) := by
  simp [rd, ofFn, h]

theorem rd_ofList {l : List α} {i : ℕ} : (ofList l).rd i = l[i]? := by
  unfold rd ofList
  by_cases h : i < l.length
  · simp [h]
  · simp [h]

theorem holds_ofFn (n : ℕ) (f : ℕ → α) : (ofFn n f).Holds 0 n f := by
  intro i h; rw [Nat.zero_add]; exact rd_ofFn h

theorem wr_some {b : Buf α} {i : ℕ} (v : α) (h : i < b.len) :
    b.wr i v = some ⟨b.len, Function.update b.cell i (some v)⟩ := by simp [wr, h]

/-- Writing in bounds succeeds, keeps the length, and changes exactly one cell. -/
theorem wr_spec {b : Buf α} {i : ℕ} (v : α) (h : i < b.len) :
    ∃ b', b.wr i v = some b' ∧ b'.len = b.len ∧ b'.rd i = some v ∧
      ∀ j, j ≠ i → b'.rd j = b.rd j := by
  refine ⟨_, wr_some v h, rfl, ?_, ?_⟩
  · simp [rd, h]
  · intro j hj; simp [rd, Function.update_of_ne hj]

theorem wr_len {b b' : Buf α} {i : ℕ} {v : α} (h : b.wr i v = some b') : b'.len = b.len := by
  unfold wr at h; split at h
  · cases h; rfl
  · cases h

theorem wr_lt {b b' : Buf α} {i : ℕ} {v : α} (h : b.wr i v = some b') : i < b.len := by
  unfold wr at h; split at h
  · assumption
  · cases h

theorem wr_rd {b b' : Buf α} {i : ℕ} {v : α} (h : b.wr i v = some b') (j : ℕ) :
    b'.rd j = if j = i then some v else b.rd j := by
  have hl := wr_lt h
  rw [wr_some v hl] at h
  cases h
  by_cases hj : j = i
  · subst hj; simp [rd, hl]
  · simp [rd, hj]

/-- Total version of `wr` (used in proofs only). -/
def set (b : Buf α) (i : ℕ) (v : α) : Buf α := ⟨b.len, Function.update b.cell i (some v)⟩

@[simp] theorem set_len (b : Buf α) (i : ℕ) (v : α) : (b.set i v).len = b.len := by
  unfold set; rfl

theorem wr_eq {b : Buf α} {i : ℕ} (v : α) (h : i < b.len) : b.wr i v = some (b.set i v) := by
  simp [wr, h, set]

theorem rd_set {b : Buf α} {i : ℕ} (v : α) (h : i < b.len) (j : ℕ) :
    (b.set i v).rd j = if j = i then some v else b.rd j := wr_rd (wr_eq v h) j

theorem holdsList_ofList (l : List α) : (ofList l).HoldsList l := fun _ _ => rd_ofList

end Buf

/-- `for (i=0; i<n; i++) body` with a trip count known on entry. -/
def forLoop {σ : Type*} : ℕ → (ℕ → σ → Option σ) → σ → Option σ
  | 0, _, s => some s
  | n + 1, body, s => forLoop n body s >>= body n

@[simp] theorem forLoop_zero {σ : Type*} (body : ℕ → σ → Option σ) (s : σ) :
    forLoop 0 body s = some s := rfl

theorem forLoop_succ {σ : Type*} (n : ℕ) (body : ℕ → σ → Option σ) (s : σ) :
    forLoop (n + 1) body s = (forLoop n body s).bind (body n) := rfl

/-- Invariant rule for `for` loops: total correctness, no undefined behaviour. -/
theorem forLoop_inv {σ : Type*} {n : ℕ} {body : ℕ → σ → Option σ} {s : σ} (P : ℕ → σ → Prop)
    (h0 : P 0 s) (hstep : ∀ i t, i < n → P i t → ∃ t', body i t = some t' ∧ P (i + 1) t') :
    ∃ t, forLoop n body s = some t ∧ P n t := by
  induction n with
  | zero => exact ⟨s, rfl, h0⟩
  | succ n ih =>
    obtain ⟨t, ht, hP⟩ := ih (fun i t hi => hstep i t (Nat.lt_succ_of_lt hi))
    obtain ⟨t', ht', hP'⟩ := hstep n t (Nat.lt_succ_self n) hP
    exact ⟨t', by rw [forLoop_succ, ht]; exact ht', hP'⟩

theorem forLoop_congr {σ : Type*} {n : ℕ} {b1 b2 : ℕ → σ → Option σ} {s : σ}
    (h : ∀ i t, i < n → b1 i t = b2 i t) : forLoop n b1 s = forLoop n b2 s := by
  induction n with
  | zero => rfl
  | succ n ih =>
    rw [forLoop_succ, forLoop_succ, ih (fun i t hi => h i t (Nat.lt_succ_of_lt hi))]
    cases forLoop n b2 s with
    | none => rfl
    | some t => exact h n t (Nat.lt_succ_self n)

/-- `for (i=off; i<off+cnt; i++) b[i] = f(i);` where `f(i)` may read other arrays. -/
def fill {α : Type*} (off cnt : ℕ) (f : ℕ → Option α) (b : Buf α) : Option (Buf α) :=
  forLoop cnt (fun k b => do
    let v ← f (off + k)
    b.wr (off + k) v) b

theorem fill_spec {α : Type*} {off cnt : ℕ} {f : ℕ → Option α} {b : Buf α} (g : ℕ → α)
    (hf : ∀ i, off ≤ i → i < off + cnt → f i = some (g i)) (hl : off + cnt ≤ b.len ∨ cnt = 0) :
    ∃ b', fill off cnt f b = some b' ∧ b'.len = b.len ∧
      ∀ j, b'.rd j = if off ≤ j ∧ j < off + cnt then some (g j) else b.rd j := by
  apply forLoop_inv (fun k (b' : Buf α) => b'.len = b.len ∧
      ∀ j, b'.rd j = if off ≤ j ∧ j < off + k then some (g j) else b.rd j)
  · exact ⟨rfl, fun j => by rw [if_neg (by omega)]⟩
  · rintro i d hi ⟨h1, h2⟩
    refine ⟨d.set (off + i) (g (off + i)), ?_, by simp [h1], ?_⟩
    · simp only [hf (off + i) (by omega) (by omega), Option.bind_eq_bind, Option.bind_some]
      exact Buf.wr_eq _ (by omega)
    · intro j
      rw [Buf.rd_set _ (by omega)]
      split_ifs with ha hb hb
      · rw [ha]
      · omega
      · rw [h2 j, if_pos (by omega)]
      · rw [h2 j, if_neg (by omega)]

/-- `n` iterations of `g` without failure (proof device). -/
def iter {σ : Type*} : ℕ → (ℕ → σ → σ) → σ → σ
  | 0, _, s => s
  | n + 1, g, s => g n (iter n g s)

theorem forLoop_iter {σ : Type*} {n : ℕ} {body : ℕ → σ → Option σ} {g : ℕ → σ → σ} {s : σ}
    (h : ∀ i t, i < n → body i t = some (g i t)) : forLoop n body s = some (iter n g s) := by
  induction n with
  | zero => rfl
  | succ n ih =>
    rw [forLoop_succ, ih (fun i t hi => h i t (Nat.lt_succ_of_lt hi)), Option.bind_some,
      h _ _ (Nat.lt_succ_self n)]; rfl

/-- Return codes, /repo/include/fnft_errwarn.h:44-94. -/
def SUCCESS : ℤ := 0
def EC_NOMEM : ℤ := 1
def EC_INVALID_ARGUMENT : ℤ := 2
def EC_DIV_BY_ZERO : ℤ := 3
def EC_TEST_FAILED : ℤ := 4
def EC_OTHER : ℤ := 5
def EC_NOT_YET_IMPLEMENTED : ℤ := 6
def EC_SANITY_CHECK_FAILED : ℤ := 7
def EC_ASSERTION_FAILED : ℤ := 8

/-- `E_SUBROUTINE(ec)`, /repo/include/private/fnft__errwarn.h:57 (the printed message is not modelled
here, see `Verif/Model/Errwarn.lean`). -/
def E_SUBROUTINE (ec : ℤ) : ℤ := -|ec|

end FNFT

import Verif.Spec.Res

/-!
# A sound checker for resource skeletons

The reachable part of a skeleton, with heap blocks replaced by the status of the pointer variables,
is finite.  `check` computes it and tests every step; `check_sound` shows that nothing is lost by
that abstraction.
-/

namespace FNFT.Res

/-- Status of a pointer variable. -/
inductive Sta
  | garbage
  | null
  | foreign
  | live
  | dead
deriving DecidableEq, Repr

/-- Abstract state. -/
structure AS where
  pc : ℕ
  st : List Sta
  fl : List Bool
  ret : Code
  failed : Bool
deriving DecidableEq, Repr

inductive AOut
  | cont (a : AS)
  | done (c : Code) (a : AS)
  | bad

def AS.get (a : AS) (v : ℕ) : Sta := a.st.getD v .garbage

def AS.put (a : AS) (v : ℕ) (x : Sta) : Option AS :=
  if v < a.st.length ∧ a.get v ≠ .live then some { a with st := a.st.set v x } else none

def AS.readable (a : AS) (v : ℕ) : Bool :=
  match a.get v with
  | .garbage => false
  | .dead => false
  | _ => true

def AS.valid (a : AS) (v : ℕ) : Bool :=
  match a.get v with
  | .foreign => true
  | .live => true
  | _ => false

def AS.free (a : AS) (v : ℕ) : Option AS :=
  match a.get v with
  | .null => some a
  | .live => some { a with st := a.st.set v .dead }
  | _ => none

def AS.allocs (a : AS) : List ℕ → Option AS
  | [] => some a
  | v :: vs => match a.put v .live with
    | some a' => a'.allocs vs
    | none => none

def AOut.ofOpt : Option AS → AOut
  | some a => .cont a
  | none => .bad

def astep (p : List Instr) (a : AS) (c : Bool) : AOut :=
  let adv : AS := { a with pc := a.pc + 1 }
  let fail : AS := { adv with failed := true }
  match p[a.pc]? with
  | none => .bad
  | some i => match i with
    | .label _ => .cont adv
    | .malloc v => if c then .ofOpt (adv.put v .live) else .ofOpt (fail.put v .null)
    | .setNull v => .ofOpt (adv.put v .null)
    | .alias v => .ofOpt (adv.put v .foreign)
    | .free v => .ofOpt (adv.free v)
    | .freeOwn v => if a.get v = .foreign then .cont adv else .ofOpt (adv.free v)
    | .nomem vs l => if vs.all a.readable then
          if vs.any (fun v => decide (a.get v = .null)) then
            .cont { a with pc := target p l, ret := .err, failed := true }
          else .cont adv
        else .bad
    | .nomemRet vs => if vs.all a.readable then
          if vs.any (fun v => decide (a.get v = .null)) then
            .done .err { a with failed := true }
          else .cont adv
        else .bad
    | .ifNull v l => if a.readable v then
          if a.get v = .null then .cont { a with pc := target p l } else .cont adv
        else .bad
    | .use vs => if vs.all a.valid then .cont adv else .bad
    | .call l => if c then .cont { adv with ret := .ok }
        else .cont { fail with ret := .err, pc := target p l }
    | .callAlloc vs l => if c then
          match adv.allocs vs with
          | some a' => .cont { a' with ret := .ok }
          | none => .bad
        else .cont { fail with ret := .err, pc := target p l }
    | .callIgnore => if c then .cont adv else .cont fail
    | .setRet r => .cont { adv with ret := r }
    | .errIf l => if c then .cont adv
        else .cont { fail with ret := .err, pc := target p l }
    | .retErrIf => if c then .cont adv else .done .err { a with failed := true }
    | .branch l => if c then .cont { a with pc := target p l } else .cont adv
    | .flag b => if b < a.fl.length then .cont { adv with fl := a.fl.set b c } else .bad
    | .ifFlag b l => if a.fl.getD b false then .cont { a with pc := target p l } else .cont adv
    | .goto l => .cont { a with pc := target p l }
    | .ifErr l => match a.ret with
        | .garbage => .bad
        | .ok => .cont adv
        | .err => .cont { a with pc := target p l }
    | .ret => .done a.ret a
    | .retOk => .done .ok a

/-! ## The relation between states and abstract states -/

def Rel (heap : Finset ℕ) : Sta → Val → Prop
  | .garbage, x => x = .garbage
  | .null, x => x = .null
  | .foreign, x => x = .foreign
  | .live, x => ∃ id, x = .blk id ∧ id ∈ heap
  | .dead, x => ∃ id, x = .blk id ∧ id ∉ heap

structure H (ptr : ℕ → Val) (heap : Finset ℕ) (next : ℕ) (st : List Sta) : Prop where
  rel : ∀ v, Rel heap (st.getD v .garbage) (ptr v)
  inj : ∀ v w id, id ∈ heap → ptr v = .blk id → ptr w = .blk id → v = w
  own : ∀ id ∈ heap, ∃ v, ptr v = .blk id
  fresh : ∀ id ∈ heap, id < next
  small : ∀ v id, ptr v = .blk id → id < next

structure R (s : St) (a : AS) : Prop where
  pc : s.pc = a.pc
  ret : s.ret = a.ret
  failed : s.failed = a.failed
  flag : ∀ b, s.flag b = a.fl.getD b false
  h : H s.ptr s.heap s.next a.st

theorem getD_set {α : Type} (l : List α) (v w : ℕ) (x d : α) (hv : v < l.length) :
    (l.set v x).getD w d = if w = v then x else l.getD w d := by
  by_cases hw : w = v
  · subst hw; simp [List.getD_eq_getElem?_getD, hv]
  · simp [List.getD_eq_getElem?_getD, hw, Ne.symm hw]

variable {ptr : ℕ → Val} {heap : Finset ℕ} {next : ℕ} {st : List Sta}

/-- A variable that is not live does not own a block. -/
theorem H.notLive (h : H ptr heap next st) {v : ℕ} (hn : st.getD v .garbage ≠ .live) :
    ∀ id, ptr v = .blk id → id ∉ heap := by
  intro id hid
  have := h.rel v
  cases hst : st.getD v .garbage <;> rw [hst] at this <;> simp only [Rel] at this
  · rw [hid] at this; cases this
  · rw [hid] at this; cases this
  · rw [hid] at this; cases this
  · exact absurd hst hn
  · obtain ⟨id', he, hn'⟩ := this
    rw [hid] at he; cases he; exact hn'

theorem H.setPlain (h : H ptr heap next st) {v : ℕ} (hv : v < st.length)
    (hn : st.getD v .garbage ≠ .live) (x : Val) (y : Sta) (hr : Rel heap y x)
    (hx : ∀ id, x ≠ .blk id) :
    H (Function.update ptr v x) heap next (st.set v y) where
  rel w := by
    rw [getD_set _ _ _ _ _ hv]
    by_cases hw : w = v
    · subst hw; simpa using hr
    · rw [if_neg hw, Function.update_of_ne hw]; exact h.rel w
  inj w w' id hid h1 h2 := by
    by_cases hw : w = v
    · subst hw; rw [Function.update_self] at h1; exact absurd h1 (hx id)
    · by_cases hw' : w' = v
      · subst hw'; rw [Function.update_self] at h2; exact absurd h2 (hx id)
      · rw [Function.update_of_ne hw] at h1; rw [Function.update_of_ne hw'] at h2
        exact h.inj w w' id hid h1 h2
  own id hid := by
    obtain ⟨w, hw⟩ := h.own id hid
    refine ⟨w, ?_⟩
    by_cases hwv : w = v
    · subst hwv; exact absurd hid (h.notLive hn id hw)
    · rw [Function.update_of_ne hwv]; exact hw
  fresh := h.fresh
  small w id hid := by
    by_cases hw : w = v
    · subst hw; rw [Function.update_self] at hid; exact absurd hid (hx id)
    · rw [Function.update_of_ne hw] at hid; exact h.small w id hid

theorem H.alloc (h : H ptr heap next st) {v : ℕ} (hv : v < st.length)
    (hn : st.getD v .garbage ≠ .live) :
    H (Function.update ptr v (.blk next)) (insert next heap) (next + 1) (st.set v .live) where
  rel w := by
    rw [getD_set _ _ _ _ _ hv]
    by_cases hw : w = v
    · subst hw; rw [if_pos rfl, Function.update_self]; exact ⟨next, rfl, Finset.mem_insert_self _ _⟩
    · rw [if_neg hw, Function.update_of_ne hw]
      have := h.rel w
      cases hst : st.getD w .garbage <;> rw [hst] at this <;> simp only [Rel] at this ⊢
      · exact this
      · exact this
      · exact this
      · obtain ⟨id, he, hi⟩ := this; exact ⟨id, he, Finset.mem_insert_of_mem hi⟩
      · obtain ⟨id, he, hi⟩ := this
        refine ⟨id, he, fun hm => ?_⟩
        rcases Finset.mem_insert.1 hm with e | e
        · have := h.small w id he; omega
        · exact hi e
  inj w w' id hid h1 h2 := by
    by_cases hw : w = v
    · by_cases hw' : w' = v
      · rw [hw, hw']
      · subst hw
        rw [Function.update_self] at h1; cases h1
        rw [Function.update_of_ne hw'] at h2
        have := h.small w' _ h2; omega
    · rw [Function.update_of_ne hw] at h1
      by_cases hw' : w' = v
      · subst hw'
        rw [Function.update_self] at h2; cases h2
        have := h.small w _ h1; omega
      · rw [Function.update_of_ne hw'] at h2
        rcases Finset.mem_insert.1 hid with e | e
        · have := h.small w _ h1; omega
        · exact h.inj w w' id e h1 h2
  own id hid := by
    rcases Finset.mem_insert.1 hid with e | e
    · exact ⟨v, by rw [Function.update_self, e]⟩
    · obtain ⟨w, hw⟩ := h.own id e
      refine ⟨w, ?_⟩
      by_cases hwv : w = v
      · subst hwv; exact absurd e (h.notLive hn id hw)
      · rw [Function.update_of_ne hwv]; exact hw
  fresh id hid := by
    rcases Finset.mem_insert.1 hid with e | e
    · omega
    · have := h.fresh id e; omega
  small w id hid := by
    by_cases hw : w = v
    · subst hw; rw [Function.update_self] at hid; cases hid; omega
    · rw [Function.update_of_ne hw] at hid; have := h.small w id hid; omega

theorem H.free (h : H ptr heap next st) {v : ℕ} (hl : st.getD v .garbage = .live) :
    ∃ id, ptr v = .blk id ∧ id ∈ heap ∧ H ptr (heap.erase id) next (st.set v .dead) := by
  have hv : v < st.length := by
    by_contra hc
    rw [List.getD_eq_getElem?_getD, List.getElem?_eq_none (by omega)] at hl
    simp at hl
  have hr := h.rel v
  rw [hl] at hr
  obtain ⟨id, he, hi⟩ := hr
  refine ⟨id, he, hi, ?_⟩
  refine ⟨fun w => ?_, fun w w' i hm h1 h2 => ?_, fun i hm => ?_, fun i hm => ?_, h.small⟩
  · rw [getD_set _ _ _ _ _ hv]
    by_cases hw : w = v
    · subst hw; rw [if_pos rfl]; exact ⟨id, he, Finset.notMem_erase _ _⟩
    · rw [if_neg hw]
      have := h.rel w
      cases hst : st.getD w .garbage <;> rw [hst] at this <;> simp only [Rel] at this ⊢
      · exact this
      · exact this
      · exact this
      · obtain ⟨i, h1, h2⟩ := this
        refine ⟨i, h1, Finset.mem_erase.2 ⟨?_, h2⟩⟩
        rintro rfl
        exact hw (h.inj w v i h2 h1 he)
      · obtain ⟨i, h1, h2⟩ := this
        exact ⟨i, h1, fun hm => h2 (Finset.mem_of_mem_erase hm)⟩
  · exact h.inj w w' i (Finset.mem_of_mem_erase hm) h1 h2
  · exact h.own i (Finset.mem_of_mem_erase hm)
  · exact h.fresh i (Finset.mem_of_mem_erase hm)

/-! ## One step -/

theorem Rel.null_iff {heap : Finset ℕ} {y : Sta} {x : Val} (h : Rel heap y x) :
    x = .null ↔ y = .null := by
  cases y <;> simp only [Rel] at h
  · simp [h]
  · simp [h]
  · simp [h]
  · obtain ⟨id, h, _⟩ := h; simp [h]
  · obtain ⟨id, h, _⟩ := h; simp [h]

theorem Rel.foreign_iff {heap : Finset ℕ} {y : Sta} {x : Val} (h : Rel heap y x) :
    x = .foreign ↔ y = .foreign := by
  cases y <;> simp only [Rel] at h
  · simp [h]
  · simp [h]
  · simp [h]
  · obtain ⟨id, h, _⟩ := h; simp [h]
  · obtain ⟨id, h, _⟩ := h; simp [h]

theorem R.readable {s : St} {a : AS} (h : R s a) (v : ℕ) : s.readable v = a.readable v := by
  have := h.h.rel v
  unfold St.readable AS.readable AS.get
  cases hst : a.st.getD v .garbage <;> rw [hst] at this <;> simp only [Rel] at this
  · rw [this]
  · rw [this]
  · rw [this]
  · obtain ⟨id, he, hi⟩ := this; simp [he, hi]
  · obtain ⟨id, he, hi⟩ := this; simp [he, hi]

theorem R.valid {s : St} {a : AS} (h : R s a) (v : ℕ) : s.valid v = a.valid v := by
  have := h.h.rel v
  unfold St.valid AS.valid AS.get
  cases hst : a.st.getD v .garbage <;> rw [hst] at this <;> simp only [Rel] at this
  · rw [this]
  · rw [this]
  · rw [this]
  · obtain ⟨id, he, hi⟩ := this; simp [he, hi]
  · obtain ⟨id, he, hi⟩ := this; simp [he, hi]

theorem R.isNull {s : St} {a : AS} (h : R s a) (v : ℕ) : s.ptr v = .null ↔ a.get v = .null :=
  (h.h.rel v).null_iff

theorem R.isForeign {s : St} {a : AS} (h : R s a) (v : ℕ) :
    s.ptr v = .foreign ↔ a.get v = .foreign :=
  (h.h.rel v).foreign_iff

/-- The concrete outcome matches the abstract one. -/
def Sim : Out → AOut → Prop
  | .cont s, .cont a => R s a
  | .done c s, .done d a => c = d ∧ R s a
  | _, .bad => True
  | _, _ => False

theorem R.free {s : St} {a a' : AS} (h : R s a) {v : ℕ} (hf : a.free v = some a') :
    ∃ s', s.free v = some s' ∧ R s' a' := by
  unfold AS.free AS.get at hf
  cases hst : a.st.getD v .garbage <;> rw [hst] at hf <;> simp only [reduceCtorEq] at hf
  · have := h.h.rel v
    rw [hst] at this
    simp only [Rel] at this
    cases hf
    exact ⟨s, by simp [St.free, this], h⟩
  · cases hf
    obtain ⟨id, he, hi, hH⟩ := h.h.free hst
    exact ⟨{ s with heap := s.heap.erase id }, by simp [St.free, he, hi],
      h.pc, h.ret, h.failed, h.flag, hH⟩

theorem R.put {s : St} {a a' : AS} (h : R s a) {v : ℕ} {x : Val} {y : Sta}
    (hf : a.put v y = some a') (hr : Rel s.heap y x) (hx : ∀ id, x ≠ .blk id) :
    R { s with ptr := Function.update s.ptr v x } a' := by
  unfold AS.put at hf
  split at hf
  next hc =>
    cases hf
    exact ⟨h.pc, h.ret, h.failed, h.flag, h.h.setPlain hc.1 hc.2 x y hr hx⟩
  next => cases hf

theorem R.alloc {s : St} {a a' : AS} (h : R s a) {v : ℕ} (hf : a.put v .live = some a') :
    R (s.alloc v) a' := by
  unfold AS.put at hf
  split at hf
  next hc =>
    cases hf
    exact ⟨h.pc, h.ret, h.failed, h.flag, h.h.alloc hc.1 hc.2⟩
  next => cases hf

theorem R.allocs {vs : List ℕ} : ∀ {s : St} {a a' : AS}, R s a → a.allocs vs = some a' →
    R (vs.foldl St.alloc s) a' := by
  induction vs with
  | nil => intro s a a' h hf; simp only [AS.allocs] at hf; cases hf; exact h
  | cons v vs ih =>
    intro s a a' h hf
    simp only [AS.allocs] at hf
    cases hp : a.put v .live with
    | none => rw [hp] at hf; cases hf
    | some b => rw [hp] at hf; exact ih (h.alloc hp) hf

theorem all_congr' {f g : ℕ → Bool} (h : ∀ v, f v = g v) (vs : List ℕ) : vs.all f = vs.all g := by
  have : f = g := funext h
  rw [this]

theorem any_congr' {f g : ℕ → Bool} (h : ∀ v, f v = g v) (vs : List ℕ) : vs.any f = vs.any g := by
  have : f = g := funext h
  rw [this]

theorem R.pcTo {s : St} {a : AS} (h : R s a) (k : ℕ) : R { s with pc := k } { a with pc := k } :=
  ⟨rfl, h.ret, h.failed, h.flag, h.h⟩

theorem R.failTo {s : St} {a : AS} (h : R s a) : R { s with failed := true }
    { a with failed := true } :=
  ⟨h.pc, h.ret, rfl, h.flag, h.h⟩

theorem R.retTo {s : St} {a : AS} (h : R s a) (c : Code) : R { s with ret := c }
    { a with ret := c } :=
  ⟨h.pc, rfl, h.failed, h.flag, h.h⟩

theorem step_sim (p : List Instr) {s : St} {a : AS} (h : R s a) (c : Bool) :
    Sim (step p s c) (astep p a c) := by
  have hadv : R { s with pc := s.pc + 1 } { a with pc := a.pc + 1 } := by
    rw [h.pc]; exact h.pcTo _
  have hfail := hadv.failTo
  have hnull : ∀ vs : List ℕ, vs.any (fun v => decide (s.ptr v = .null)) =
      vs.any (fun v => decide (a.get v = .null)) :=
    fun vs => any_congr' (fun v => by simp only [h.isNull v]) vs
  unfold step astep
  rw [h.pc]
  rw [h.pc] at hadv hfail
  cases hi : p[a.pc]? with
  | none => simp [Sim]
  | some i =>
    cases i with
    | label l => exact hadv
    | malloc v =>
      cases c
      · cases hp : AS.put { a with pc := a.pc + 1, failed := true } v .null with
        | none => simp [AOut.ofOpt, hp, Sim]
        | some b =>
          simp only [hp, AOut.ofOpt]
          exact hfail.put hp (by simp [Rel]) (by simp)
      · cases hp : AS.put { a with pc := a.pc + 1 } v .live with
        | none => simp [AOut.ofOpt, hp, Sim]
        | some b =>
          simp only [hp, AOut.ofOpt, if_true]
          exact hadv.alloc hp
    | setNull v =>
      cases hp : AS.put { a with pc := a.pc + 1 } v .null with
      | none => simp [AOut.ofOpt, hp, Sim]
      | some b =>
        simp only [hp, AOut.ofOpt]
        exact hadv.put hp (by simp [Rel]) (by simp)
    | «alias» v =>
      cases hp : AS.put { a with pc := a.pc + 1 } v .foreign with
      | none => simp [AOut.ofOpt, hp, Sim]
      | some b =>
        simp only [hp, AOut.ofOpt]
        exact hadv.put hp (by simp [Rel]) (by simp)
    | free v =>
      cases hp : AS.free { a with pc := a.pc + 1 } v with
      | none => simp [AOut.ofOpt, hp, Sim]
      | some b =>
        obtain ⟨s', hs, hr⟩ := hadv.free hp
        simp only [hp, hs, AOut.ofOpt]
        exact hr
    | freeOwn v =>
      by_cases hf : a.get v = .foreign
      · simp only [if_pos hf, if_pos ((h.isForeign v).2 hf)]
        exact hadv
      · simp only [if_neg hf, if_neg (fun hc => hf ((h.isForeign v).1 hc))]
        cases hp : AS.free { a with pc := a.pc + 1 } v with
        | none => simp [AOut.ofOpt, Sim]
        | some b =>
          obtain ⟨s', hs, hr⟩ := hadv.free hp
          simp only [hs, AOut.ofOpt]
          exact hr
    | nomem vs l =>
      simp only [all_congr' h.readable, hnull]
      split
      · split
        · exact ((h.pcTo _).retTo .err).failTo
        · exact hadv
      · trivial
    | nomemRet vs =>
      simp only [all_congr' h.readable, hnull]
      split
      · split
        · exact ⟨rfl, h.failTo.pcTo _⟩
        · exact hadv
      · trivial
    | ifNull v l =>
      simp only [h.readable, h.isNull]
      split
      · split
        · exact h.pcTo _
        · exact hadv
      · trivial
    | use vs =>
      simp only [all_congr' h.valid]
      split
      · exact hadv
      · trivial
    | call l =>
      cases c
      · exact (hfail.retTo .err).pcTo _
      · exact hadv.retTo .ok
    | callAlloc vs l =>
      cases c
      · exact (hfail.retTo .err).pcTo _
      · cases hp : AS.allocs { a with pc := a.pc + 1 } vs with
        | none => simp [hp, Sim]
        | some b =>
          simp only [hp, if_true]
          exact (hadv.allocs hp).retTo .ok
    | callIgnore =>
      cases c
      · exact hfail
      · exact hadv
    | setRet r => exact hadv.retTo r
    | errIf l =>
      cases c
      · exact (hfail.retTo .err).pcTo _
      · exact hadv
    | retErrIf =>
      cases c
      · exact ⟨rfl, h.failTo.pcTo _⟩
      · exact hadv
    | branch l =>
      cases c
      · exact hadv
      · exact h.pcTo _
    | flag b =>
      by_cases hb : b < a.fl.length
      · simp only [if_pos hb]
        refine ⟨rfl, h.ret, h.failed, fun d => ?_, h.h⟩
        show Function.update s.flag b c d = _
        rw [getD_set _ _ _ _ _ hb]
        by_cases hd : d = b
        · subst hd; simp
        · rw [Function.update_of_ne hd, if_neg hd]; exact h.flag d
      · simp only [if_neg hb]; trivial
    | ifFlag b l =>
      simp only [h.flag b]
      split
      · exact h.pcTo _
      · exact hadv
    | goto l => exact h.pcTo _
    | ifErr l =>
      obtain ⟨pc, ptr, flag, heap, next, ret, failed⟩ := s
      obtain ⟨pc', st', fl', ret', failed'⟩ := a
      have e : ret = ret' := h.ret
      subst e
      cases ret
      · trivial
      · exact hadv
      · exact h.pcTo _
    | ret => exact ⟨h.ret, h⟩
    | retOk => exact ⟨rfl, h⟩

/-! ## The checker -/

/-- The first abstract state. -/
def astart (r : Routine) : AS :=
  { pc := 0, st := List.replicate r.nv .garbage, fl := List.replicate r.nf false, ret := .garbage,
    failed := false }

theorem start_rel (r : Routine) : R start (astart r) := by
  refine ⟨rfl, rfl, rfl, fun b => ?_, ?_⟩
  · simp only [start, astart, List.getD_eq_getElem?_getD, List.getElem?_replicate]
    split <;> rfl
  · refine ⟨fun v => ?_, ?_, ?_, ?_, ?_⟩
    · have : (astart r).st.getD v .garbage = .garbage := by
        simp only [astart, List.getD_eq_getElem?_getD, List.getElem?_replicate]
        split <;> rfl
      rw [this]; simp [Rel, start]
    · intro v w id hid; simp [start] at hid
    · intro id hid; simp [start] at hid
    · intro id hid; simp [start] at hid
    · intro v id hid; simp [start] at hid

/-- What is required when the routine returns. -/
def okDone (r : Routine) (leaky : List ℕ) (c : Code) (a : AS) : Bool :=
  match c with
  | .garbage => false
  | .ok => !a.failed && (List.range a.st.length).all
      (fun v => decide (a.get v = .live) == decide (v ∈ r.outs)) &&
      r.outs.all (fun v => decide (v < a.st.length))
  | .err => a.failed && (List.range a.st.length).all
      (fun v => !decide (a.get v = .live) || decide (v ∈ leaky))

/-- Insert in the table (indexed by the program counter); `none` if already there. -/
def ins (a : AS) : ℕ → List (List AS) → Option (List (List AS))
  | _, [] => none
  | 0, g :: gs => if g.any (fun b => decide (b = a)) then none else some ((a :: g) :: gs)
  | k + 1, g :: gs => match ins a k gs with
    | some gs' => some (g :: gs')
    | none => none

/-- Which of the two choices are possible. -/
def choices (ex : Instr → Bool) (p : List Instr) (a : AS) : List Bool :=
  match p[a.pc]? with
  | some i => if ex i then [true] else [true, false]
  | none => [true, false]

def explore (ex : Instr → Bool) (p : List Instr) : ℕ → List AS → List (List AS) → List (List AS)
  | 0, _, t => t
  | _ + 1, [], t => t
  | n + 1, a :: todo, t =>
    let r := (choices ex p a).foldl (fun (x : List AS × List (List AS)) c =>
      match astep p a c with
      | .cont b => match ins b b.pc x.2 with
        | some t' => (b :: x.1, t')
        | none => x
      | _ => x) (todo, t)
    explore ex p n r.1 r.2

/-- An entry of a certificate: a state and the positions of its two successors among the states
with the same program counter. -/
structure Ent where
  a : AS
  yes : ℕ
  no : ℕ

/-- A certificate: entries, indexed by the program counter. -/
abbrev Cert := List (List Ent)

def look (t : Cert) (pc i : ℕ) : Option Ent :=
  match t[pc]? with
  | some g => g[i]?
  | none => none

def okStep (r : Routine) (leaky : List ℕ) (t : Cert) (i : ℕ) : AOut → Bool
  | .cont b => match look t b.pc i with
    | some e => decide (e.a = b)
    | none => false
  | .done c b => okDone r leaky c b
  | .bad => false

/-- The certificate contains the start and is closed under steps, all of which are fine. -/
def check (r : Routine) (leaky : List ℕ) (ex : Instr → Bool) (t : Cert) : Bool :=
  (match look t 0 0 with
    | some e => decide (e.a = astart r)
    | none => false) &&
  t.all (fun g => g.all (fun e => (choices ex r.prog e.a).all
    (fun c => okStep r leaky t (if c then e.yes else e.no) (astep r.prog e.a c))))

/-- Position in the table; this function and `cert` need no justification, because `check`
examines their result. -/
def pos (t : List (List AS)) : AOut → ℕ
  | .cont b => (t.getD b.pc []).findIdx (fun x => decide (x = b))
  | _ => 0

def cert (r : Routine) (ex : Instr → Bool) : Cert :=
  let t := explore ex r.prog 100000 [astart r] ([astart r] :: List.replicate r.prog.length [])
  t.map (fun g => g.map (fun a => ⟨a, pos t (astep r.prog a true), pos t (astep r.prog a false)⟩))

theorem look_mem {t : Cert} {pc i : ℕ} {e : Ent} (h : look t pc i = some e) :
    ∃ g ∈ t, e ∈ g := by
  unfold look at h
  cases hx : t[pc]? with
  | none => rw [hx] at h; cases h
  | some g => rw [hx] at h; exact ⟨g, List.mem_of_getElem? hx, List.mem_of_getElem? h⟩

theorem closed_reach {r : Routine} {leaky : List ℕ} {ex : Instr → Bool} {t : Cert}
    (h : check r leaky ex t = true) {s : St} (hs : Reach ex r.prog s) :
    ∃ a, R s a ∧ ∀ c, Allowed ex r.prog s c → ∃ i, okStep r leaky t i (astep r.prog a c) = true := by
  unfold check at h
  rw [Bool.and_eq_true] at h
  have key : ∀ pc i e, look t pc i = some e → ∀ s, R s e.a → ∀ c, Allowed ex r.prog s c →
      ∃ i, okStep r leaky t i (astep r.prog e.a c) = true := by
    intro pc i e he s hR c hc
    have h2 := h.2
    rw [List.all_eq_true] at h2
    obtain ⟨g, hg, heg⟩ := look_mem he
    have h3 := h2 _ hg
    rw [List.all_eq_true] at h3
    have h4 := h3 e heg
    rw [List.all_eq_true] at h4
    refine ⟨_, h4 c ?_⟩
    unfold choices
    cases hi : r.prog[e.a.pc]? with
    | none => cases c <;> simp
    | some i =>
      rcases hc with hc | hc
      · subst hc; simp only; split <;> simp
      · have := hc i (by rw [hR.pc]; exact hi)
        simp only [this]; cases c <;> simp
  induction hs with
  | start =>
    have h1 := h.1
    cases he : look t 0 0 with
    | none => rw [he] at h1; simp at h1
    | some e =>
      rw [he] at h1
      have h1 := of_decide_eq_true h1
      have hR := start_rel r
      rw [← h1] at hR
      exact ⟨_, hR, key _ _ _ he _ hR⟩
  | @step s s' c hs hal hst ih =>
    obtain ⟨a, hR, ha⟩ := ih
    obtain ⟨i, h1⟩ := ha c hal
    have h2 := step_sim r.prog hR c
    rw [hst] at h2
    cases hb : astep r.prog a c with
    | bad => rw [hb] at h1; simp [okStep] at h1
    | done d b => rw [hb] at h2; simp [Sim] at h2
    | cont b =>
      rw [hb] at h1 h2
      dsimp only [okStep] at h1
      cases he : look t b.pc i with
      | none => rw [he] at h1; simp at h1
      | some e =>
        rw [he] at h1
        have h1 := of_decide_eq_true h1
        have h2 : R s' b := h2
        rw [← h1] at h2
        exact ⟨_, h2, key _ _ _ he _ h2⟩

/-- A live variable exists for each allocated block. -/
theorem R.owner {s : St} {a : AS} (h : R s a) {id : ℕ} (hid : id ∈ s.heap) :
    ∃ v, s.ptr v = .blk id ∧ a.get v = .live ∧ v < a.st.length := by
  obtain ⟨v, hv⟩ := h.h.own id hid
  have hr := h.h.rel v
  rw [hv] at hr
  have hl : a.get v = .live := by
    unfold AS.get
    cases hst : a.st.getD v .garbage <;> rw [hst] at hr <;> simp only [Rel] at hr
    · cases hr
    · cases hr
    · cases hr
    · obtain ⟨i, he, hn⟩ := hr
      cases he; exact absurd hid hn
  refine ⟨v, hv, hl, ?_⟩
  by_contra hc
  unfold AS.get at hl
  rw [List.getD_eq_getElem?_getD, List.getElem?_eq_none (by omega)] at hl
  simp at hl

theorem okDone_sound {r : Routine} {leaky : List ℕ} {c : Code} {s : St} {a : AS} (hR : R s a)
    (h : okDone r leaky c a = true) : Clean r leaky c s := by
  cases c with
  | garbage => simp [okDone] at h
  | ok =>
    simp only [okDone, Bool.and_eq_true, List.all_eq_true, List.mem_range, beq_iff_eq,
      decide_eq_decide, Bool.not_eq_true', decide_eq_true_eq] at h
    obtain ⟨⟨hf, hl⟩, ho⟩ := h
    refine ⟨by simp, ?_, fun _ => ⟨fun v hv => ?_, fun id hid => ?_⟩, fun he => by cases he⟩
    · rw [hR.failed, hf]; simp
    · have := (hl v (ho v hv)).2 hv
      have hr := hR.h.rel v
      unfold AS.get at this
      rw [this] at hr
      exact hr
    · obtain ⟨v, hv, hlv, hlt⟩ := hR.owner hid
      exact ⟨v, (hl v hlt).1 hlv, hv⟩
  | err =>
    simp only [okDone, Bool.and_eq_true, List.all_eq_true, List.mem_range, Bool.or_eq_true,
      Bool.not_eq_true', decide_eq_false_iff_not, decide_eq_true_eq] at h
    obtain ⟨hf, hl⟩ := h
    refine ⟨by simp, ?_, fun he => by (cases he), fun _ id hid => ?_⟩
    · rw [hR.failed, hf]; simp
    · obtain ⟨v, hv, hlv, hlt⟩ := hR.owner hid
      rcases hl v hlt with h1 | h1
      · exact absurd hlv h1
      · exact ⟨v, h1, hv⟩

/-- What the checker accepts is safe. -/
theorem check_sound {r : Routine} {leaky : List ℕ} {ex : Instr → Bool}
    {t : Cert} (h : check r leaky ex t = true) : SafeExcept ex r leaky := by
  intro s hs c hc
  obtain ⟨a, hR, ha⟩ := closed_reach h hs
  obtain ⟨i, h1⟩ := ha c hc
  have h2 := step_sim r.prog hR c
  cases hb : astep r.prog a c with
  | bad => rw [hb] at h1; simp [okStep] at h1
  | cont b =>
    rw [hb] at h2
    cases hs : step r.prog s c with
    | cont s' => trivial
    | done d s' => rw [hs] at h2; simp [Sim] at h2
    | fault => rw [hs] at h2; simp [Sim] at h2
  | done d b =>
    rw [hb] at h1 h2
    cases hs : step r.prog s c with
    | cont s' => rw [hs] at h2; simp [Sim] at h2
    | fault => rw [hs] at h2; simp [Sim] at h2
    | done d' s' =>
      rw [hs] at h2
      obtain ⟨rfl, h3⟩ := h2
      exact okDone_sound h3 h1

end FNFT.Res

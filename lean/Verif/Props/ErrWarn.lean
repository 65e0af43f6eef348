import Verif.Model.ErrWarn
import Verif.Proofs.NsevBase
/-!
# Properties of error codes and the message callback
-/
namespace FNFT

/-! ## C40: the message callback -/

/-- Is this operation a `set` that thread `t` sees? -/
def Spec.sees (tls : Bool) (t : ℕ) : ℕ × PrintfOp → Option PrintfPtr
  | (t', .set p) => if t' = t ∨ tls = false then some p else none
  | _ => none

/-- The pointer that was set last by thread `t` (by any thread, if there is no thread-local storage) in a history, or the default. -/
def Spec.lastSet (tls : Bool) (t : ℕ) (h : List (ℕ × PrintfOp)) : PrintfPtr :=
  (h.filterMap (Spec.sees tls t)).getLast?.getD .default

/-- What an operation after the history `h` has to do. -/
def Spec.printfObs (tls : Bool) (h : List (ℕ × PrintfOp)) (t : ℕ) : PrintfOp → PrintfObs
  | .set _ => ⟨none, none, none⟩
  | .get => ⟨some (Spec.lastSet tls t h), none, none⟩
  | .errmsg ec func line msg =>
    ⟨none, some ec, if Spec.lastSet tls t h = .null then none else some ⟨Spec.lastSet tls t h, .error, msg, func, line⟩⟩
  | .warn func line msg =>
    ⟨none, none, if Spec.lastSet tls t h = .null then none else some ⟨Spec.lastSet tls t h, .warning, msg, func, line⟩⟩

/-- The state after a history. -/
theorem printf_state (tls : Bool) (h : List (ℕ × PrintfOp)) (t : ℕ) :
    errwarn_getprintf tls t (h.foldl (fun v e => (printfStep tls e v).2) printfInit) = Spec.lastSet tls t h := by
  induction h using List.reverseRecOn with
  | nil => rfl
  | append_singleton h e ih =>
    rw [List.foldl_append]
    unfold Spec.lastSet at ih ⊢
    rw [List.filterMap_append]
    simp only [List.foldl_cons, List.foldl_nil]
    obtain ⟨t', op⟩ := e
    cases op with
    | set p =>
      simp only [printfStep, errwarn_setprintf, errwarn_getprintf, printfVar] at ih ⊢
      cases tls with
      | false =>
        simp [Spec.sees, Function.update_self]
      | true =>
        by_cases ht : t' = t
        · subst ht
          simp [Spec.sees, Function.update_self]
        · have ht' : t ≠ t' := fun h => ht h.symm
          simp only [if_true] at ih ⊢
          rw [Function.update_of_ne ht', ih]
          simp [Spec.sees, ht]
    | get => simpa [printfStep, Spec.sees] using ih
    | errmsg => simpa [printfStep, Spec.sees] using ih
    | warn => simpa [printfStep, Spec.sees] using ih

theorem printf_run_getElem (tls : Bool) (h : List (ℕ × PrintfOp)) (v : PrintfVars) (i : ℕ) :
    (printfRun tls h v)[i]? = h[i]?.map fun e => (printfStep tls e ((h.take i).foldl (fun v e => (printfStep tls e v).2) v)).1 := by
  induction h generalizing v i with
  | nil => simp [printfRun]
  | cons e h ih =>
    cases i with
    | zero => simp [printfRun]
    | succ i => simp [printfRun, ih]

/-- C40. In every interleaving of the operations of any number of threads: `fnft_errwarn_getprintf` returns the pointer that was
set last by the same thread (by any thread, if there is no thread-local storage), initially the default printer; each error message
and each warning is passed exactly once to this function, unless it is NULL, and the error code is returned unchanged. -/
theorem C40_message_callback (tls : Bool) (h : List (ℕ × PrintfOp)) (i : ℕ) :
    (printfRun tls h printfInit)[i]? = h[i]?.map fun e => Spec.printfObs tls (h.take i) e.1 e.2 := by
  rw [printf_run_getElem]
  congr 1
  funext ⟨t, op⟩
  have key := printf_state tls (h.take i) t
  generalize (h.take i).foldl (fun v e => (printfStep tls e v).2) printfInit = v at key ⊢
  cases op with
  | set p => rfl
  | get => simp only [printfStep, Spec.printfObs, key]
  | errmsg ec f l m =>
    simp only [printfStep, Spec.printfObs, errmsg_aux, key]
    by_cases hn : Spec.lastSet tls t (h.take i) = .null <;> simp [hn]
  | warn f l m =>
    simp only [printfStep, Spec.printfObs, warn_aux, key]
    by_cases hn : Spec.lastSet tls t (h.take i) = .null <;> simp [hn]

/-- C40. With thread-local storage, what a thread observes does not depend on the other threads: its observations in any
interleaving are those of its own operations alone. -/
theorem C40_threads_independent (h : List (ℕ × PrintfOp)) (t : ℕ) :
    ((h.zip (printfRun true h printfInit)).filter fun p => p.1.1 = t).map Prod.snd =
      printfRun true (h.filter fun e => e.1 = t) printfInit := by
  have gen : ∀ (h : List (ℕ × PrintfOp)) (v w : PrintfVars), v t = w t →
      ((h.zip (printfRun true h v)).filter fun p => p.1.1 = t).map Prod.snd = printfRun true (h.filter fun e => e.1 = t) w := by
    intro h
    induction h with
    | nil => intro v w _; rfl
    | cons e h ih =>
      intro v w hvw
      obtain ⟨t', op⟩ := e
      by_cases ht : t' = t
      · subst ht
        have h1 : (printfStep true (t', op) v).1 = (printfStep true (t', op) w).1 := by
          cases op <;> simp [printfStep, errwarn_getprintf, errmsg_aux, warn_aux, printfVar, hvw]
        have h2 : (printfStep true (t', op) v).2 t' = (printfStep true (t', op) w).2 t' := by
          cases op <;> simp [printfStep, errwarn_setprintf, printfVar, hvw, Function.update_self]
        simp [printfRun, h1, ih _ _ h2]
      · have h2 : (printfStep true (t', op) v).2 t = w t := by
          cases op <;> simp [printfStep, errwarn_setprintf, printfVar, hvw, Function.update_of_ne (fun h : t = t' => ht h.symm)]
        simp [printfRun, ht, ih _ _ h2]
  exact gen h printfInit printfInit rfl

/-- A history with two threads. -/
example : printfRun true [(1, .set .null), (2, .errmsg 5 "f" 1 "m"), (1, .errmsg 3 "g" 2 "n"), (2, .set (.user 7)), (2, .warn "f" 3 "w"), (1, .get)]
      printfInit =
    [⟨none, none, none⟩, ⟨none, some 5, some ⟨.default, .error, "m", "f", 1⟩⟩, ⟨none, some 3, none⟩, ⟨none, none, none⟩,
      ⟨none, none, some ⟨.user 7, .warning, "w", "f", 3⟩⟩, ⟨some .null, none, none⟩] := by decide

/-! ## C39: error codes -/

/-- No call in the execution fails. -/
inductive Spec.Succeeds : Routine → Prop
  | done : Spec.Succeeds .done
  | call {sub rest} : Spec.Succeeds sub → Spec.Succeeds rest → Spec.Succeeds (.call sub rest)

/-- The first error of the execution is `ec` with message `m`, raised `k` levels of calls below. -/
inductive Spec.FirstError : Routine → ℤ → String → ℕ → Prop
  | here {ec m} : Spec.FirstError (.fail ec m) ec m 0
  | inside {sub rest ec m k} : Spec.FirstError sub ec m k → Spec.FirstError (.call sub rest) ec m (k + 1)
  | later {sub rest ec m k} : Spec.Succeeds sub → Spec.FirstError rest ec m k → Spec.FirstError (.call sub rest) ec m k

/-- The codes that the macros raise (fnft_errwarn.h:52-94). -/
def Spec.errorCode (ec : ℤ) : Prop := 1 ≤ ec ∧ ec ≤ 8

/-- All codes raised in the execution are error codes. -/
def Spec.Codes : Routine → Prop
  | .done => True
  | .fail ec _ => Spec.errorCode ec
  | .call sub rest => Spec.Codes sub ∧ Spec.Codes rest

/-- C39. A routine returns `FNFT_SUCCESS` exactly when none of its (direct and indirect) subroutines fails; then nothing is printed. -/
theorem C39_success (p : Routine) (h : Spec.Codes p) :
    ((p.run).1 = SUCCESS ↔ Spec.Succeeds p) ∧ (Spec.Succeeds p → (p.run).2 = []) := by
  induction p with
  | done => exact ⟨⟨fun _ => .done, fun _ => rfl⟩, fun _ => rfl⟩
  | fail ec m =>
    refine ⟨⟨fun h' => ?_, fun h' => by cases h'⟩, fun h' => by cases h'⟩
    have h1 : ec = 0 := h'
    have := h.1
    omega
  | call sub rest ihs ihr =>
    obtain ⟨s1, s2⟩ := ihs h.1
    obtain ⟨r1, r2⟩ := ihr h.2
    by_cases hs : sub.run.1 = SUCCESS
    · have e : (Routine.call sub rest).run = (rest.run.1, sub.run.2 ++ rest.run.2) := by simp [Routine.run, hs]
      rw [e]
      refine ⟨⟨fun h' => .call (s1.mp hs) (r1.mp h'), fun h' => ?_⟩, fun h' => ?_⟩
      · cases h' with | call a b => exact r1.mpr b
      · cases h' with | call a b => simp [s2 a, r2 b]
    · have e : (Routine.call sub rest).run = (E_SUBROUTINE sub.run.1, sub.run.2 ++ ["Subroutine failure."]) := by
        simp [Routine.run, hs]
      rw [e]
      refine ⟨⟨fun h' => absurd ?_ hs, fun h' => ?_⟩, fun h' => ?_⟩
      · unfold E_SUBROUTINE SUCCESS at *
        simpa using h'
      · cases h' with | call a b => exact absurd (s1.mpr a) hs
      · cases h' with | call a b => exact absurd (s1.mpr a) hs

/-- C39. An error is passed through call chains of any depth: the routine in which it occurs returns the code `ec > 0`, and every
routine above returns `-ec`; one message is printed by the routine in which it occurs and one by each routine above. -/
theorem C39_propagation (p : Routine) (h : Spec.Codes p) {ec : ℤ} {m : String} {k : ℕ} (hf : Spec.FirstError p ec m k) :
    (p.run).1 = (if k = 0 then ec else -ec) ∧ (p.run).2 = m :: List.replicate k "Subroutine failure." := by
  induction hf with
  | here => exact ⟨rfl, rfl⟩
  | @inside sub rest ec m k hf ih =>
    obtain ⟨i1, i2⟩ := ih h.1
    have hec : 1 ≤ ec := by
      have gen : ∀ p ec m k, Spec.FirstError p ec m k → Spec.Codes p → 1 ≤ ec := by
        intro p ec m k hp
        induction hp with
        | here => exact fun h => h.1
        | inside _ ih => exact fun h => ih h.1
        | later _ _ ih => exact fun h => ih h.2
      exact gen _ _ _ _ hf h.1
    have hs : sub.run.1 ≠ SUCCESS := by rw [i1]; unfold SUCCESS; split_ifs <;> omega
    have e : (Routine.call sub rest).run = (E_SUBROUTINE sub.run.1, sub.run.2 ++ ["Subroutine failure."]) := by
      simp [Routine.run, hs]
    rw [e, i1, i2]
    refine ⟨?_, ?_⟩
    · unfold E_SUBROUTINE
      rw [if_neg (by omega : ¬ k + 1 = 0)]
      split_ifs with h0
      · rw [abs_of_pos (by omega)]
      · rw [abs_neg, abs_of_pos (by omega)]
    · rw [List.cons_append, ← List.replicate_succ']
  | @later sub rest ec m k hsu hf ih =>
    obtain ⟨i1, i2⟩ := ih h.2
    have hs := (C39_success sub h.1).1.mpr hsu
    have hm := (C39_success sub h.1).2 hsu
    have e : (Routine.call sub rest).run = (rest.run.1, sub.run.2 ++ rest.run.2) := by simp [Routine.run, hs]
    rw [e, hm, i1, i2]
    exact ⟨rfl, rfl⟩

/-- C39. One of the two theorems above always applies. -/
theorem C39_cases (p : Routine) : Spec.Succeeds p ∨ ∃ ec m k, Spec.FirstError p ec m k := by
  induction p with
  | done => exact .inl .done
  | fail ec m => exact .inr ⟨ec, m, 0, .here⟩
  | call sub rest ihs ihr =>
    rcases ihs with hs | ⟨ec, m, k, hs⟩
    · rcases ihr with hr | ⟨ec, m, k, hr⟩
      · exact .inl (.call hs hr)
      · exact .inr ⟨ec, m, k, .later hs hr⟩
    · exact .inr ⟨ec, m, k + 1, .inside hs⟩

/-- An execution with an error three levels below, after a subroutine that succeeds. -/
example : Spec.FirstError (.call .done (.call (.call (.call (.fail 3 "Division by zero.") .done) .done) .done)) 3 "Division by zero." 3 ∧
    (Routine.call .done (.call (.call (.call (.fail 3 "Division by zero.") .done) .done) .done)).run.1 = -3 :=
  ⟨.later .done (.inside (.inside (.inside .here))), by decide⟩

/-- C39. `fnft_nsev` reports invalid arguments (and only then in this way) before it changes any output or the options. `s` contains
the output arguments: the arrays, and the number `K`. -/
theorem C39_nsev_invalid_arguments (roots : RootFinder) (D : ℕ) (q : Option (Buf ℂ)) (T : Option (ℝ × ℝ)) (M : ℕ) (XI : Option (ℝ × ℝ))
    (kappa : ℤ) (o : NsevOpts) (g : ℕ → Garbage) (s : NsevSt)
    (h : D < 2 ∨ q = none ∨ T = none ∨ (∃ T0 T1, T = some (T0, T1) ∧ T1 ≤ T0) ∨
      (s.contspec ≠ none ∧ (XI = none ∨ ∃ X0 X1, XI = some (X0, X1) ∧ X1 ≤ X0)) ∨ (kappa ≠ 1 ∧ kappa ≠ -1) ∨
      (s.bs ≠ none ∧ s.K = none) ∨ (∃ n, o.disc = .other n) ∨
      (nse_degree o.disc = 0 ∧ o.loc ≠ .NEWTON ∧ kappa = 1 ∧ s.bs ≠ none)) :
    fnft_nsev roots D q T M XI kappa o g s = some (EC_INVALID_ARGUMENT, s, o) := by
  have hr : nsevReject D q T XI kappa o s := by
    unfold nsevReject
    rcases h with h | h | h | ⟨T0, T1, h, h'⟩ | ⟨h, h' | ⟨T0, T1, h', h''⟩⟩ | h | ⟨h, h'⟩ | ⟨n, h⟩ | ⟨h1, h2, h3, h4⟩
    · exact .inl h
    · exact .inr (.inl h)
    · exact .inr (.inr (.inl (by rintro ⟨X, hX, -⟩; rw [h] at hX; cases hX)))
    · exact .inr (.inr (.inl (by rintro ⟨X, hX, hX'⟩; rw [h] at hX; cases hX; exact absurd hX' (not_lt.mpr h'))))
    · refine .inr (.inr (.inr (.inl ⟨Option.isSome_iff_ne_none.mpr h, ?_⟩)))
      rintro ⟨X, hX, -⟩; rw [h'] at hX; cases hX
    · refine .inr (.inr (.inr (.inl ⟨Option.isSome_iff_ne_none.mpr h, ?_⟩)))
      rintro ⟨X, hX, hX'⟩; rw [h'] at hX; cases hX; exact absurd hX' (not_lt.mpr h'')
    · refine .inr (.inr (.inr (.inr (.inl ?_))))
      intro hk
      rcases abs_eq (zero_le_one : (0 : ℤ) ≤ 1) |>.mp hk with hk | hk
      · exact h.1 hk
      · exact h.2 hk
    · exact .inr (.inr (.inr (.inr (.inr (.inl ⟨Option.isSome_iff_ne_none.mpr h, h'⟩)))))
    · exact .inr (.inr (.inr (.inr (.inr (.inr (.inl ⟨n, h⟩))))))
    · by_cases hn : ∃ n, o.disc = .other n
      · exact .inr (.inr (.inr (.inr (.inr (.inr (.inl hn))))))
      · push Not at hn
        exact .inr (.inr (.inr (.inr (.inr (.inr (.inr ⟨(nsevFast_iff hn).mpr h1, h2, h3, Option.isSome_iff_ne_none.mpr h4⟩))))))
  unfold fnft_nsev
  rw [if_pos hr]

end FNFT

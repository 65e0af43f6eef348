import Verif.Proofs.PolyTwo
import Verif.Proofs.PolyRescale
import Mathlib.Tactic.IntervalCases
import Mathlib.Algebra.BigOperators.Fin
/-! The schedules of FFT products for matrices of polynomials. -/
namespace FNFT
open Finset Kiss Polynomial

/-- Abstract machine: which operand's spectrum is still in which buffer (`false` = buf1), and what the
result entries hold. -/
abbrev AbsSt := Option (Bool × (Bool × ℕ)) × (ℕ → CellSt)

def resolve (ret : Option (Bool × (Bool × ℕ))) (phys : Bool) : Option (Bool × ℕ) → Option (Bool × ℕ)
  | some x => some x
  | none => match ret with
    | some (b, x) => if b = phys then some x else none
    | none => none

noncomputable def absCall (M : Bool × ℕ → ℂ[X]) (mode : ℕ) (c : Call) (s : AbsSt) : Option AbsSt :=
  match resolve s.1 c.swap c.fst, resolve s.1 (!c.swap) c.snd with
  | some x, some y =>
    match (s.2 c.res).step mode (M x * M y) with
    | some t => some (some (!c.swap, y), Function.update s.2 c.res t)
    | none => none
  | _, _ => none

noncomputable def absPhase (M : Bool × ℕ → ℂ[X]) (mode : ℕ) : List Call → AbsSt → Option AbsSt
  | [], s => some s
  | c :: cs, s => (absCall M mode c s).bind (absPhase M mode cs)

noncomputable def absPhases (M : Bool × ℕ → ℂ[X]) : List ℕ → List (List Call) → AbsSt → Option AbsSt
  | m :: ms, ph :: phs, s => (absPhase M m ph s).bind (absPhases M ms phs)
  | _, _, s => some s

/-- Relation between the memory and the abstract state. -/
structure Rel (K deg len ro rs : ℕ) (M : Bool × ℕ → ℂ[X]) (res0 : Buf ℂ) (L0 L1 L2 : ℕ)
    (s : Buf ℂ × Bufs) (a : AbsSt) : Prop where
  rl : s.1.len = res0.len
  l0 : s.2.b0.len = L0
  l1 : s.2.b1.len = L1
  l2 : s.2.b2.len = L2
  ret : ∀ ph x, a.1 = some (ph, x) → (if ph then s.2.b2 else s.2.b1).Holds 0 len (spec len (M x))
  cells : ∀ e, e < K → (a.2 e).Ok deg len s.1 (ro + e * rs)
  fits : ∀ e R, a.2 e = .sp R → ro + len ≤ rs
  frame : ∀ e t, e < K → t < ro → s.1.rd (e * rs + t) = res0.rd (e * rs + t)

theorem CellSt.Ok.congr {deg len ro : ℕ} {b b' : Buf ℂ} {c : CellSt} (h : c.Ok deg len b ro) {n : ℕ}
    (hn1 : 2 * deg + 1 ≤ n) (hn2 : ∀ R, c = .sp R → len ≤ n)
    (hb : ∀ j, j < n → b'.rd (ro + j) = b.rd (ro + j)) : c.Ok deg len b' ro := by
  cases c with
  | empty => trivial
  | co R => intro i hi; rw [hb i (by omega)]; exact h i hi
  | sp R => exact ⟨h.1, fun i hi => by rw [hb i (by have := hn2 R rfl; omega)]; exact h.2 i hi⟩

section
variable {K deg len ro rs : ℕ} {M : Bool × ℕ → ℂ[X]} {res0 : Buf ℂ} {L0 L1 L2 : ℕ} {pf pi : Plan}
  {pt : Bool × ℕ → Buf ℂ × ℕ}

theorem absCall_inv {mode : ℕ} {c : Call} {a a' : AbsSt} (h : absCall M mode c a = some a') :
    ∃ x y t, resolve a.1 c.swap c.fst = some x ∧ resolve a.1 (!c.swap) c.snd = some y ∧
      (a.2 c.res).step mode (M x * M y) = some t ∧
      a' = (some (!c.swap, y), Function.update a.2 c.res t) := by
  unfold absCall at h
  split at h
  · rename_i x y hx hy
    split at h
    · rename_i t ht
      exact ⟨x, y, t, hx, hy, ht, (Option.some.inj h).symm⟩
    · cases h
  · cases h

theorem step_sp {mode : ℕ} {c : CellSt} {P R : ℂ[X]} (h : c.step mode P = some (.sp R)) :
    mode = 2 ∨ mode = 4 := by
  unfold CellSt.step at h
  split at h <;> simp at h <;> simp

theorem runCall_spec (hlen : twoPolysLen deg = some len) (hpf : PlanOK pf len false)
    (hpi : PlanOK pi len true) (hL0 : len ≤ L0) (hL1 : len ≤ L1) (hL2 : len ≤ L2)
    (hM : ∀ q, (M q).natDegree ≤ deg)
    (hp : ∀ q : Bool × ℕ, q.2 < K → (pt q).1.Holds (pt q).2 (deg + 1) (M q).coeff)
    (hres : K * rs ≤ res0.len) (hdeg : ro + (2 * deg + 1) ≤ rs) {mode : ℕ}
    (hext : ro + ext deg len mode ≤ rs) {c : Call} (hc : c.res < K) (hc1 : ∀ q ∈ c.fst, q.2 < K)
    (hc2 : ∀ q ∈ c.snd, q.2 < K) {s : Buf ℂ × Bufs} {a a' : AbsSt}
    (hR : Rel K deg len ro rs M res0 L0 L1 L2 s a) (ha : absCall M mode c a = some a') :
    ∃ s', runCall deg pt ro rs pf pi mode c s = some s' ∧ Rel K deg len ro rs M res0 L0 L1 L2 s' a' := by
  obtain ⟨x, y, t, hx, hy, ht, rfl⟩ := absCall_inv ha
  obtain ⟨res, B⟩ := s
  obtain ⟨h1, h2, h3, h4, h5, h6, h7, h8⟩ := hR
  simp only at h1 h2 h3 h4 h5 h6 h7 h8
  have hmul : (c.res + 1) * rs ≤ K * rs := Nat.mul_le_mul_right _ hc
  have hmul' : (c.res + 1) * rs = c.res * rs + rs := by ring
  have hop : ∀ (ph : Bool) (q : Option (Bool × ℕ)) (z : Bool × ℕ), (∀ r ∈ q, r.2 < K) →
      resolve a.1 ph q = some z →
      Operand deg len (q.map pt) (if ph then B.b2 else B.b1) (M z) := by
    intro ph q z hq hz
    refine ⟨hM z, ?_⟩
    cases q with
    | some r =>
      simp only [resolve, Option.some_inj] at hz; subst hz
      exact hp r (hq r rfl)
    | none =>
      simp only [resolve] at hz
      split at hz
      · rename_i b x' heq
        split_ifs at hz with hb
        cases hz; subst hb
        exact h5 _ _ heq
      · cases hz
  have hsw1 : (swapB c.swap B).b1 = if c.swap then B.b2 else B.b1 := by
    unfold swapB; split_ifs <;> rfl
  have hsw2 : (swapB c.swap B).b2 = if (!c.swap) then B.b2 else B.b1 := by
    unfold swapB; cases c.swap <;> rfl
  have hsw0 : (swapB c.swap B).b0 = B.b0 := by
    unfold swapB; split_ifs <;> rfl
  obtain ⟨res', B', e, m, n0, n1, n2, hs, hst, hfr⟩ := twoPolys_spec (mode := mode)
    (p1 := c.fst.map pt) (p2 := c.snd.map pt) (res := res)
    (ro := ro + c.res * rs) (B := swapB c.swap B) (P1 := M x) (P2 := M y) (st := a.2 c.res) (st' := t)
    hlen hpf hpi (by rw [hsw0]; omega) (by rw [hsw1]; split_ifs <;> omega)
    (by rw [hsw2]; split_ifs <;> omega) (by rw [hsw1]; exact hop _ _ _ hc1 hx)
    (by rw [hsw2]; exact hop _ _ _ hc2 hy) (h6 _ hc) ht (by omega)
  refine ⟨(res', swapB c.swap B'), ?_, ?_⟩
  · rw [runCall, e]; rfl
  · refine ⟨by simp only; omega, ?_, ?_, ?_, ?_, ?_, ?_, ?_⟩
    · have : (swapB c.swap B').b0 = B'.b0 := by unfold swapB; split_ifs <;> rfl
      simp only [this, n0, hsw0, h2]
    · cases hcs : c.swap <;> simp [hcs, swapB] at n1 n2 ⊢ <;> omega
    · cases hcs : c.swap <;> simp [hcs, swapB] at n1 n2 ⊢ <;> omega
    · intro ph x' hh
      simp only [Option.some_inj, Prod.mk.injEq] at hh
      obtain ⟨rfl, rfl⟩ := hh
      have : (if (!c.swap) then (swapB c.swap B').b2 else (swapB c.swap B').b1) = B'.b2 := by
        unfold swapB; cases c.swap <;> rfl
      simp only [this]; exact hs
    · intro e' he'
      simp only
      by_cases hee : e' = c.res
      · subst hee; rw [Function.update_self]; exact hst
      · rw [Function.update_of_ne hee]
        refine (h6 e' he').congr (n := rs - ro) (by omega) (fun R hR => by have := h7 e' R hR; omega) ?_
        intro j hj
        refine hfr _ ?_
        rcases Nat.lt_or_gt_of_ne hee with h | h
        · have a1 : (e' + 1) * rs ≤ c.res * rs := Nat.mul_le_mul_right _ h
          have a2 : (e' + 1) * rs = e' * rs + rs := by ring
          omega
        · have a1 : (c.res + 1) * rs ≤ e' * rs := Nat.mul_le_mul_right _ h
          omega
    · intro e' R hR
      simp only at hR
      by_cases hee : e' = c.res
      · subst hee; rw [Function.update_self] at hR
        subst hR
        have : ext deg len mode = len := by
          rcases step_sp ht with rfl | rfl <;> rfl
        omega
      · rw [Function.update_of_ne hee] at hR; exact h7 e' R hR
    · intro e' t' he' ht'
      simp only
      rw [hfr _ ?_, h8 e' t' he' ht']
      rcases Nat.lt_or_ge c.res e' with h | h
      · have a1 : (c.res + 1) * rs ≤ e' * rs := Nat.mul_le_mul_right _ h
        omega
      · have a1 : e' * rs ≤ c.res * rs := Nat.mul_le_mul_right _ h
        omega

/-- All calls of a schedule refer to existing entries. -/
def CallsIn (K : ℕ) (cs : List Call) : Prop :=
  ∀ c ∈ cs, c.res < K ∧ (∀ q ∈ c.fst, q.2 < K) ∧ ∀ q ∈ c.snd, q.2 < K

theorem runPhase_spec (hlen : twoPolysLen deg = some len) (hpf : PlanOK pf len false)
    (hpi : PlanOK pi len true) (hL0 : len ≤ L0) (hL1 : len ≤ L1) (hL2 : len ≤ L2)
    (hM : ∀ q, (M q).natDegree ≤ deg)
    (hp : ∀ q : Bool × ℕ, q.2 < K → (pt q).1.Holds (pt q).2 (deg + 1) (M q).coeff)
    (hres : K * rs ≤ res0.len) (hdeg : ro + (2 * deg + 1) ≤ rs) {mode : ℕ}
    (hext : ro + ext deg len mode ≤ rs) : ∀ (cs : List Call), CallsIn K cs →
    ∀ {s : Buf ℂ × Bufs} {a a' : AbsSt},
    Rel K deg len ro rs M res0 L0 L1 L2 s a → absPhase M mode cs a = some a' →
    ∃ s', runPhase deg pt ro rs pf pi mode cs s = some s' ∧ Rel K deg len ro rs M res0 L0 L1 L2 s' a' := by
  intro cs
  induction cs with
  | nil => intro _ s a a' hR ha; cases ha; exact ⟨s, rfl, hR⟩
  | cons c cs ih =>
    intro hcs s a a' hR ha
    rw [absPhase, Option.bind_eq_some_iff] at ha
    obtain ⟨a1, ha1, ha2⟩ := ha
    obtain ⟨q1, q2, q3⟩ := hcs c (List.mem_cons_self ..)
    obtain ⟨s1, e1, R1⟩ := runCall_spec hlen hpf hpi hL0 hL1 hL2 hM hp hres hdeg hext q1 q2 q3 hR ha1
    obtain ⟨s2, e2, R2⟩ := ih (fun c' h => hcs c' (List.mem_cons_of_mem _ h)) R1 ha2
    refine ⟨s2, ?_, R2⟩
    rw [runPhase, e1]; exact e2

theorem runPhases_spec (hlen : twoPolysLen deg = some len) (hpf : PlanOK pf len false)
    (hpi : PlanOK pi len true) (hL0 : len ≤ L0) (hL1 : len ≤ L1) (hL2 : len ≤ L2)
    (hM : ∀ q, (M q).natDegree ≤ deg)
    (hp : ∀ q : Bool × ℕ, q.2 < K → (pt q).1.Holds (pt q).2 (deg + 1) (M q).coeff)
    (hres : K * rs ≤ res0.len) (hdeg : ro + (2 * deg + 1) ≤ rs) : ∀ (ms : List ℕ) (phs : List (List Call)),
    (∀ m ∈ ms, ro + ext deg len m ≤ rs) → (∀ cs ∈ phs, CallsIn K cs) →
    ∀ {s : Buf ℂ × Bufs} {a a' : AbsSt},
    Rel K deg len ro rs M res0 L0 L1 L2 s a → absPhases M ms phs a = some a' →
    ∃ s', runPhases deg pt ro rs pf pi ms phs s = some s' ∧ Rel K deg len ro rs M res0 L0 L1 L2 s' a' := by
  intro ms
  induction ms with
  | nil => intro phs _ _ s a a' hR ha; cases ha; exact ⟨s, rfl, hR⟩
  | cons m ms ih =>
    intro phs hms hph s a a' hR ha
    cases phs with
    | nil => cases ha; exact ⟨s, rfl, hR⟩
    | cons ph phs =>
      rw [absPhases, Option.bind_eq_some_iff] at ha
      obtain ⟨a1, ha1, ha2⟩ := ha
      obtain ⟨s1, e1, R1⟩ := runPhase_spec hlen hpf hpi hL0 hL1 hL2 hM hp hres hdeg
        (hms m (List.mem_cons_self ..)) ph (hph ph (List.mem_cons_self ..)) hR ha1
      obtain ⟨s2, e2, R2⟩ := ih phs (fun m' h => hms m' (List.mem_cons_of_mem _ h))
        (fun c' h => hph c' (List.mem_cons_of_mem _ h)) R1 ha2
      refine ⟨s2, ?_, R2⟩
      rw [runPhases, e1]; exact e2
end

/-- The schedule computes the matrix product. -/
structure KindOK (k : Kind) : Prop where
  pos : 0 < k.m
  calls : ∀ cs ∈ k.calls, CallsIn (k.m * k.m) cs
  nospace : ∀ m ∈ k.modes false, m = 0 ∨ m = 1
  prod : ∀ (space : Bool) (M : Bool × ℕ → ℂ[X]), ∃ ret cells,
    absPhases M (k.modes space) k.calls (none, fun _ => .empty) = some (ret, cells) ∧
    ∀ i j, i < k.m → j < k.m →
      cells (k.m * i + j) = .co (∑ l ∈ range k.m, M (false, k.m * i + l) * M (true, k.m * l + j))

theorem kind2_ok : KindOK kind2 := by
  refine ⟨by decide, ?_, ?_, ?_⟩
  · unfold CallsIn; decide
  · decide
  · intro space M
    cases space
    all_goals
      refine ⟨_, _, rfl, ?_⟩
      intro i j hi hj
      change i < 2 at hi; change j < 2 at hj
      interval_cases i <;> interval_cases j <;>
        simp [kind2, Function.update, Finset.sum_range_succ, mul_comm]

theorem kind3_ok : KindOK kind3 := by
  refine ⟨by decide, ?_, ?_, ?_⟩
  · unfold CallsIn; decide
  · decide
  · intro space M
    cases space
    all_goals
      refine ⟨_, _, rfl, ?_⟩
      intro i j hi hj
      change i < 3 at hi; change j < 3 at hj
      interval_cases i <;> interval_cases j <;>
        simp [kind3, Function.update, Finset.sum_range_succ, mul_comm]

end FNFT

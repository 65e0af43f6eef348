import Verif.Model.AknsFscatter
import Verif.Proofs.AknsTab
/-!
# Memory behaviour of the sample loops of `akns_fscatter`
-/
namespace FNFT
open Finset

/-- Coefficients read by an expression. -/
def Ex.reads : Ex → List (ℕ × ℕ)
  | num _ => []
  | e _ _ => []
  | p t k => [(t, k)]
  | add a b => reads a ++ reads b
  | sub a b => reads a ++ reads b
  | mul a b => reads a ++ reads b
  | div a b => reads a ++ reads b
  | neg a => reads a

theorem Ex.eval_val {env : ℕ → ℕ → ℂ} {rdp : ℕ → ℕ → Option ℂ} {f : ℕ → ℕ → ℂ} (x : Ex)
    (h : ∀ t k, (t, k) ∈ x.reads → rdp t k = some (f t k)) : x.eval env rdp = some (x.val env f) := by
  induction x with
  | num n => rfl
  | e s c => rfl
  | p t k => exact h t k (by simp [reads])
  | add a b iha ihb | sub a b iha ihb | mul a b iha ihb | div a b iha ihb =>
    simp only [eval, val, iha fun t k hm => h t k (by simp [reads, hm]),
      ihb fun t k hm => h t k (by simp [reads, hm]), Option.bind_eq_bind, Option.bind_some]; rfl
  | neg a iha =>
    simp only [eval, val, iha h, Option.bind_eq_bind, Option.bind_some]; rfl

/-- Static check of a loop body: every coefficient is assigned at most once and inside its polynomial,
and every coefficient that is read was assigned before (`acc` = coefficients assigned so far). -/
def wfAsgs (nt deg : ℕ) : List Asg → List (ℕ × ℕ) → Bool
  | [], _ => true
  | a :: l, acc => decide (a.t < nt) && decide (a.k ≤ deg) && a.rhs.reads.all (fun x => acc.contains x) &&
      !acc.contains (a.t, a.k) && wfAsgs nt deg l ((a.t, a.k) :: acc)

/-- Every coefficient is assigned. -/
def coversAll (nt deg : ℕ) (l : List Asg) : Bool :=
  (List.range nt).all fun t => (List.range (deg + 1)).all fun k => l.any fun a => a.t == t && a.k == k

/-- A loop body is fine if it is well-formed and either the buffer was cleared before or every
coefficient is assigned. -/
def Tab.wfN (nt : ℕ) (tab : Tab) (deg : ℕ) : Bool :=
  wfAsgs nt deg tab.asg [] && (tab.zero || coversAll nt deg tab.asg)

/-- `Tab.wfN` for the four polynomials of a 2x2 matrix. -/
abbrev Tab.wf (tab : Tab) (deg : ℕ) : Bool := tab.wfN 4 deg

def keys (acc : List (ℕ × ℕ × ℂ)) : List (ℕ × ℕ) := acc.map fun x => (x.1, x.2.1)

theorem execAsgs_spec (nt deg : ℕ) (base : ℕ → ℕ) (env : ℕ → ℕ → ℂ) (init : ℕ → ℕ → Option ℂ)
    (hinj : ∀ t k t' k', t < nt → k ≤ deg → t' < nt → k' ≤ deg → base t + k = base t' + k' → t = t' ∧ k = k')
    (l : List Asg) (acc : List (ℕ × ℕ × ℂ)) (p : Buf ℂ) (hw : wfAsgs nt deg l (keys acc) = true)
    (hlen : ∀ t k, t < nt → k ≤ deg → base t + k < p.len)
    (hp : ∀ t k, t < nt → k ≤ deg →
      p.rd (base t + k) = if (t, k) ∈ keys acc then some (look acc t k) else init t k)
    (hacc : ∀ x ∈ keys acc, x.1 < nt ∧ x.2 ≤ deg) :
    ∃ p', execAsgs base env l p = some p' ∧ p'.len = p.len ∧
      (∀ t k, t < nt → k ≤ deg → p'.rd (base t + k) =
        if (t, k) ∈ keys (runVals env l acc) then some (look (runVals env l acc) t k) else init t k) ∧
      (∀ j, (∀ t k, t < nt → k ≤ deg → j ≠ base t + k) → p'.rd j = p.rd j) ∧
      (∀ x, x ∈ keys (runVals env l acc) ↔ x ∈ keys acc ∨ ∃ a ∈ l, x = (a.t, a.k)) := by
  induction l generalizing acc p with
  | nil => exact ⟨p, rfl, rfl, hp, fun _ _ => rfl, fun x => by simp [runVals]⟩
  | cons a l ih =>
    simp only [wfAsgs, Bool.and_eq_true, decide_eq_true_eq, List.all_eq_true, List.contains_iff_mem,
      Bool.not_eq_true', ← Bool.not_eq_true] at hw
    obtain ⟨⟨⟨⟨h1, h2⟩, h3⟩, h4⟩, h5⟩ := hw
    have hev : a.rhs.eval env (fun t k => p.rd (base t + k)) = some (a.rhs.val env (look acc)) := by
      refine Ex.eval_val _ fun t k hm => ?_
      have hk := h3 _ hm
      obtain ⟨ht, hk'⟩ := hacc _ hk
      rw [hp t k ht hk', if_pos hk]
    set v := a.rhs.val env (look acc) with hv
    have hlt := hlen a.t a.k h1 h2
    have hstep : execAsg base env a p = some (p.set (base a.t + a.k) v) := by
      simp only [execAsg, hev, Option.bind_eq_bind, Option.bind_some]
      exact Buf.wr_eq _ hlt
    obtain ⟨p', e1, l1, r1, f1, k1⟩ := ih ((a.t, a.k, v) :: acc) (p.set (base a.t + a.k) v) h5
      (fun t k ht hk => by simpa using hlen t k ht hk)
      (fun t k ht hk => by
        rw [Buf.rd_set _ hlt]
        by_cases he : t = a.t ∧ k = a.k
        · obtain ⟨rfl, rfl⟩ := he
          simp [keys, look]
        · rw [if_neg (fun hh => he (hinj _ _ _ _ ht hk h1 h2 hh)), hp t k ht hk]
          have : ¬ (a.t = t ∧ a.k = k) := fun hh => he ⟨hh.1.symm, hh.2.symm⟩
          have hmem : ((t, k) ∈ keys ((a.t, a.k, v) :: acc)) ↔ (t, k) ∈ keys acc := by
            simp only [keys, List.map_cons, List.mem_cons, Prod.mk.injEq, he, false_or]
          simp only [hmem, look, if_neg this])
      (fun x hx => by
        simp only [keys, List.map_cons, List.mem_cons] at hx
        rcases hx with rfl | hx
        · exact ⟨h1, h2⟩
        · exact hacc x hx)
    refine ⟨p', ?_, by simpa using l1, r1, ?_, ?_⟩
    · simp only [execAsgs, hstep, Option.bind_eq_bind, Option.bind_some]; exact e1
    · intro j hj
      rw [f1 j hj, Buf.rd_set _ hlt, if_neg (hj _ _ h1 h2)]
    · intro x
      rw [runVals, k1 x]
      simp only [keys, List.map_cons, List.mem_cons, exists_eq_or_imp]
      tauto

theorem look_of_not_mem {acc : List (ℕ × ℕ × ℂ)} {t k : ℕ} (h : (t, k) ∉ keys acc) : look acc t k = 0 := by
  induction acc with
  | nil => rfl
  | cons a l ih =>
    obtain ⟨t', k', v⟩ := a
    simp only [keys, List.map_cons, List.mem_cons, not_or] at h
    rw [look, if_neg (fun hh => h.1 (by rw [hh.1, hh.2])), ih h.2]

theorem sum_look (deg t : ℕ) (w : ℕ → ℂ) (acc : List (ℕ × ℕ × ℂ)) (hk : ∀ x ∈ keys acc, x.2 ≤ deg)
    (hn : (keys acc).Nodup) : ∑ k ∈ range (deg + 1), look acc t k * w k = sumT t w acc := by
  induction acc with
  | nil => simp [look, sumT]
  | cons a l ih =>
    obtain ⟨t', k', v⟩ := a
    simp only [keys, List.map_cons, List.nodup_cons, List.mem_cons, forall_eq_or_imp] at hk hn
    rw [sumT, ← ih hk.2 hn.2]
    split_ifs with ht
    · subst ht
      have hz : look l t' k' = 0 := look_of_not_mem hn.1
      have : ∀ k ∈ range (deg + 1), look ((t', k', v) :: l) t' k * w k =
          (if k = k' then v * w k else 0) + look l t' k * w k := by
        intro k _
        simp only [look]
        by_cases hkk : k = k'
        · subst hkk; simp [hz]
        · simp [hkk, Ne.symm hkk]
      rw [sum_congr rfl this, sum_add_distrib, sum_ite_eq' , if_pos (by simp; omega)]
    · rw [zero_add]
      refine sum_congr rfl fun k _ => ?_
      rw [look, if_neg (fun hh => ht hh.1)]

theorem runVals_nodup (nt deg : ℕ) (env : ℕ → ℕ → ℂ) (l : List Asg) (acc : List (ℕ × ℕ × ℂ))
    (hw : wfAsgs nt deg l (keys acc) = true) (hn : (keys acc).Nodup) (hk : ∀ x ∈ keys acc, x.2 ≤ deg) :
    (keys (runVals env l acc)).Nodup ∧ ∀ x ∈ keys (runVals env l acc), x.2 ≤ deg := by
  induction l generalizing acc with
  | nil => exact ⟨hn, hk⟩
  | cons a l ih =>
    simp only [wfAsgs, Bool.and_eq_true, decide_eq_true_eq, List.all_eq_true, List.contains_iff_mem,
      Bool.not_eq_true', ← Bool.not_eq_true] at hw
    obtain ⟨⟨⟨⟨h1, h2⟩, h3⟩, h4⟩, h5⟩ := hw
    refine ih _ h5 ?_ ?_
    · simp only [keys, List.map_cons, List.nodup_cons]
      exact ⟨h4, hn⟩
    · intro x hx
      simp only [keys, List.map_cons, List.mem_cons] at hx
      rcases hx with rfl | hx
      · exact h2
      · exact hk x hx

/-- A loop body that passes the check, run on a sample whose four polynomials are stored at
`base 0, …, base 3`, writes all its coefficients and nothing else. -/
theorem Tab.exec {tab : Tab} {nt deg : ℕ} (hw : tab.wfN nt deg = true) (base : ℕ → ℕ) (env : ℕ → ℕ → ℂ) (p : Buf ℂ)
    (hinj : ∀ t k t' k', t < nt → k ≤ deg → t' < nt → k' ≤ deg → base t + k = base t' + k' → t = t' ∧ k = k')
    (hlen : ∀ t k, t < nt → k ≤ deg → base t + k < p.len)
    (hz : tab.zero = true → ∀ t k, t < nt → k ≤ deg → p.rd (base t + k) = some 0) :
    ∃ p', execAsgs base env tab.asg p = some p' ∧ p'.len = p.len ∧
      (∀ t k, t < nt → k ≤ deg → p'.rd (base t + k) = some (look (runVals env tab.asg []) t k)) ∧
      (∀ j, (∀ t k, t < nt → k ≤ deg → j ≠ base t + k) → p'.rd j = p.rd j) := by
  simp only [wfN, Bool.and_eq_true, Bool.or_eq_true] at hw
  obtain ⟨p', e1, l1, r1, f1, k1⟩ := execAsgs_spec nt deg base env (fun t k => p.rd (base t + k)) hinj tab.asg [] p hw.1
    hlen (fun t k _ _ => by simp [keys]) (by simp [keys])
  refine ⟨p', e1, l1, fun t k ht hk => ?_, f1⟩
  rw [r1 t k ht hk]
  split_ifs with hm
  · rfl
  · rcases hw.2 with h | h
    · rw [hz h t k ht hk, look_of_not_mem hm]
    · exfalso
      apply hm
      rw [k1]
      right
      simp only [coversAll, List.all_eq_true, List.mem_range, List.any_eq_true, Bool.and_eq_true, beq_iff_eq] at h
      obtain ⟨a, ha, h1, h2⟩ := h t ht k (by omega)
      exact ⟨a, ha, by rw [h1, h2]⟩

end FNFT

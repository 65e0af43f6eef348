import Verif.Proofs.InvSol
/-!
# Sorting of the bound states
-/
namespace FNFT
open Complex

/-- One comparison, as a permutation of the indices. -/
noncomputable def sortP1 (lf : ℕ → ℂ) (i d : ℕ) (σ : Equiv.Perm ℕ) : Equiv.Perm ℕ :=
  open Classical in if (lf (σ i)).im < (lf (σ (i + 1 + d))).im then σ * Equiv.swap i (i + 1 + d) else σ

noncomputable def sortP2 (K : ℕ) (lf : ℕ → ℂ) (i : ℕ) (σ : Equiv.Perm ℕ) : Equiv.Perm ℕ := iter (K - (i + 1)) (sortP1 lf i) σ

/-- The permutation found by the sorting. -/
noncomputable def sortP (K : ℕ) (lf : ℕ → ℂ) : Equiv.Perm ℕ := iter K (sortP2 K lf) 1

theorem bufSwap_ok {K i j : ℕ} {b : Buf ℂ} {f : ℕ → ℂ} (hb : b.Holds 0 K f) (hi : i < K) (hj : j < K) (hij : i ≠ j) :
    ∃ b', bufSwap i j b = some b' ∧ b'.len = b.len ∧ b'.Holds 0 K fun k => f (Equiv.swap i j k) := by
  have e1 := hb i hi
  have e2 := hb j hj
  rw [Nat.zero_add] at e1 e2
  obtain ⟨c, hc, hcl, hc1, hc2⟩ := Buf.wr_spec (b := b) (f j) (Buf.rd_lt e1)
  obtain ⟨d, hd, hdl, hd1, hd2⟩ := Buf.wr_spec (b := c) (f i) (by rw [hcl]; exact Buf.rd_lt e2)
  refine ⟨d, ?_, by rw [hdl, hcl], fun k hk => ?_⟩
  · unfold bufSwap
    simp only [e1, e2, hc, Option.bind_eq_bind, Option.bind_some]
    exact hd
  · rw [Nat.zero_add]
    dsimp only
    by_cases k1 : k = i
    · rw [k1, Equiv.swap_apply_left, hd2 i hij]; exact hc1
    · by_cases k2 : k = j
      · rw [k2, Equiv.swap_apply_right]; exact hd1
      · rw [Equiv.swap_apply_of_ne_of_ne k1 k2, hd2 k k2, hc2 k k1]
        have := hb k hk; rwa [Nat.zero_add] at this

theorem sortBody_ok {K i d : ℕ} {s : Buf ℂ × Buf ℂ} {lf bf : ℕ → ℂ} {σ : Equiv.Perm ℕ} (h1 : s.1.Holds 0 K (lf ∘ σ)) (h2 : s.2.Holds 0 K (bf ∘ σ))
    (hi : i + 1 + d < K) :
    ∃ s', sortBody i d s = some s' ∧ s'.1.Holds 0 K (lf ∘ sortP1 lf i d σ) ∧ s'.2.Holds 0 K (bf ∘ sortP1 lf i d σ) := by
  have e1 := h1 i (by omega)
  have e2 := h1 (i + 1 + d) hi
  rw [Nat.zero_add] at e1 e2
  unfold sortBody sortP1
  simp only [e1, e2, Option.bind_eq_bind, Option.bind_some, Function.comp_apply]
  by_cases c : (lf (σ i)).im < (lf (σ (i + 1 + d))).im
  · obtain ⟨b, hb, _, hb'⟩ := bufSwap_ok h1 (by omega : i < K) hi (by omega)
    obtain ⟨n, hn, _, hn'⟩ := bufSwap_ok h2 (by omega : i < K) hi (by omega)
    rw [if_pos c, if_pos c]
    simp only [hb, hn, Option.bind_some]
    exact ⟨(b, n), rfl, hb', hn'⟩
  · rw [if_neg c, if_neg c]
    exact ⟨s, rfl, h1, h2⟩

theorem iter_succ' {σ : Type*} (n : ℕ) (g : ℕ → σ → σ) (s : σ) : iter (n + 1) g s = g n (iter n g s) := rfl

theorem invSort_ok {K : ℕ} {s : Buf ℂ × Buf ℂ} {lf bf : ℕ → ℂ} (h1 : s.1.Holds 0 K lf) (h2 : s.2.Holds 0 K bf) :
    ∃ s', invSort K s = some s' ∧ s'.1.Holds 0 K (lf ∘ sortP K lf) ∧ s'.2.Holds 0 K (bf ∘ sortP K lf) := by
  unfold invSort
  refine forLoop_inv (fun i (s : Buf ℂ × Buf ℂ) => s.1.Holds 0 K (lf ∘ (iter i (sortP2 K lf) 1 : Equiv.Perm ℕ)) ∧ s.2.Holds 0 K (bf ∘ (iter i (sortP2 K lf) 1 : Equiv.Perm ℕ))) ⟨h1, h2⟩ ?_
  rintro i t hi ⟨a1, a2⟩
  obtain ⟨s', hs', b1, b2⟩ := forLoop_inv (n := K - (i + 1)) (body := sortBody i) (s := t) (fun d (s : Buf ℂ × Buf ℂ) =>
    s.1.Holds 0 K (lf ∘ (iter d (sortP1 lf i) (iter i (sortP2 K lf) 1) : Equiv.Perm ℕ)) ∧ s.2.Holds 0 K (bf ∘ (iter d (sortP1 lf i) (iter i (sortP2 K lf) 1) : Equiv.Perm ℕ)))
    ⟨a1, a2⟩ (by
      rintro d u hd ⟨c1, c2⟩
      obtain ⟨u', hu, d1, d2⟩ := sortBody_ok (d := d) c1 c2 (by omega : i + 1 + d < K)
      exact ⟨u', hu, d1, d2⟩)
  exact ⟨s', hs', b1, b2⟩

/-- The permutation only acts on the indices of the array. -/
theorem sortP1_lt {K i d : ℕ} {lf : ℕ → ℂ} {σ : Equiv.Perm ℕ} (hi : i + 1 + d < K) (h : ∀ k, k < K ↔ σ k < K) :
    ∀ k, k < K ↔ sortP1 lf i d σ k < K := by
  intro k
  unfold sortP1
  split
  · rw [Equiv.Perm.mul_apply, ← h]
    by_cases k1 : k = i
    · rw [k1, Equiv.swap_apply_left]; omega
    · by_cases k2 : k = i + 1 + d
      · rw [k2, Equiv.swap_apply_right]; omega
      · rw [Equiv.swap_apply_of_ne_of_ne k1 k2]
  · exact h k

theorem sortP_lt (K : ℕ) (lf : ℕ → ℂ) : ∀ k, k < K ↔ sortP K lf k < K := by
  unfold sortP
  have : ∀ n, n ≤ K → ∀ k, k < K ↔ iter n (sortP2 K lf) 1 k < K := by
    intro n
    induction n with
    | zero => intro _ k; exact Iff.rfl
    | succ n ih =>
      intro hn
      have h1 := ih (by omega)
      rw [iter_succ']
      unfold sortP2
      have : ∀ m, m ≤ K - (n + 1) → ∀ k, k < K ↔ iter m (sortP1 lf n) (iter n (sortP2 K lf) 1) k < K := by
        intro m
        induction m with
        | zero => intro _; exact h1
        | succ m ih2 => intro hm; rw [iter_succ']; exact sortP1_lt (by omega) (ih2 (by omega))
      exact this _ le_rfl
  exact this K le_rfl

/-- The result is sorted. -/
theorem sortP_sorted (K : ℕ) (lf : ℕ → ℂ) : ∀ i j, i < j → j < K → (lf (sortP K lf j)).im ≤ (lf (sortP K lf i)).im := by
  have main : ∀ n, n ≤ K → ∀ i j, i < n → i < j → j < K →
      (lf (iter n (sortP2 K lf) 1 j)).im ≤ (lf (iter n (sortP2 K lf) 1 i)).im := by
    intro n
    induction n with
    | zero => intro _ i j h; omega
    | succ n ih =>
      intro hn
      have h1 := ih (by omega)
      rw [iter_succ']
      unfold sortP2
      have inner : ∀ m, m ≤ K - (n + 1) →
          (∀ i j, i < n → i < j → j < K → (lf (iter m (sortP1 lf n) (iter n (sortP2 K lf) 1) j)).im ≤ (lf (iter m (sortP1 lf n) (iter n (sortP2 K lf) 1) i)).im) ∧
          ∀ j, n < j → j < n + 1 + m → (lf (iter m (sortP1 lf n) (iter n (sortP2 K lf) 1) j)).im ≤ (lf (iter m (sortP1 lf n) (iter n (sortP2 K lf) 1) n)).im := by
        intro m
        induction m with
        | zero => intro _; exact ⟨h1, fun j a b => by omega⟩
        | succ m ih2 =>
          intro hm
          obtain ⟨g1, g2⟩ := ih2 (by omega)
          rw [iter_succ']
          obtain ⟨τ, hτ⟩ : ∃ τ, τ = iter m (sortP1 lf n) (iter n (sortP2 K lf) 1) := ⟨_, rfl⟩
          rw [← hτ] at g1 g2 ⊢
          unfold sortP1
          split
          · rename_i c
            have ev : ∀ k, (τ * Equiv.swap n (n + 1 + m)) k = τ (Equiv.swap n (n + 1 + m) k) := fun k => rfl
            simp only [ev]
            refine ⟨fun i j hi hij hj => ?_, fun j a b => ?_⟩
            · have ei : Equiv.swap n (n + 1 + m) i = i := Equiv.swap_apply_of_ne_of_ne (by omega) (by omega)
              rw [ei]
              by_cases k1 : j = n
              · rw [k1, Equiv.swap_apply_left]; exact g1 i _ hi (by omega) (by omega)
              · by_cases k2 : j = n + 1 + m
                · rw [k2, Equiv.swap_apply_right]; exact g1 i _ hi (by omega) (by omega)
                · rw [Equiv.swap_apply_of_ne_of_ne k1 k2]; exact g1 i j hi hij hj
            · rw [Equiv.swap_apply_left]
              by_cases k2 : j = n + 1 + m
              · rw [k2, Equiv.swap_apply_right]; exact c.le
              · rw [Equiv.swap_apply_of_ne_of_ne (by omega) k2]
                exact (g2 j a (by omega)).trans c.le
          · rename_i c
            refine ⟨g1, fun j a b => ?_⟩
            by_cases k2 : j = n + 1 + m
            · rw [k2]; exact not_lt.mp c
            · exact g2 j a (by omega)
      obtain ⟨g1, g2⟩ := inner (K - (n + 1)) le_rfl
      intro i j hi hij hj
      by_cases e : i = n
      · rw [e]; exact g2 j (by omega) (by omega)
      · exact g1 i j (by omega) hij hj
  intro i j hij hj
  exact main K le_rfl i j (by omega) hij hj

/-- The list of the permuted values is a permutation of the list. -/
theorem sortP_perm {α : Type*} (K : ℕ) (lf : ℕ → ℂ) (f : ℕ → α) : ((List.range K).map fun k => f (sortP K lf k)).Perm ((List.range K).map f) := by
  have h : ((List.range K).map (sortP K lf)).Perm (List.range K) := by
    refine (List.perm_ext_iff_of_nodup ?_ List.nodup_range).mpr fun k => ?_
    · exact List.nodup_range.map (sortP K lf).injective
    · simp only [List.mem_map, List.mem_range]
      constructor
      · rintro ⟨a, ha, rfl⟩; exact (sortP_lt K lf a).mp ha
      · intro hk
        exact ⟨(sortP K lf).symm k, (sortP_lt K lf _).mpr (by simpa using hk), by simp⟩
  have := h.map f
  simpa [List.map_map, Function.comp_def] using this

/-- The test for multiplicity. -/
theorem invMult_ok {K : ℕ} {bs : Buf ℂ} {lf : ℕ → ℂ} (h : bs.Holds 0 K lf) :
    ∃ f, invMult K bs = some f ∧ (f = true ↔ ∃ i, i + 1 < K ∧ lf (i + 1) = lf i) := by
  unfold invMult
  obtain ⟨f, h1, h2⟩ := forLoop_inv (n := K - 1) (s := false) (body := fun i (f : Bool) => do
    if f then return true
    else
      let x ← bs.rd i
      let y ← bs.rd (i + 1)
      return open Classical in decide (y = x)) (fun i f => f = true ↔ ∃ k, k < i ∧ lf (k + 1) = lf k) (by simp) (by
      intro i f hi hf
      have e1 := h i (by omega)
      have e2 := h (i + 1) (by omega)
      rw [Nat.zero_add] at e1 e2
      cases f with
      | true =>
        refine ⟨true, rfl, ?_⟩
        obtain ⟨k, hk, he⟩ := hf.mp rfl
        simp only [true_iff]
        exact ⟨k, by omega, he⟩
      | false =>
        simp only [e1, e2, Bool.false_eq_true, if_false, Option.bind_eq_bind, Option.bind_some, Option.pure_def]
        refine ⟨_, rfl, ?_⟩
        rw [decide_eq_true_iff]
        constructor
        · intro he; exact ⟨i, by omega, he⟩
        · rintro ⟨k, hk, he⟩
          by_cases ki : k = i
          · rw [← ki]; exact he
          · have := hf.mpr ⟨k, by omega, he⟩; cases this)
  refine ⟨f, h1, h2.trans ?_⟩
  constructor
  · rintro ⟨k, a, b⟩; exact ⟨k, by omega, b⟩
  · rintro ⟨k, a, b⟩; exact ⟨k, by omega, b⟩

end FNFT

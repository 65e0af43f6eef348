import Verif.Model.PolyFmult
import Verif.Proofs.MiscNum
/-! `poly_rescale*`. -/
namespace FNFT
open Finset

theorem stride_inj {rs e e' i i' : ℕ} (h : e * rs + i = e' * rs + i') (hi : i < rs) (hi' : i' < rs) :
    e = e' ∧ i = i' := by
  have h0 : 0 < rs := by omega
  have h1 : (e * rs + i) / rs = e := by
    rw [mul_comm, Nat.mul_add_div h0, Nat.div_eq_of_lt hi, Nat.add_zero]
  have h2 : (e' * rs + i') / rs = e' := by
    rw [mul_comm, Nat.mul_add_div h0, Nat.div_eq_of_lt hi', Nat.add_zero]
  have : e = e' := by rw [← h1, ← h2, h]
  subst this; exact ⟨rfl, by omega⟩

theorem maxAbsK_spec {K d off rs : ℕ} {v : Buf ℂ} {x : ℕ → ℕ → ℂ}
    (hv : ∀ e, e < K → v.Holds (off + e * rs) (d + 1) (x e)) :
    ∃ m, maxAbsK K d off rs v = some m ∧ 0 ≤ m ∧ (∀ e i, e < K → i ≤ d → ‖x e i‖ ≤ m) ∧
      (m = 0 ∨ ∃ e i, e < K ∧ i ≤ d ∧ ‖x e i‖ = m) := by
  have := forLoop_inv (n := d + 1) (body := fun i m => forLoop K (fun e m => do
    let z ← v.rd (off + e * rs + i)
    return if ‖z‖ > m then ‖z‖ else m) m) (s := (0 : ℝ)) (fun k (m : ℝ) => 0 ≤ m ∧
      (∀ e i, e < K → i < k → ‖x e i‖ ≤ m) ∧ (m = 0 ∨ ∃ e i, e < K ∧ i < k ∧ ‖x e i‖ = m)) ?_ ?_
  · obtain ⟨m, h1, h2, h3, h4⟩ := this
    refine ⟨m, h1, h2, fun e i he hi => h3 e i he (by omega), h4.imp id ?_⟩
    rintro ⟨e, i, he, hi, h⟩; exact ⟨e, i, he, by omega, h⟩
  · exact ⟨le_rfl, fun e i _ h => by omega, Or.inl rfl⟩
  · rintro i m hi ⟨h1, h2, h3⟩
    have := forLoop_inv (n := K) (body := fun e (m : ℝ) => do
      let z ← v.rd (off + e * rs + i)
      return if ‖z‖ > m then ‖z‖ else m) (s := m) (fun k (m : ℝ) => 0 ≤ m ∧
        (∀ e i', e < K → i' < i → ‖x e i'‖ ≤ m) ∧ (∀ e, e < k → ‖x e i‖ ≤ m) ∧
        (m = 0 ∨ ∃ e i', e < K ∧ i' < i + 1 ∧ ‖x e i'‖ = m)) ?_ ?_
    · obtain ⟨m', g1, g2, g3, g4, g5⟩ := this
      refine ⟨m', g1, g2, ?_, g5⟩
      intro e i' he hi'
      rcases Nat.lt_succ_iff_lt_or_eq.mp hi' with h | h
      · exact g3 e i' he h
      · rw [h]; exact g4 e he
    · refine ⟨h1, h2, fun e h => by omega, h3.imp id ?_⟩
      rintro ⟨e, i', he, hi', h⟩; exact ⟨e, i', he, by omega, h⟩
    · rintro e m' he ⟨g1, g2, g3, g4⟩
      have hr := hv e he i hi
      simp only [hr, Option.bind_eq_bind, Option.bind_some]
      have hle : m' ≤ (if ‖x e i‖ > m' then ‖x e i‖ else m') := by
        split_ifs with h' <;> [exact h'.le; exact le_rfl]
      refine ⟨_, rfl, g1.trans hle, fun e' i' h h' => (g2 e' i' h h').trans hle, ?_, ?_⟩
      · intro e' h
        rcases Nat.lt_succ_iff_lt_or_eq.mp h with h | h
        · exact (g3 e' h).trans hle
        · rw [h]; split_ifs with h' <;> [exact le_rfl; exact not_lt.mp h']
      · split_ifs with h'
        · exact Or.inr ⟨e, i, he, by omega, rfl⟩
        · exact g4

theorem scaleK_spec {K d off rs : ℕ} (scl : ℝ) {v : Buf ℂ} {x : ℕ → ℕ → ℂ} (hrs : d + 1 ≤ rs)
    (hv : ∀ e, e < K → v.Holds (off + e * rs) (d + 1) (x e)) :
    ∃ v', scaleK K d off rs scl v = some v' ∧ v'.len = v.len ∧
      (∀ e, e < K → v'.Holds (off + e * rs) (d + 1) (fun i => x e i * scl)) ∧
      ∀ j, (∀ e i, e < K → i ≤ d → j ≠ off + e * rs + i) → v'.rd j = v.rd j := by
  let Inv : ℕ → ℕ → Buf ℂ → Prop := fun i e v' => v'.len = v.len ∧
    (∀ e' i', e' < K → i' ≤ d → v'.rd (off + e' * rs + i') =
      some (if i' < i ∨ (i' = i ∧ e' < e) then x e' i' * scl else x e' i')) ∧
    ∀ j, (∀ e i, e < K → i ≤ d → j ≠ off + e * rs + i) → v'.rd j = v.rd j
  have := forLoop_inv (n := d + 1) (body := fun i v => forLoop K (fun e v => do
    let z ← v.rd (off + e * rs + i)
    v.wr (off + e * rs + i) (z * (scl : ℂ))) v) (s := v) (fun i v' => Inv i 0 v') ?_ ?_
  · obtain ⟨v', h1, h2, h3, h4⟩ := this
    refine ⟨v', h1, h2, fun e he i hi => ?_, h4⟩
    rw [h3 e i he (by omega), if_pos (Or.inl hi)]
  · refine ⟨rfl, fun e' i' he hi => ?_, fun j _ => rfl⟩
    rw [if_neg (by omega)]; exact hv e' he i' (by omega)
  · rintro i w hi hw
    have := forLoop_inv (n := K) (body := fun e v => do
      let z ← v.rd (off + e * rs + i)
      v.wr (off + e * rs + i) (z * (scl : ℂ))) (s := w) (fun e v' => Inv i e v') hw ?_
    · obtain ⟨v', h1, h2, h3, h4⟩ := this
      refine ⟨v', h1, h2, fun e' i' he hi' => ?_, h4⟩
      rw [h3 e' i' he hi']
      congr 1
      by_cases h : i' ≤ i
      · rw [if_pos (by omega), if_pos (by omega)]
      · rw [if_neg (by omega), if_neg (by omega)]
    · rintro e u he ⟨g1, g2, g3⟩
      have hlt : off + e * rs + i < u.len := Buf.rd_lt (g2 e i he (by omega))
      simp only [g2 e i he (by omega), Option.bind_eq_bind, Option.bind_some, lt_self_iff_false,
        and_false, or_false, if_false]
      refine ⟨_, Buf.wr_eq _ hlt, by simp [g1], fun e' i' he' hi' => ?_, fun j hj => ?_⟩
      · rw [Buf.rd_set _ hlt]
        split_ifs with h1 h2 h2
        · obtain ⟨a, b⟩ := stride_inj (rs := rs) (e := e') (i := i') (e' := e) (i' := i) (by omega) (by omega) (by omega)
          subst a b; rfl
        · obtain ⟨a, b⟩ := stride_inj (rs := rs) (e := e') (i := i') (e' := e) (i' := i) (by omega) (by omega) (by omega)
          omega
        · rw [g2 e' i' he' hi']
          congr 1
          rw [if_pos]
          rcases h2 with h2 | ⟨h2, h3⟩
          · exact Or.inl h2
          · refine Or.inr ⟨h2, ?_⟩
            have : e' ≠ e := fun h => h1 (by rw [h, h2])
            omega
        · rw [g2 e' i' he' hi', if_neg (by omega)]
      · rw [Buf.rd_set _ hlt, if_neg (hj e i he (by omega))]; exact g3 j hj

/-- Coefficients scaled by a power of two so that the largest modulus is in `[1,2)`. -/
def NormalizedBy (a : ℤ) (K d : ℕ) (x : ℕ → ℕ → ℂ) : Prop :=
  ((∀ e i, e < K → i ≤ d → x e i = 0) → a = 0) ∧
  ((∃ e i, e < K ∧ i ≤ d ∧ x e i ≠ 0) →
    (∃ e i, e < K ∧ i ≤ d ∧ 1 ≤ ‖(2 : ℂ) ^ (-a) * x e i‖) ∧
    ∀ e i, e < K → i ≤ d → ‖(2 : ℂ) ^ (-a) * x e i‖ < 2)

theorem rescaleK_spec {K d off rs : ℕ} {v : Buf ℂ} {x : ℕ → ℕ → ℂ} (hrs : d + 1 ≤ rs)
    (hv : ∀ e, e < K → v.Holds (off + e * rs) (d + 1) (x e)) :
    ∃ a v', rescaleK K d off rs v = some (a, v') ∧ v'.len = v.len ∧
      (∀ e, e < K → v'.Holds (off + e * rs) (d + 1) (fun i => (2 : ℂ) ^ (-a) * x e i)) ∧
      (∀ j, (∀ e i, e < K → i ≤ d → j ≠ off + e * rs + i) → v'.rd j = v.rd j) ∧
      NormalizedBy a K d x := by
  obtain ⟨m, hm, h0, h1, h2⟩ := maxAbsK_spec hv
  by_cases hz : m = 0
  · have hall : ∀ e i, e < K → i ≤ d → x e i = 0 := fun e i he hi => by
      have := h1 e i he hi; rw [hz] at this; exact norm_le_zero_iff.mp this
    refine ⟨0, v, ?_, rfl, ?_, fun _ _ => rfl, fun _ => rfl, ?_⟩
    · simp [rescaleK, hm, hz]
    · simpa using hv
    · rintro ⟨e, i, he, hi, hne⟩; exact absurd (hall e i he hi) hne
  · have hpos : 0 < m := lt_of_le_of_ne h0 (Ne.symm hz)
    obtain ⟨e0, i0, he0, hi0, hi0m⟩ := h2.resolve_left hz
    have hb := floor_log_bounds hpos
    set a := ⌊Real.logb 2 m⌋ with ha
    obtain ⟨v', e1, e2, e3, e4⟩ := scaleK_spec ((2 : ℝ) ^ (-(a : ℝ))) hrs hv
    have hs : (((2 : ℝ) ^ (-(a : ℝ)) : ℝ) : ℂ) = (2 : ℂ) ^ (-a) := by
      rw [← Int.cast_neg, Real.rpow_intCast]; push_cast; rfl
    have hn : ∀ e i, ‖(2 : ℂ) ^ (-a) * x e i‖ = ‖x e i‖ * (2 : ℝ) ^ (-(a : ℝ)) := by
      intro e i
      rw [norm_mul, ← hs, Complex.norm_real, Real.norm_of_nonneg (by positivity), mul_comm]
    refine ⟨a, v', ?_, e2, ?_, e4, ?_, ?_⟩
    · simp only [rescaleK, hm, Option.bind_eq_bind, Option.bind_some, if_neg hz, e1, ← ha]; rfl
    · intro e he i hi; rw [e3 e he i hi, hs]; simp only [mul_comm]
    · intro h; exact absurd (h e0 i0 he0 hi0) (by intro h'; rw [h', norm_zero] at hi0m; exact hz hi0m.symm)
    · intro _
      refine ⟨⟨e0, i0, he0, hi0, ?_⟩, fun e i he hi => ?_⟩
      · rw [hn, hi0m]; exact hb.1
      · rw [hn]
        exact lt_of_le_of_lt (mul_le_mul_of_nonneg_right (h1 e i he hi) (by positivity)) hb.2

theorem onTail_rd {α : Type*} (off : ℕ) (b : Buf α) (i : ℕ) :
    (⟨b.len - off, fun i => b.cell (off + i)⟩ : Buf α).rd i = b.rd (off + i) := by
  unfold Buf.rd
  by_cases h : off + i < b.len
  · rw [if_pos h]; simp only; rw [if_pos (by omega)]
  · rw [if_neg h]; simp only; rw [if_neg (by omega)]

theorem onTail_spec {α β : Type*} {off : ℕ} {b : Buf α} {f : Buf α → Option (β × Buf α)} {r : β × Buf α}
    (h : f ⟨b.len - off, fun i => b.cell (off + i)⟩ = some r) (hl : r.2.len = b.len - off) :
    ∃ b', onTail off b f = some (r.1, b') ∧ b'.len = b.len ∧ (∀ i, b'.rd (off + i) = r.2.rd i) ∧
      ∀ j, j < off → b'.rd j = b.rd j := by
  refine ⟨⟨b.len, fun j => if j < off then b.cell j else r.2.cell (j - off)⟩,
    by rw [onTail, h, Option.bind_eq_bind, Option.bind_some]; rfl, rfl, ?_, ?_⟩
  · intro i
    unfold Buf.rd
    rw [hl]
    by_cases h : off + i < b.len
    · rw [if_pos (by omega), if_pos (by omega)]
      simp only
      rw [if_neg (by omega), Nat.add_sub_cancel_left]
    · rw [if_neg (by omega), if_neg (by omega)]
  · intro j hj
    simp only [Buf.rd, if_pos hj]

end FNFT

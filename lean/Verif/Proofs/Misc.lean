import Verif.Model.Misc
import Mathlib.Data.List.Basic
/-! Helper lemmas for the properties of fnft__misc.c. -/
namespace FNFT
open scoped Classical

theorem holdsList_append_singleton {α : Type*} {b b' : Buf α} {l : List α} {v : α}
    (h : b.HoldsList l) (hw : b.wr l.length v = some b') : b'.HoldsList (l ++ [v]) := by
  intro i hi
  rw [Buf.wr_rd hw]
  by_cases hil : i = l.length
  · subst hil; simp
  · have : i < l.length := by simp at hi; omega
    rw [if_neg hil, h i this, List.getElem?_append_left this]

/-- Invariant of one compacted array: the part of `src` selected so far, then the untouched rest. -/
structure CompactInv (b0 b : Buf CDbl) (out : List CDbl) (i : ℕ) : Prop where
  holds : b.HoldsList out
  le : out.length ≤ i
  rest : ∀ j, i ≤ j → b.rd j = b0.rd j
  len : b.len = b0.len

theorem CompactInv.skip {b0 b : Buf CDbl} {out : List CDbl} {i : ℕ} (h : CompactInv b0 b out i) :
    CompactInv b0 b out (i + 1) :=
  ⟨h.holds, Nat.le_succ_of_le h.le, fun j hj => h.rest j (by omega), h.len⟩

theorem CompactInv.keep {b0 b : Buf CDbl} {out : List CDbl} {i : ℕ} (h : CompactInv b0 b out i)
    {v : CDbl} (hv : b0.rd i = some v) :
    ∃ b', b.wr out.length v = some b' ∧ CompactInv b0 b' (out ++ [v]) (i + 1) := by
  have hi : i < b.len := by rw [h.len]; exact Buf.rd_lt hv
  obtain ⟨b', hb', hlen, -, -⟩ := Buf.wr_spec (b := b) (i := out.length) v (lt_of_le_of_lt h.le hi)
  refine ⟨b', hb', holdsList_append_singleton h.holds hb', ?_, ?_, ?_⟩
  · simp; exact h.le
  · intro j hj
    rw [Buf.wr_rd hb', if_neg (by have := h.le; omega)]
    exact h.rest j (by omega)
  · rw [hlen, h.len]

theorem compact_loop (keep : CDbl → Bool) (l r : List CDbl) (b0 : Buf CDbl) (hv : b0.HoldsList l)
    (re0 : Option (Buf CDbl)) (hlen : l.length ≤ r.length)
    (hr : ∀ b, re0 = some b → b.HoldsList r) :
    ∃ s, forLoop l.length (compactBody keep) ⟨b0, re0, 0⟩ = some s ∧
      s.nf = (l.filter keep).length ∧ CompactInv b0 s.vals (l.filter keep) l.length ∧
      (re0 = none → s.re = none) ∧
      ∀ b, re0 = some b → ∃ b', s.re = some b' ∧
        CompactInv b b' (((l.zip r).filter (fun p => keep p.1)).map Prod.snd) l.length := by
  have key := forLoop_inv (n := l.length) (body := compactBody keep) (s := (⟨b0, re0, 0⟩ : CompactSt))
    (fun i s => s.nf = ((l.take i).filter keep).length ∧
      CompactInv b0 s.vals ((l.take i).filter keep) i ∧
      (re0 = none → s.re = none) ∧
      ∀ b, re0 = some b → ∃ b', s.re = some b' ∧
        CompactInv b b' ((((l.zip r).take i).filter (fun p => keep p.1)).map Prod.snd) i ∧
        ((((l.zip r).take i).filter (fun p => keep p.1)).map Prod.snd).length = s.nf) ?_ ?_
  · obtain ⟨s, hs, h1, h2, h3, h4⟩ := key
    refine ⟨s, hs, by simpa using h1, by simpa using h2, h3, fun b hb => ?_⟩
    obtain ⟨b', hb', hc, -⟩ := h4 b hb
    refine ⟨b', hb', ?_⟩
    rwa [List.take_of_length_le (by simp)] at hc
  · refine ⟨by simp, ⟨fun i hi => by simp at hi, by simp, fun _ _ => rfl, rfl⟩, fun h => h,
      fun b hb => ⟨b, hb, ⟨fun i hi => by simp at hi, by simp, fun _ _ => rfl, rfl⟩, by simp⟩⟩
  · rintro i s hi ⟨h1, h2, h3, h4⟩
    have hir : i < r.length := by omega
    have hvi : b0.rd i = some l[i] := by rw [hv i hi]; simp [hi]
    have hsi : s.vals.rd i = some l[i] := by rw [h2.rest i le_rfl, hvi]
    have htake : l.take (i + 1) = l.take i ++ [l[i]] := (List.take_append_getElem hi).symm
    have hz : i < (l.zip r).length := by simp; omega
    have htakez : (l.zip r).take (i + 1) = (l.zip r).take i ++ [(l[i], r[i])] := by
      rw [← List.take_append_getElem hz]; simp
    by_cases hk : keep l[i] = true
    · have hf1 : (l.take (i + 1)).filter keep = (l.take i).filter keep ++ [l[i]] := by
        rw [htake, List.filter_append, List.filter_cons_of_pos hk, List.filter_nil]
      have hf2 : (((l.zip r).take (i + 1)).filter (fun p => keep p.1)).map Prod.snd =
          (((l.zip r).take i).filter (fun p => keep p.1)).map Prod.snd ++ [r[i]] := by
        rw [htakez, List.filter_append, List.filter_cons_of_pos (by exact hk), List.filter_nil,
          List.map_append]; rfl
      rw [hf1, hf2]
      obtain ⟨b', hb', hinv⟩ := h2.keep hvi
      cases hre : re0 with
      | none =>
        refine ⟨⟨b', none, s.nf + 1⟩, ?_, ?_, hinv, fun _ => rfl, ?_⟩
        · simp [compactBody, hsi, hk, h3 hre, moveOpt, h1, hb']
        · rw [List.length_append, h1]; rfl
        · intro b hb; cases hb
      | some b =>
        obtain ⟨c, hc, hci, hcl⟩ := h4 b hre
        have hbi : b.rd i = some r[i] := by rw [hr b hre i hir]; simp [hir]
        have hcr : c.rd i = some r[i] := by rw [hci.rest i le_rfl, hbi]
        obtain ⟨c', hc', hinv'⟩ := hci.keep hbi
        refine ⟨⟨b', some c', s.nf + 1⟩, ?_, ?_, hinv, ?_, ?_⟩
        · rw [hcl] at hc'
          simp [compactBody, hsi, hk, hc, moveOpt, hcr, hc']
          rw [h1, hb']; rfl
        · rw [List.length_append, h1]; rfl
        · intro h; cases h
        · intro b2 hb2; cases hb2
          refine ⟨c', rfl, hinv', ?_⟩
          rw [List.length_append, hcl]; rfl
    · have hf1 : (l.take (i + 1)).filter keep = (l.take i).filter keep := by
        rw [htake, List.filter_append, List.filter_cons_of_neg hk, List.filter_nil, List.append_nil]
      have hf2 : (((l.zip r).take (i + 1)).filter (fun p => keep p.1)).map Prod.snd =
          (((l.zip r).take i).filter (fun p => keep p.1)).map Prod.snd := by
        rw [htakez, List.filter_append, List.filter_cons_of_neg (by exact hk), List.filter_nil,
          List.append_nil]
      rw [hf1, hf2]
      refine ⟨s, ?_, h1, h2.skip, h3, ?_⟩
      · simp [compactBody, hsi, hk]
      · intro b hb
        obtain ⟨c, hc, hci, hcl⟩ := h4 b hb
        exact ⟨c, hc, hci.skip, hcl⟩

theorem nonreal_loop (tol : Dbl) (l : List CDbl) (b0 : Buf CDbl) (hv : b0.HoldsList l) :
    ∃ s, forLoop l.length (nonrealBody tol) (b0, 0) = some s ∧
      s.2 = (l.filter (fun v => decide (tol.lt v.im.abs))).length ∧
      CompactInv b0 s.1 (l.filter (fun v => decide (tol.lt v.im.abs))) l.length := by
  have key := forLoop_inv (n := l.length) (body := nonrealBody tol) (s := (b0, 0))
    (fun i s => s.2 = ((l.take i).filter (fun v => decide (tol.lt v.im.abs))).length ∧
      CompactInv b0 s.1 ((l.take i).filter (fun v => decide (tol.lt v.im.abs))) i) ?_ ?_
  · simpa using key
  · exact ⟨by simp, ⟨fun i hi => by simp at hi, by simp, fun _ _ => rfl, rfl⟩⟩
  · rintro i s hi ⟨h1, h2⟩
    have hvi : b0.rd i = some l[i] := by rw [hv i hi]; simp [hi]
    have hsi : s.1.rd i = some l[i] := by rw [h2.rest i le_rfl, hvi]
    have htake : l.take (i + 1) = l.take i ++ [l[i]] := (List.take_append_getElem hi).symm
    by_cases hk : tol.lt (l[i]).im.abs
    · rw [htake, List.filter_append, List.filter_cons_of_pos (by exact decide_eq_true hk),
        List.filter_nil]
      obtain ⟨b', hb', hinv⟩ := h2.keep hvi
      refine ⟨(b', s.2 + 1), ?_, ?_, hinv⟩
      · simp only [nonrealBody, hsi, h1, Option.bind_eq_bind, Option.bind_some]
        rw [if_neg (not_not.mpr hk), hb']; rfl
      · rw [List.length_append, ← h1]; rfl
    · rw [htake, List.filter_append, List.filter_cons_of_neg (by simpa using hk), List.filter_nil,
        List.append_nil]
      refine ⟨s, ?_, h1, h2.skip⟩
      simp only [nonrealBody, hsi, Option.bind_eq_bind, Option.bind_some]
      rw [if_pos hk]; rfl

theorem filterKeep_iff (box : Fin 4 → Dbl) (v : CDbl) : filterKeep box v = true ↔
    (box 0).le v.re ∧ v.re.le (box 1) ∧ (box 2).le v.im ∧ v.im.le (box 3) := by
  unfold filterKeep
  split_ifs <;> simp_all

theorem filterInvKeep_iff (box : Fin 4 → Dbl) (v : CDbl) : filterInvKeep box v = true ↔
    ¬ ((box 0).lt v.re ∧ v.re.lt (box 1) ∧ (box 2).lt v.im ∧ v.im.lt (box 3)) := by
  unfold filterInvKeep
  split_ifs <;> simp_all

/-- Inner loop of `misc_merge`. -/
theorem mergeInner_spec (dist : CDbl → CDbl → Dbl) (tol : Dbl) (b : Buf CDbl) (i : ℕ)
    (f : ℕ → CDbl) (hf : ∀ j, j ≤ i → b.rd j = some (f j)) (k : ℕ) (hk : k ≤ i) (d0 : Dbl) :
    ∃ d, mergeInner dist tol b i k d0 = some d ∧
      ((∃ j, i - k ≤ j ∧ j < i ∧ (dist (f j) (f i)).lt tol ∧ d = dist (f j) (f i)) ∨
       ((∀ j, i - k ≤ j → j < i → ¬ (dist (f j) (f i)).lt tol) ∧
        (0 < k → ∃ j, j < i ∧ d = dist (f j) (f i) ∧ ¬ (dist (f j) (f i)).lt tol))) := by
  induction k generalizing d0 with
  | zero => exact ⟨d0, rfl, Or.inr ⟨fun j h1 h2 => by omega, fun h => by omega⟩⟩
  | succ k ih =>
    have h1 : b.rd (i - (k + 1)) = some (f (i - (k + 1))) := hf _ (by omega)
    have h2 : b.rd i = some (f i) := hf i le_rfl
    by_cases hlt : (dist (f (i - (k + 1))) (f i)).lt tol
    · refine ⟨dist (f (i - (k + 1))) (f i), ?_, Or.inl ⟨i - (k + 1), le_rfl, by omega, hlt, rfl⟩⟩
      simp [mergeInner, h1, h2, hlt]
    · obtain ⟨d, hd, hcase⟩ := ih (by omega) (dist (f (i - (k + 1))) (f i))
      refine ⟨d, ?_, ?_⟩
      · simpa [mergeInner, h1, h2, hlt] using hd
      · rcases hcase with ⟨j, hj1, hj2, hj3, hj4⟩ | ⟨hall, hd'⟩
        · exact Or.inl ⟨j, by omega, hj2, hj3, hj4⟩
        · refine Or.inr ⟨fun j hj1 hj2 => ?_, fun _ => ?_⟩
          · by_cases hj : j = i - (k + 1)
            · rw [hj]; exact hlt
            · exact hall j (by omega) hj2
          · by_cases hk0 : 0 < k
            · exact hd' hk0
            · have hk1 : k = 0 := by omega
              subst hk1
              simp [mergeInner] at hd
              exact ⟨i - 1, by omega, by rw [← hd], hlt⟩

theorem roundDiv_eq (D d : ℕ) (hd : 0 < d) : roundDiv D d = (2 * D + d) / (2 * d) := by
  unfold roundDiv
  rw [round_eq]
  have h : ((D : ℚ) / d + 1 / 2) = (((2 * D + d : ℕ) : ℚ) / ((2 * d : ℕ) : ℚ)) := by
    have : (d : ℚ) ≠ 0 := by positivity
    push_cast; field_simp
  rw [h, Rat.floor_natCast_div_natCast, ← Int.natCast_div, Int.toNat_natCast]

/-- The buffer seen by `misc_merge` after `S` has been compacted to the front. -/
structure MergeInv (dist : CDbl → CDbl → Dbl) (tol : Dbl) (n : ℕ) (f : ℕ → CDbl) (b0 b : Buf CDbl)
    (S : List ℕ) (i : ℕ) : Prop where
  sorted : S.Pairwise (· < ·)
  lt : ∀ j ∈ S, j < i
  head : S.head? = some 0
  holds : ∀ k (h : k < S.length), b.rd k = some (f S[k])
  rest : ∀ k, S.length ≤ k → b.rd k = b0.rd k
  len : b.len = b0.len
  sep : S.Pairwise (fun j k => ¬ (dist (f j) (f k)).lt tol)
  dropped : ∀ k, k < i → k ∉ S → ∃ j, j < k ∧ (dist (f j) (f k)).lt tol
  le : S.length ≤ i

theorem merge_loop (dist : CDbl → CDbl → Dbl) (tol : Dbl) (n : ℕ) (f : ℕ → CDbl) (b0 : Buf CDbl)
    (h0 : b0.Holds 0 (n + 1) f) (d0 : Dbl) :
    ∃ b d S, forLoop n (mergeBody dist tol) (b0, d0, 1) = some (b, d, S.length) ∧
      MergeInv dist tol n f b0 b S (n + 1) := by
  have hb0 : ∀ j, j < n + 1 → b0.rd j = some (f j) := fun j hj => by
    have := h0 j hj; rwa [Nat.zero_add] at this
  have key := forLoop_inv (n := n) (body := mergeBody dist tol) (s := (b0, d0, 1))
    (fun i s => ∃ S, s.2.2 = S.length ∧ MergeInv dist tol n f b0 s.1 S (i + 1)) ?_ ?_
  · obtain ⟨⟨b, d, m⟩, hs, S, hm, hinv⟩ := key
    exact ⟨b, d, S, by rw [hs]; simp at hm; rw [hm], hinv⟩
  · refine ⟨[0], rfl, ?_⟩
    constructor
    · simp
    · simp
    · rfl
    · intro k h; simp at h; subst h; exact hb0 0 (by omega)
    · intros; rfl
    · rfl
    · simp
    · intro k hk hkS; simp at hkS; omega
    · simp
  · rintro i ⟨b, d, m⟩ hi ⟨S, hm, hS⟩
    simp only at hm hS
    subst hm
    -- current contents
    let g : ℕ → CDbl := fun j => if h : j < S.length then f S[j] else f j
    have hg : ∀ j, j ≤ i + 1 → b.rd j = some (g j) := by
      intro j hj
      by_cases h : j < S.length
      · rw [hS.holds j h]; simp [g, h]
      · rw [hS.rest j (by omega), hb0 j (by omega)]; simp [g, h]
    have hgi : g (i + 1) = f (i + 1) := by
      have := hS.le; simp [g, show ¬ (i + 1 < S.length) by omega]
    obtain ⟨d', hd', hcase⟩ := mergeInner_spec dist tol b (i + 1) g hg (i + 1) le_rfl d
    -- every compared value is an earlier input value
    have hgearly : ∀ j, j < i + 1 → ∃ j', j' < i + 1 ∧ g j = f j' := by
      intro j hj
      by_cases h : j < S.length
      · exact ⟨S[j], hS.lt _ (List.getElem_mem h), by simp [g, h]⟩
      · exact ⟨j, hj, by simp [g, h]⟩
    rcases hcase with ⟨j, -, hj2, hj3, hj4⟩ | ⟨hall, hd''⟩
    · -- dropped
      have hlt : d'.lt tol := hj4 ▸ hj3
      refine ⟨(b, d', S.length), by simp [mergeBody, hd', hlt], S, rfl, ?_⟩
      refine ⟨hS.sorted, fun k hk => Nat.lt_succ_of_lt (hS.lt k hk), hS.head, hS.holds, hS.rest,
        hS.len, hS.sep, ?_, Nat.le_succ_of_le hS.le⟩
      intro k hk hkS
      by_cases hki : k = i + 1
      · subst hki
        obtain ⟨j', hj', hjj⟩ := hgearly j hj2
        exact ⟨j', hj', by rw [← hjj, ← hgi]; exact hj3⟩
      · exact hS.dropped k (by omega) hkS
    · obtain ⟨j, hj, hdj, hnot⟩ := hd'' (by omega)
      have hnlt : ¬ d'.lt tol := hdj ▸ hnot
      have hSl := hS.le
      have hil : i + 1 < b.len := Buf.rd_lt (hg (i + 1) le_rfl)
      obtain ⟨b', hb', hlen', -, -⟩ := Buf.wr_spec (b := b) (i := S.length) (g (i + 1)) (by omega)
      refine ⟨(b', d', S.length + 1), ?_, S ++ [i + 1], by simp, ?_⟩
      · simp [mergeBody, hd', hnlt, hg (i + 1) le_rfl, hb']
      · constructor
        · rw [List.pairwise_append]
          refine ⟨hS.sorted, by simp, ?_⟩
          intro a ha c hc
          simp at hc; subst hc; exact hS.lt a ha
        · intro k hk
          simp at hk
          rcases hk with hk | hk
          · exact Nat.lt_succ_of_lt (hS.lt k hk)
          · omega
        · have := hS.head
          cases hSS : S with
          | nil => simp [hSS] at this
          | cons a t => simp [hSS] at this ⊢; exact this
        · intro k hk
          rw [Buf.wr_rd hb']
          by_cases hkS : k = S.length
          · subst hkS; simp [hgi]
          · have hk' : k < S.length := by simp at hk; omega
            rw [if_neg hkS, hS.holds k hk', List.getElem_append_left hk']
        · intro k hk
          simp at hk
          rw [Buf.wr_rd hb', if_neg (by omega)]
          exact hS.rest k (by omega)
        · rw [hlen', hS.len]
        · rw [List.pairwise_append]
          refine ⟨hS.sep, by simp, ?_⟩
          intro a ha c hc
          simp at hc; subst hc
          obtain ⟨k, hk, rfl⟩ := List.getElem_of_mem ha
          have := hall k (by omega) (by omega)
          rw [hgi] at this
          simpa [g, hk] using this
        · intro k hk hkS
          simp at hkS
          exact hS.dropped k (by omega) hkS.1
        · simp; omega

theorem downsample_loop {α : Type*} (q : Buf α) (D s Dsub : ℕ) (f : ℕ → α) (hq : q.Holds 0 D f)
    (hb : Dsub = 0 ∨ (Dsub - 1) * s < D) :
    ∃ b, forLoop Dsub (downsampleBody q s) (Buf.malloc Dsub, 0) = some (b, Dsub * s) ∧
      b.len = Dsub ∧ b.Holds 0 Dsub (fun j => f (j * s)) := by
  have key := forLoop_inv (n := Dsub) (body := downsampleBody q s) (s := (Buf.malloc Dsub, 0))
    (fun i t => t.2 = i * s ∧ t.1.len = Dsub ∧ t.1.Holds 0 i (fun j => f (j * s))) ?_ ?_
  · obtain ⟨⟨b, i⟩, h, h1, h2, h3⟩ := key
    exact ⟨b, by rw [h]; simp at h1; rw [h1], h2, h3⟩
  · exact ⟨by simp, rfl, fun i hi => by omega⟩
  · rintro i ⟨b, k⟩ hi ⟨h1, h2, h3⟩
    simp only at h1 h2 h3
    have hlt : i * s < D := by
      rcases hb with hb | hb
      · omega
      · exact lt_of_le_of_lt (Nat.mul_le_mul_right s (by omega)) hb
    have hr : q.rd (i * s) = some (f (i * s)) := by simpa using hq _ hlt
    obtain ⟨b', hb', hl, -, -⟩ := Buf.wr_spec (b := b) (i := i) (f (i * s)) (by omega)
    refine ⟨(b', i * s + s), by simp [downsampleBody, h1, hr, hb'], by simp; ring, ?_, ?_⟩
    · simp [hl, h2]
    · intro j hj
      simp only [Nat.zero_add]
      rw [Buf.wr_rd hb']
      by_cases hji : j = i
      · simp [hji]
      · rw [if_neg hji]
        have := h3 j (by omega)
        simpa using this

theorem downsample_arith (D d : ℕ) (hD : 3 ≤ D) (hd2 : 2 ≤ d) (hdD : d ≤ D) :
    let s := (2 * D + d) / (2 * d)
    let m := (2 * D + s) / (2 * s)
    1 ≤ s ∧ 2 ≤ m ∧ m ≤ D ∧ (m - 1) * s < D ∧ (d ∣ D → m = d ∧ s * d = D) := by
  intro s m
  have hs1 : 1 ≤ s := by
    rw [Nat.le_div_iff_mul_le (by omega)]; omega
  have hsu : 2 * d * s ≤ 2 * D + d := Nat.mul_div_le _ _
  have hs2 : s ≤ 2 * d * s / 4 := by
    rw [Nat.le_div_iff_mul_le (by omega)]; nlinarith
  have h3s : 3 * s ≤ 2 * D := by
    have h1 : 2 * (d * s) ≤ 2 * D + d := by nlinarith
    -- s ≤ D/d + 1/2 and d ≥ 2
    by_contra hcon
    have h3 : 2 * D + 1 ≤ 3 * s := by omega
    have h4 : d * (2 * D + 1) ≤ d * (3 * s) := Nat.mul_le_mul_left d h3
    nlinarith
  have hmu : 2 * s * m ≤ 2 * D + s := Nat.mul_div_le _ _
  have hm2 : 2 ≤ m := by
    rw [Nat.le_div_iff_mul_le (by omega)]; omega
  refine ⟨hs1, hm2, ?_, ?_, ?_⟩
  · by_contra hcon
    have : D + 1 ≤ m := by omega
    nlinarith
  · obtain ⟨k, hk⟩ : ∃ k, m = k + 1 := ⟨m - 1, by omega⟩
    rw [hk] at hmu ⊢
    simp
    nlinarith
  · rintro ⟨c, hc⟩
    have hcs : s = c := by
      show (2 * D + d) / (2 * d) = c
      rw [hc]
      have : 2 * (d * c) + d = d + 2 * d * c := by ring
      rw [this, Nat.add_mul_div_left _ _ (by omega), Nat.div_eq_of_lt (by omega), Nat.zero_add]
    have hcpos : 1 ≤ c := hcs ▸ hs1
    refine ⟨?_, by rw [hcs, hc]; ring⟩
    show (2 * D + s) / (2 * s) = d
    rw [hcs, hc]
    have : 2 * (d * c) + c = c + 2 * c * d := by ring
    rw [this, Nat.add_mul_div_left _ _ (by omega), Nat.div_eq_of_lt (by omega), Nat.zero_add]

theorem np2_toNat_mul (r : BitVec 64) : (r * 2).toNat = (r.toNat * 2) % 2 ^ 64 := by
  rw [BitVec.toNat_mul]; rfl

theorem np2Loop_ok (n : BitVec 64) (hn : n.toNat ≤ 2 ^ 63) (k j : ℕ) (hjk : j + k = 63) (r : BitVec 64)
    (hr : r.toNat = 2 ^ j) (hmin : ∀ i, n.toNat ≤ 2 ^ i → 2 ^ j ≤ 2 ^ i) :
    ∃ r' m, np2Loop (k + 1) n r = some r' ∧ r'.toNat = 2 ^ m ∧ n.toNat ≤ 2 ^ m ∧
      ∀ i, n.toNat ≤ 2 ^ i → 2 ^ m ≤ 2 ^ i := by
  induction k generalizing j r with
  | zero =>
    have : j = 63 := by omega
    subst this
    refine ⟨r, 63, ?_, hr, hn, hmin⟩
    have : ¬ r < n := by rw [BitVec.lt_def, hr]; omega
    simp [np2Loop, this]
  | succ k ih =>
    by_cases hlt : r < n
    · have hlt' : 2 ^ j < n.toNat := by rw [BitVec.lt_def, hr] at hlt; exact hlt
      have hpow : (2:ℕ) ^ (j + 1) ≤ 2 ^ 63 := Nat.pow_le_pow_right (by norm_num) (by omega)
      have hr2 : (r * 2).toNat = 2 ^ (j + 1) := by
        rw [np2_toNat_mul, hr, ← pow_succ, Nat.mod_eq_of_lt]
        exact lt_of_le_of_lt hpow (by norm_num)
      obtain ⟨r', m, h1, h2, h3, h4⟩ := ih (j + 1) (by omega) (r * 2) hr2 (by
        intro i hi
        have : (2:ℕ) ^ j < 2 ^ i := lt_of_lt_of_le hlt' hi
        have : j < i := (Nat.pow_lt_pow_iff_right (by norm_num)).1 this
        exact Nat.pow_le_pow_right (by norm_num) this)
      refine ⟨r', m, ?_, h2, h3, h4⟩
      rw [np2Loop, if_pos hlt]; exact h1
    · refine ⟨r, j, ?_, hr, ?_, hmin⟩
      · rw [np2Loop, if_neg hlt]
      · rw [BitVec.lt_def, hr] at hlt; omega

theorem np2Loop_diverges (n : BitVec 64) (hn : 2 ^ 63 < n.toNat) (fuel : ℕ) (r : BitVec 64)
    (hr : r.toNat = 0 ∨ ∃ j, j ≤ 63 ∧ r.toNat = 2 ^ j) : np2Loop fuel n r = none := by
  induction fuel generalizing r with
  | zero => rfl
  | succ f ih =>
    have hlt : r < n := by
      rw [BitVec.lt_def]
      rcases hr with h | ⟨j, hj, h⟩
      · omega
      · rw [h]; exact lt_of_le_of_lt (Nat.pow_le_pow_right (by norm_num) hj) hn
    rw [np2Loop, if_pos hlt]
    apply ih
    rw [np2_toNat_mul]
    rcases hr with h | ⟨j, hj, h⟩
    · left; simp [h]
    · rw [h, ← pow_succ]
      by_cases hj63 : j = 63
      · left; subst hj63; norm_num
      · right
        refine ⟨j + 1, by omega, Nat.mod_eq_of_lt ?_⟩
        exact Nat.pow_lt_pow_right (by norm_num) (by omega)

end FNFT

import Verif.Spec.NsevBound
import Verif.Model.Nsev
import Verif.Props.Misc
/-!
# Proofs: selection of the bound states
-/
namespace FNFT
open Complex

theorem of_toCDbl (z : ℂ) : ofCDbl (toCDbl z) = z := by
  apply Complex.ext <;> simp [ofCDbl, toCDbl, Dbl.toReal]

theorem Buf.rd_map {α β : Type*} (f : α → β) (b : Buf α) (i : ℕ) : (b.map f).rd i = (b.rd i).map f := by
  unfold Buf.rd Buf.map
  dsimp only
  split_ifs <;> rfl

theorem Buf.map_len {α β : Type*} (f : α → β) (b : Buf α) : (b.map f).len = b.len := rfl

theorem ofCDbl_toCDbl_rd (b : Buf ℂ) (i : ℕ) : ((b.map toCDbl).rd i).map ofCDbl = b.rd i := by
  rw [Buf.rd_map, Option.map_map]
  have : ofCDbl ∘ toCDbl = id := funext of_toCDbl
  rw [this, Option.map_id, id]

open scoped Classical in
theorem filterC_ok {K : ℕ} {b : Buf ℂ} {f : ℕ → ℂ} (hb : b.Holds 0 K f) {box : Fin 4 → Dbl} (hbox : Spec.ValidBox box) :
    ∃ b', filterC K b box = some (SUCCESS, ((List.range K).filter fun j => decide (Spec.InBoxC box (f j))).length, b') ∧
      b'.HoldsList (((List.range K).filter fun j => decide (Spec.InBoxC box (f j))).map f) ∧ b'.len = b.len ∧
      ∀ j, K ≤ j → b'.rd j = b.rd j := by
  have hlist : (b.map toCDbl).HoldsList ((List.range K).map fun j => toCDbl (f j)) := by
    intro i hi
    have hi : i < K := by simpa using hi
    rw [Buf.rd_map]
    have := hb i hi
    rw [Nat.zero_add] at this
    rw [this]
    simp [hi]
  obtain ⟨v, re, h1, h2, h3, h4, -⟩ := C02_filter ((List.range K).map fun j => toCDbl (f j)) ((List.range K).map fun j => toCDbl (f j))
    le_rfl (b.map toCDbl) hlist none (fun _ h => by cases h) box hbox
  have hk : ((List.range K).map fun j => toCDbl (f j)).filter (fun v => decide (Spec.InBox box v)) =
      ((List.range K).filter fun j => decide (Spec.InBoxC box (f j))).map fun j => toCDbl (f j) := by
    rw [List.filter_map]; rfl
  rw [hk] at h1 h2
  simp only [List.length_map, List.length_range] at h1 h4
  refine ⟨v.map ofCDbl, ?_, ?_, h3, ?_⟩
  · unfold filterC
    rw [h1]
    rfl
  · intro i hi
    have hi' : i < ((List.range K).filter fun j => decide (Spec.InBoxC box (f j))).length := by simpa using hi
    rw [Buf.rd_map, h2 i (by simpa using hi')]
    simp [List.getElem?_map, Function.comp_def, of_toCDbl]
  · intro j hj
    rw [Buf.rd_map, h4 j hj, ofCDbl_toCDbl_rd]

theorem lt_num (x y : ℝ) : Dbl.lt (.num (x : EReal)) (.num (y : EReal)) ↔ x < y := by
  simp only [Dbl.lt, EReal.coe_lt_coe_iff]

theorem mergeC_ok {K : ℕ} {b : Buf ℂ} {f : ℕ → ℂ} (hb : b.Holds 0 K f) {tol : ℝ} (htol : 0 ≤ tol) :
    ∃ (S : List ℕ) (b' : Buf ℂ), mergeC K b tol = some (SUCCESS, S.length, b') ∧
      S.Pairwise (· < ·) ∧ (∀ j ∈ S, j < K) ∧ b'.HoldsList (S.map f) ∧
      S.Pairwise (fun j k => tol ≤ ‖f j - f k‖) ∧
      (∀ k, k < K → k ∉ S → ∃ j, j < k ∧ ‖f j - f k‖ < tol) ∧ b'.len = b.len ∧ ∀ k, K ≤ k → b'.rd k = b.rd k := by
  rcases K with _ | n
  · refine ⟨[], b, ?_, List.Pairwise.nil, fun j hj => (by cases hj), fun i hi => absurd hi (by simp), List.Pairwise.nil,
      fun k hk => absurd hk (by simp), rfl, fun k hk => rfl⟩
    unfold mergeC
    rw [(C05_merge_trivial _ _ _).1]
    have : (b.map toCDbl).map ofCDbl = b := by
      unfold Buf.map
      dsimp only
      have : ofCDbl ∘ toCDbl = id := funext of_toCDbl
      simp [Option.map_map, this]
    simp [this]
  · have hv : (b.map toCDbl).Holds 0 (n + 1) fun j => toCDbl (f j) := by
      intro i hi
      rw [Buf.rd_map, hb i hi]; rfl
    have ht : ¬ Dbl.lt (.num (tol : EReal)) Dbl.zero := by
      rw [show Dbl.zero = .num ((0 : ℝ) : EReal) from rfl, lt_num]; exact not_lt.mpr htol
    obtain ⟨S, v, h1, h2, h3, h4, h5, h6, h7, h8, h9⟩ := C05_merge
      (fun a b => .num ((‖ofCDbl a - ofCDbl b‖ : ℝ) : EReal)) n (fun j => toCDbl (f j)) (b.map toCDbl) hv (.num (tol : EReal)) ht
    refine ⟨S, v.map ofCDbl, ?_, h2, fun j hj => by have := h3 j hj; omega, ?_, ?_, ?_, h8, ?_⟩
    · unfold mergeC
      rw [h1]; rfl
    · intro i hi
      rw [Buf.rd_map, h5 i (by simpa using hi)]
      simp [List.getElem?_map, Function.comp_def, of_toCDbl]
    · refine h6.imp fun {j k} h => ?_
      rw [lt_num, of_toCDbl, of_toCDbl] at h
      exact not_lt.mp h
    · intro k hk hkS
      obtain ⟨j, e1, e2⟩ := h7 k (by omega) hkS
      rw [lt_num, of_toCDbl, of_toCDbl] at e2
      exact ⟨j, e1, e2⟩
    · intro k hk
      rw [Buf.rd_map, h9 k hk, ofCDbl_toCDbl_rd]

/-- Filtering and merging select bound states. -/
theorem bsFilter_ok {o : NsevOpts} {box : Fin 4 → Dbl} {K : ℕ} {b : Buf ℂ} {f : ℕ → ℂ} (hb : b.Holds 0 K f)
    (hbox : o.filt ≠ .NONE → Spec.ValidBox box) :
    ∃ (out : List ℂ) (b' : Buf ℂ), bsFilter o box K b = some (SUCCESS, out.length, b') ∧ b'.HoldsList out ∧ b'.len = b.len ∧
      (o.filt = .NONE → out = (List.range K).map f) ∧ (o.filt ≠ .NONE → Spec.Selected box (Real.sqrt EPSILON) K f out) ∧
      out.length ≤ K ∧ ∀ k, K ≤ k → b'.rd k = b.rd k := by
  classical
  by_cases hN : o.filt = .NONE
  · refine ⟨(List.range K).map f, b, ?_, ?_, rfl, fun _ => rfl, fun h => absurd hN h, by simp, fun _ _ => rfl⟩
    · unfold bsFilter
      rw [if_pos hN]; simp
    · intro i hi
      have hi : i < K := by simpa using hi
      have := hb i hi
      rw [Nat.zero_add] at this
      rw [this]; simp [hi]
  · obtain ⟨L, hL⟩ : ∃ L, L = (List.range K).filter fun j => decide (Spec.InBoxC box (f j)) := ⟨_, rfl⟩
    obtain ⟨b1, h1, h2, h3, h4⟩ := filterC_ok hb (hbox hN)
    rw [← hL] at h1 h2
    have hLm : ∀ j, j ∈ L ↔ j < K ∧ Spec.InBoxC box (f j) := by
      intro j; rw [hL]; simp
    have hLs : L.Pairwise (· < ·) := by
      rw [hL]; exact List.pairwise_lt_range.filter _
    have hb1 : b1.Holds 0 L.length fun i => f (L.getD i 0) := by
      intro i hi
      have := h2 i (by simpa using hi)
      rw [Nat.zero_add, this]
      simp [hi, List.getD_eq_getElem?_getD]
    obtain ⟨S, b2, m1, m2, m3, m4, m5, m6, m7, m8⟩ := mergeC_ok hb1 (tol := Real.sqrt EPSILON) (Real.sqrt_nonneg _)
    have hLlen : L.length ≤ K := by
      have := List.length_filter_le (fun j => decide (Spec.InBoxC box (f j))) (List.range K)
      rw [← hL] at this
      simpa using this
    have hget : ∀ i, i < L.length → L.getD i 0 ∈ L := by
      intro i hi
      rw [List.getD_eq_getElem?_getD, List.getElem?_eq_getElem hi]
      exact List.getElem_mem hi
    have hmono : ∀ i j, i < j → j < L.length → L.getD i 0 < L.getD j 0 := by
      intro i j hij hj
      have := List.pairwise_iff_getElem.mp hLs i j (by omega) hj hij
      simpa [List.getD_eq_getElem?_getD, hj, show i < L.length by omega] using this
    refine ⟨S.map fun i => f (L.getD i 0), b2, ?_, m4, by rw [m7, h3], fun h => absurd h hN, fun _ => ?_, ?_, ?_⟩
    · unfold bsFilter
      rw [if_neg hN, h1]
      simp only [Option.bind_eq_bind, Option.bind_some, ne_eq, not_true_eq_false, if_false, m1]
      simp
    · refine ⟨S.map fun i => L.getD i 0, ?_, ?_, ?_, ?_, by rw [List.map_map]; rfl⟩
      · rw [List.pairwise_map]
        exact (List.Pairwise.and_mem.mp m2).imp fun {j k} h => hmono j k h.2.2 (m3 k h.2.1)
      · intro j hj
        obtain ⟨i, e1, e2⟩ := List.mem_map.mp hj
        rw [← e2]
        exact (hLm _).mp (hget i (m3 i e1))
      · rw [List.pairwise_map]; exact m5
      · intro k hk hin hkS
        obtain ⟨i, hi, e⟩ := List.getElem_of_mem ((hLm k).mpr ⟨hk, hin⟩)
        have e' : L.getD i 0 = k := by simp [List.getD_eq_getElem?_getD, hi, e]
        have hiS : i ∉ S := fun h => hkS (List.mem_map.mpr ⟨i, h, e'⟩)
        obtain ⟨j, e1, e2⟩ := m6 i hi hiS
        refine ⟨L.getD j 0, ?_, ((hLm _).mp (hget j (by omega))).2, ?_⟩
        · rw [← e']; exact hmono j i e1 hi
        · rw [← e']; exact e2
    · rw [List.length_map]
      have : S.length ≤ L.length := by
        have hnd : S.Nodup := m2.imp fun h => h.ne
        have : S.toFinset ⊆ Finset.range L.length := fun x hx => by
          rw [Finset.mem_range]; exact m3 x (List.mem_toFinset.mp hx)
        have := Finset.card_le_card this
        rw [List.toFinset_card_of_nodup hnd, Finset.card_range] at this
        exact this
      omega
    · intro k hk
      rw [m8 k (by omega), h4 k hk]

end FNFT

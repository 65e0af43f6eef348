import Verif.Spec.Nsep
import Verif.Proofs.NsepPoly
import Verif.Proofs.NsevNewton
import Verif.Props.GridSearch2
/-!
# Helpers for the proofs about fnft_nsep.c
-/
namespace FNFT
open Complex

/-! ## Lists in buffers -/

theorem holds_of_list {b : Buf ℂ} {l : List ℂ} (h : b.HoldsList l) : b.Holds 0 l.length fun i => l.getD i 0 := by
  intro i hi
  rw [Nat.zero_add, h i hi, List.getElem?_eq_getElem hi]
  simp [List.getD_eq_getElem?_getD, hi]

theorem map_getD (l : List ℂ) : (List.range l.length).map (fun i => l.getD i 0) = l := by
  apply List.ext_getElem (by simp)
  intro i h1 h2
  simp [List.getD_eq_getElem?_getD, h2]

theorem list_of_holds {b : Buf ℂ} {n : ℕ} {f : ℕ → ℂ} (h : b.Holds 0 n f) : b.HoldsList ((List.range n).map f) := by
  intro i hi
  have hi : i < n := by simpa using hi
  have := h i hi
  rw [Nat.zero_add] at this
  rw [this]; simp [hi]

open Classical in
theorem filterC_list {b : Buf ℂ} {l : List ℂ} (hb : b.HoldsList l) {box : Fin 4 → Dbl} (hbox : Spec.ValidBox box) :
    ∃ b', filterC l.length b box = some (SUCCESS, (l.filter fun z => decide (Spec.InBoxC box z)).length, b') ∧
      b'.HoldsList (l.filter fun z => decide (Spec.InBoxC box z)) ∧ b'.len = b.len := by
  obtain ⟨b', h1, h2, h3, -⟩ := filterC_ok (holds_of_list hb) hbox
  have hk : ((List.range l.length).filter fun j => decide (Spec.InBoxC box (l.getD j 0))).map (fun i => l.getD i 0) =
      l.filter fun z => decide (Spec.InBoxC box z) := by
    conv_rhs => rw [← map_getD l, List.filter_map]
    rfl
  have hkl : ((List.range l.length).filter fun j => decide (Spec.InBoxC box (l.getD j 0))).length =
      (l.filter fun z => decide (Spec.InBoxC box z)).length := by rw [← hk, List.length_map]
  rw [hk] at h2
  rw [hkl] at h1
  exact ⟨b', h1, h2, h3⟩

theorem nsepFilter_ok {o : NsepOpts} (ho : o.filt = .NONE ∨ Spec.ValidBox o.box) {b : Buf ℂ} {l : List ℂ} (hb : b.HoldsList l) :
    ∃ b', nsepFilter o l.length b = some (.ok ((Spec.Kept o.filt o.box l).length, b')) ∧
      b'.HoldsList (Spec.Kept o.filt o.box l) ∧ b'.len = b.len := by
  unfold nsepFilter Spec.Kept
  by_cases hn : o.filt = .NONE
  · simp only [hn, if_true]
    exact ⟨b, rfl, hb, rfl⟩
  · simp only [if_neg hn]
    obtain ⟨b', h1, h2, h3⟩ := filterC_list hb (ho.resolve_left hn)
    refine ⟨b', ?_, h2, h3⟩
    rw [h1]; rfl

theorem z_to_lambda_list {d : NseDisc} {a : AknsDisc} (hd : nse_to_akns d = .ok a) (hdeg : akns_degree a ≠ 0) {eps : ℝ} {b : Buf ℂ}
    {l : List ℂ} (hb : b.HoldsList l) (h0 : ∀ z ∈ l, z ≠ 0) :
    ∃ b', nse_z_to_lambda l.length eps b d = some (SUCCESS, b') ∧ b'.len = b.len ∧ b'.HoldsList (l.map (Spec.lamOf a eps)) := by
  obtain ⟨b', h1, h2, h3⟩ := nse_z_to_lambda_ok (eps := eps) hd hdeg (holds_of_list hb) (fun i hi => h0 _ (by
    rw [List.getD_eq_getElem?_getD, List.getElem?_eq_getElem hi]; exact List.getElem_mem hi))
  refine ⟨b', h1, h2, ?_⟩
  have := list_of_holds h3
  rw [show (List.range l.length).map (fun i => log (l.getD i 0) / (2 * I * eps / Spec.degree1step a)) = l.map (Spec.lamOf a eps) by
    conv_rhs => rw [← map_getD l, List.map_map]
    rfl] at this
  exact this

theorem copyAt_ok {off K : ℕ} {src dst : Buf ℂ} {l : List ℂ} (hs : src.HoldsList l) (hK : K ≤ l.length) (hd : off + K ≤ dst.len) :
    ∃ b, copyAt off K src dst = some b ∧ Spec.WroteAt off (l.take K) dst b := by
  obtain ⟨b, h1, h2, h3⟩ := fill_spec (off := off) (cnt := K) (b := dst) (f := fun i => src.rd (i - off)) (fun i => l.getD (i - off) 0)
    (fun i hi hi' => by
      have := holds_of_list hs (i - off) (by omega)
      rwa [Nat.zero_add] at this) (Or.inl hd)
  have hl : (l.take K).length = K := by rw [List.length_take]; omega
  refine ⟨b, h1, h2, fun i hi => ?_, fun j hj => ?_⟩
  · rw [hl] at hi
    rw [h3, if_pos (by omega), List.getElem?_take_of_lt hi, show off + i - off = i by omega,
      List.getElem?_eq_getElem (by omega), List.getD_eq_getElem?_getD, List.getElem?_eq_getElem (by omega)]
    rfl
  · rw [hl] at hj
    rw [h3, if_neg (by omega)]

theorem WroteAt.append {off : ℕ} {l l' : List ℂ} {b b' b'' : Buf ℂ} (h : Spec.WroteAt off l b b') (h' : Spec.WroteAt (off + l.length) l' b' b'') :
    Spec.WroteAt off (l ++ l') b b'' := by
  obtain ⟨h1, h2, h3⟩ := h
  obtain ⟨g1, g2, g3⟩ := h'
  refine ⟨by rw [g1, h1], fun i hi => ?_, fun j hj => ?_⟩
  · rw [List.length_append] at hi
    by_cases hc : i < l.length
    · rw [g3 _ (Or.inl (by omega)), h2 i hc, List.getElem?_append_left hc]
    · rw [show off + i = off + l.length + (i - l.length) by omega, g2 _ (by omega), List.getElem?_append_right (by omega)]
  · rw [List.length_append] at hj
    rw [g3 j (by omega), h3 j (by omega)]

theorem WroteAt.nil (off : ℕ) (b : Buf ℂ) : Spec.WroteAt off [] b b :=
  ⟨rfl, fun i hi => absurd hi (by simp), fun _ _ => rfl⟩

end FNFT

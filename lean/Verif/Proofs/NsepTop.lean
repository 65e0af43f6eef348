import Verif.Proofs.NsepGrid3
/-!
# Proofs: the main routine of fnft_nsep.c
-/
namespace FNFT
open Complex

/-- What happens after the call of the method: shift back. -/
noncomputable def nsepFinish (L : ℝ) (R : ℤ × NsepSt) : Option (ℤ × Option NsepSt) :=
  if R.1 ≠ SUCCESS then some (R.1, some R.2)
  else do
    let main ← nsepShift R.2.K L R.2.main
    let aux ← nsepShift R.2.M L R.2.aux
    return (SUCCESS, some ⟨R.2.K, main, R.2.M, aux, nsepShiftBox L R.2.opts⟩)

theorem frameOpts_eq (L : ℝ) (o : NsepOpts) : nsepShiftBox (-L) o = Spec.frameOpts L o := rfl

theorem frame_disc (L : ℝ) (o : NsepOpts) : (Spec.frameOpts L o).disc = o.disc := by
  unfold Spec.frameOpts; split_ifs <;> rfl

theorem frame_filt (L : ℝ) (o : NsepOpts) : (Spec.frameOpts L o).filt = o.filt := by
  unfold Spec.frameOpts; split_ifs <;> rfl

theorem frame_loc (L : ℝ) (o : NsepOpts) : (Spec.frameOpts L o).loc = o.loc := by
  unfold Spec.frameOpts; split_ifs <;> rfl

theorem rotate_ok {D : ℕ} {q : Buf ℂ} {x : ℕ → ℂ} (hq : q.Holds 0 D x) (L T0 eps : ℝ) :
    ∃ qp, nsepRotate D q L T0 eps = some qp ∧ qp.Holds 0 D (Spec.periodic x L T0 eps) := by
  obtain ⟨b, h1, h2, h3⟩ := fill_spec (off := 0) (cnt := D) (b := Buf.malloc D)
    (f := fun i => do
      let x ← q.rd i
      return x * exp (2 * I * L * (T0 + eps * i))) (Spec.periodic x L T0 eps)
    (fun i _ hi => by
      have := hq i (by omega)
      rw [Nat.zero_add] at this
      simp only [this, Option.bind_eq_bind, Option.bind_some, Option.pure_def]; rfl) (Or.inl (by simp))
  refine ⟨b, h1, fun i hi => ?_⟩
  have := h3 i
  rw [Nat.zero_add, this, if_pos ⟨by omega, by omega⟩]

theorem lamShift_eq (ph T : ℝ) : ph / (-2 * T) = Spec.lamShift ph T := by
  unfold Spec.lamShift
  rw [neg_mul, div_neg, neg_div]

theorem nsep_top' {D : ℕ} {q : Buf ℂ} {x : ℕ → ℂ} {T0 T1 : ℝ} {kappa : ℤ} {o : NsepOpts} {a : AknsDisc}
    (h : Spec.NsepArgs D q x T0 T1 kappa o a)
    {L ph : ℝ} (hL : L = Spec.lamShift ph (T1 - T0)) :
    ∃ qp, PerArgs D qp (Spec.periodic x L T0 ((T1 - T0) / D)) T0 T1 kappa o.disc a ∧
      ∀ (K M : ℕ) (main aux : Option (Buf ℂ)), (o.filt = .NONE ∨ main ≠ none ∨ aux = none) → ∀ roots junk,
      fnft_nsep roots junk D (some q) (some (T0, T1)) ph (some K) main (some M) aux false kappa o =
        (nsepSwitch roots junk D qp T0 T1 kappa ⟨K, main, M, aux, Spec.frameOpts L o⟩).bind (nsepFinish L) := by
  obtain ⟨k, hk, rfl⟩ := h.hD
  obtain ⟨qp, h1, h2⟩ := rotate_ok h.hq L T0 ((T1 - T0) / (2 ^ k : ℕ))
  have hD : 2 ≤ 2 ^ k := le_trans (by norm_num) (Nat.pow_le_pow_right (by norm_num : 1 ≤ 2) hk)
  refine ⟨qp, ⟨h.hd, hD, ?_, h.hCF, h.hsize, h2, h.hT, h.hk⟩, fun K M main aux hboth roots junk => ?_⟩
  · obtain ⟨j, rfl⟩ : ∃ j, k = j + 1 := ⟨k - 1, by omega⟩
    rw [pow_succ]; omega
  · have hand := Nat.and_two_pow_sub_one_eq_mod (2 ^ k) k
    rw [Nat.mod_self] at hand
    have hrq : ¬ (o.filt ≠ .NONE ∧ main = none ∧ aux ≠ none) := by
      rintro ⟨a1, a2, a3⟩
      rcases hboth with b | b | b
      · exact a1 b
      · exact b a2
      · exact a3 b
    unfold fnft_nsep
    dsimp only
    rw [if_neg (by rw [hand]; simp; omega), if_neg (not_le.mpr h.hT), if_neg (by simp [h.hk]), if_neg (by simp), if_neg hrq, lamShift_eq, ← hL, h1]
    simp only [Option.bind_eq_bind, Option.bind_some, frameOpts_eq]
    rfl

theorem nsep_top {D : ℕ} {q : Buf ℂ} {x : ℕ → ℂ} {T0 T1 : ℝ} {kappa : ℤ} {o : NsepOpts} {a : AknsDisc}
    (h : Spec.NsepArgs D q x T0 T1 kappa o a) {K M : ℕ} {main aux : Option (Buf ℂ)} (hr : Spec.NsepReq o K main M aux)
    {L ph : ℝ} (hL : L = Spec.lamShift ph (T1 - T0)) :
    ∃ qp, PerArgs D qp (Spec.periodic x L T0 ((T1 - T0) / D)) T0 T1 kappa o.disc a ∧ ∀ roots junk,
      fnft_nsep roots junk D (some q) (some (T0, T1)) ph (some K) main (some M) aux false kappa o =
        (nsepSwitch roots junk D qp T0 T1 kappa ⟨K, main, M, aux, Spec.frameOpts L o⟩).bind (nsepFinish L) := by
  obtain ⟨qp, h1, h2⟩ := nsep_top' h hL
  exact ⟨qp, h1, h2 K M main aux hr.both⟩

theorem shift_ok {l : List ℂ} {b b' : Buf ℂ} (hw : Spec.WroteAt 0 l b b') (L : ℝ) :
    ∃ b'', nsepShift l.length L (some b') = some (some b'') ∧ Spec.WroteAt 0 (l.map (· + (L : ℂ))) b b'' := by
  obtain ⟨w1, w2, w3⟩ := hw
  have key := forLoop_inv (n := l.length) (body := fun i (b : Buf ℂ) => do
      let x ← b.rd i
      b.wr i (x + (L : ℂ))) (s := b')
    (fun n s => s.len = b.len ∧ ∀ j, s.rd j = if j < n then (b'.rd j).map (· + (L : ℂ)) else b'.rd j)
    ⟨w1, fun j => by simp⟩ (fun i s hi ⟨hs1, hs2⟩ => by
      have hrd : b'.rd i = some l[i] := by
        have := w2 i hi
        rwa [Nat.zero_add, List.getElem?_eq_getElem hi] at this
      have e1 : s.rd i = some l[i] := by rw [hs2 i, if_neg (by omega), hrd]
      obtain ⟨c, c1, c2, c3⟩ := Buf.wr_spec (b := s) (i := i) (l[i] + (L : ℂ)) (Buf.rd_lt e1)
      refine ⟨c, by simp only [e1, Option.bind_eq_bind, Option.bind_some, c1], by rw [c2, hs1], fun j => ?_⟩
      by_cases hj : j = i
      · subst hj
        rw [c3.1, if_pos (by omega), hrd]; rfl
      · rw [c3.2 j hj, hs2 j]
        by_cases hj2 : j < i
        · rw [if_pos hj2, if_pos (by omega)]
        · rw [if_neg hj2, if_neg (by omega)])
  obtain ⟨c, c1, c2, c3⟩ := key
  refine ⟨c, by unfold nsepShift; dsimp only; rw [c1]; rfl, c2, fun i hi => ?_, fun j hj => ?_⟩
  · rw [List.length_map] at hi
    have := w2 i hi
    rw [Nat.zero_add] at this ⊢
    rw [c3, if_pos hi, this]; simp
  · rw [List.length_map] at hj
    rw [c3 j, if_neg (by omega), w3 j (by omega)]

theorem addR_cancel (b : Dbl) (L : ℝ) : (b.addR (-L)).addR L = b := by
  cases b with
  | nan => rfl
  | num x =>
    simp only [Dbl.addR]
    congr 1
    induction x using EReal.rec with
    | bot => simp
    | coe x => norm_cast; ring
    | top => simp [EReal.top_add_coe]

theorem box_back (L : ℝ) (o : NsepOpts) (a : AknsDisc) (H : ℝ) :
    nsepShiftBox L { Spec.frameOpts L o with box := Spec.nsepEffBox (Spec.frameOpts L o) a H } =
      { o with box := Spec.nsepEffBox o a H } := by
  unfold nsepShiftBox Spec.nsepEffBox
  simp only [frame_filt]
  by_cases hm : o.filt = .MANUAL
  · have hna : o.filt ≠ .AUTO := by rw [hm]; simp
    simp only [if_pos hm, if_neg hna]
    unfold Spec.frameOpts
    simp only [if_pos hm]
    congr 1
    funext i
    fin_cases i <;> simp [addR_cancel]
  · simp only [if_neg hm]
    have : Spec.frameOpts L o = o := by unfold Spec.frameOpts; rw [if_neg hm]
    rw [this]

/-- The shift of a list that was written to an optional array. -/
theorem listOut_shift {cap dflt n : ℕ} {l : List ℂ} {b m : Option (Buf ℂ)} (hl : Spec.ListOut 0 cap l dflt b n m) (L : ℝ) :
    ∃ m', nsepShift n L m = some m' ∧ Spec.ListOut 0 cap (l.map (· + (L : ℂ))) dflt b n m' := by
  obtain ⟨h1, h2⟩ := hl
  rcases b with _ | b
  · obtain ⟨rfl, rfl⟩ := h1 rfl
    exact ⟨none, rfl, fun _ => ⟨rfl, rfl⟩, fun c hc => (by cases hc)⟩
  · obtain ⟨rfl, c', rfl, hw⟩ := h2 b rfl
    obtain ⟨b'', e1, e2⟩ := shift_ok hw L
    refine ⟨some b'', e1, fun hc => (by cases hc), fun c hc => ?_⟩
    cases hc
    rw [← List.map_take]
    exact ⟨by simp, b'', rfl, e2⟩

end FNFT

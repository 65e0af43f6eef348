import Verif.Proofs.NsevRich
import Verif.Props.NsevRich
/-!
# Proofs: Richardson extrapolation of the discrete spectrum
-/
namespace FNFT
open Complex AknsDisc

/-- `m` is the position of the closest one of the values `mu 0, ..., mu (Ks-1)` to `l` (the first one, if there are several), if its relative
distance from `l` is less than `eps`; otherwise `none`. -/
def Spec.Matched (eps : ℝ) (l : ℂ) (Ks : ℕ) (mu : ℕ → ℂ) : Option ℕ → Prop
  | none => ∀ j, j < Ks → l = 0 ∨ eps ≤ ‖l - mu j‖ / ‖l‖
  | some m => m < Ks ∧ l ≠ 0 ∧ ‖l - mu m‖ / ‖l‖ < eps ∧ (∀ j, j < Ks → ‖l - mu m‖ ≤ ‖l - mu j‖) ∧ ∀ j, j < m → ‖l - mu m‖ < ‖l - mu j‖

theorem richFind_ok {Ks : ℕ} {mu : ℕ → ℂ} {sub : Buf ℂ} (hs : sub.Holds 0 Ks mu) (eps : ℝ) (l : ℂ) :
    ∃ f, forLoop Ks (richFind l sub) (eps, none) = some f ∧ Spec.Matched eps l Ks mu f.2 := by
  have key := forLoop_inv (n := Ks) (body := richFind l sub) (s := (eps, none))
    (fun k s => Spec.Matched eps l k mu s.2 ∧ (s.2 = none → s.1 = eps) ∧ ∀ m, s.2 = some m → s.1 = ‖l - mu m‖ / ‖l‖) ⟨fun j hj => by omega, fun _ => rfl, fun m h => by cases h⟩ ?_
  · obtain ⟨f, h1, h2⟩ := key
    exact ⟨f, h1, h2.1⟩
  · rintro i ⟨t, loc⟩ hi ⟨h1, h2, h3⟩
    have hr := hs i hi
    rw [Nat.zero_add] at hr
    dsimp only at h1 h2 h3
    unfold richFind
    rw [hr]
    simp only [Option.bind_eq_bind, Option.bind_some]
    by_cases hc : l ≠ 0 ∧ ‖l - mu i‖ / ‖l‖ < t
    · rw [if_pos hc]
      refine ⟨_, rfl, ?_, (fun h => by cases h), (fun m hm => by cases hm; rfl)⟩
      have hl : 0 < ‖l‖ := norm_pos_iff.mpr hc.1
      cases loc with
      | none =>
        have ht := h2 rfl
        subst ht
        have hlt : ∀ j, j < i → ‖l - mu i‖ < ‖l - mu j‖ := by
          intro j hj
          have := (h1 j hj).resolve_left hc.1
          have h4 := lt_of_lt_of_le hc.2 this
          rwa [div_lt_div_iff_of_pos_right hl] at h4
        refine ⟨by omega, hc.1, hc.2, fun j hj => ?_, hlt⟩
        by_cases hji : j = i
        · rw [hji]
        · exact (hlt j (by omega)).le
      | some m =>
        have ht := h3 m rfl
        obtain ⟨g1, g2, g3, g4, g5⟩ := h1
        have hc2 := hc.2
        rw [ht] at hc2
        have hlt' := (div_lt_div_iff_of_pos_right hl).mp hc2
        have hlt : ∀ j, j < i → ‖l - mu i‖ < ‖l - mu j‖ := fun j hj => lt_of_lt_of_le hlt' (g4 j hj)
        refine ⟨by omega, hc.1, lt_trans hc2 g3, fun j hj => ?_, hlt⟩
        by_cases hji : j = i
        · rw [hji]
        · exact (hlt j (by omega)).le
    · rw [if_neg hc]
      refine ⟨_, rfl, ?_, h2, h3⟩
      cases loc with
      | none =>
        have ht := h2 rfl
        subst ht
        intro j hj
        by_cases hji : j = i
        · subst hji
          by_cases hl : l = 0
          · exact Or.inl hl
          · exact Or.inr (not_lt.mp fun h => hc ⟨hl, h⟩)
        · exact h1 j (by omega)
      | some m =>
        have ht := h3 m rfl
        obtain ⟨g1, g2, g3, g4, g5⟩ := h1
        have hl : 0 < ‖l‖ := norm_pos_iff.mpr g2
        refine ⟨by omega, g2, g3, fun j hj => ?_, g5⟩
        by_cases hji : j = i
        · subst hji
          have := not_lt.mp fun h => hc ⟨g2, h⟩
          rw [ht] at this
          exact (div_le_div_iff_of_pos_right hl).mp this
        · exact g4 j (by omega)

/-- The values with extrapolation of those that have a partner. -/
noncomputable def Spec.extrapolated (s p : ℕ) (u v : ℕ → ℂ) (loc : ℕ → Option ℕ) (i : ℕ) : ℂ :=
  match loc i with
  | none => u i
  | some j => Spec.richardson s p (u i) (v j)

theorem richStep_eq (s p : ℕ) (x y : ℂ) : richStep ((s : ℝ) ^ p) x y = Spec.richardson s p x y := by
  unfold richStep Spec.richardson
  push_cast
  rfl

/-- The new residue of bound state `i`, where `ap i j` is the value of `a'` at the partner `j`. -/
noncomputable def Spec.extrapolatedResidue (s p : ℕ) (b r : ℕ → ℂ) (ap : ℕ → ℕ → ℂ) (loc : ℕ → Option ℕ) (i : ℕ) : ℂ :=
  match loc i with
  | none => r i
  | some j => b i / Spec.richardson s p (b i / r i) (ap i j)

/-- Is the number of the bound states before bound state `i` that have the partner `m` odd? -/
def Spec.oddBefore (loc : ℕ → Option ℕ) (m : ℕ) : ℕ → Bool
  | 0 => false
  | i + 1 => if loc i = some m then !Spec.oddBefore loc m i else Spec.oddBefore loc m i

/-- What the program uses as value of `a'` at the partner `m` of bound state `i`: it replaces the residue `b/a'` by `b/(b/a') = a'`, so that this becomes the residue again if the
partner is used for a second time. -/
noncomputable def Spec.usedDeriv (b ap : ℕ → ℂ) (loc : ℕ → Option ℕ) (i m : ℕ) : ℂ := if Spec.oddBefore loc m i then b m / ap m else ap m

theorem oddBefore_inj {loc : ℕ → Option ℕ} {m i : ℕ} (h : ∀ i', i' < i → loc i' ≠ some m) : Spec.oddBefore loc m i = false := by
  induction i with
  | zero => rfl
  | succ i ih =>
    rw [Spec.oddBefore, if_neg (h i (by omega))]
    exact ih fun i' hi' => h i' (by omega)

/-- The search for the partners. -/
theorem rich_locs {Ks : ℕ} {mu : ℕ → ℂ} {sub : Buf ℂ} (hs : sub.Holds 0 Ks mu) (eps : ℝ) (lam : ℕ → ℂ) :
    ∃ loc : ℕ → Option ℕ, ∀ i, Spec.Matched eps (lam i) Ks mu (loc i) ∧ ∃ f, forLoop Ks (richFind (lam i) sub) (eps, none) = some f ∧ f.2 = loc i := by
  choose f h1 h2 using fun i => richFind_ok hs eps (lam i)
  exact ⟨fun i => (f i).2, fun i => ⟨h2 i, f i, h1 i, rfl⟩⟩

/-- Only the bound states are extrapolated. -/
theorem richLoop_bs {K Ks s p : ℕ} {eps : ℝ} {ds : DsType} (hds : ¬ (ds = .RESIDUES ∨ ds = .BOTH)) {bsub bs sub : Buf ℂ} {rv : Option (Buf ℂ)} {lam mu : ℕ → ℂ}
    (hb : bs.Holds 0 K lam) (hm : bsub.Holds 0 Ks mu) {loc : ℕ → Option ℕ}
    (hloc : ∀ i, Spec.Matched eps (lam i) Ks mu (loc i) ∧ ∃ f, forLoop Ks (richFind (lam i) bsub) (eps, none) = some f ∧ f.2 = loc i) :
    ∃ bs', forLoop K (richBody K Ks ((s : ℝ) ^ p) eps ds bsub) ⟨bs, rv, sub⟩ = some ⟨bs', rv, sub⟩ ∧ bs'.len = bs.len ∧ (∀ j, K ≤ j → bs'.rd j = bs.rd j) ∧
      bs'.Holds 0 K (Spec.extrapolated s p lam mu loc) := by
  have key := forLoop_inv (n := K) (body := richBody K Ks ((s : ℝ) ^ p) eps ds bsub) (s := ⟨bs, rv, sub⟩)
    (fun k S => S.rv = rv ∧ S.sub = sub ∧ S.bs.len = bs.len ∧ ∀ j, S.bs.rd j = if j < k then some (Spec.extrapolated s p lam mu loc j) else bs.rd j)
    ⟨rfl, rfl, rfl, fun j => by simp⟩ ?_
  · obtain ⟨S, h1, h2, h3, h4, h5⟩ := key
    obtain ⟨b', rv', sub'⟩ := S
    dsimp only at h2 h3 h4 h5
    subst h2 h3
    exact ⟨b', h1, h4, fun j hj => by rw [h5, if_neg (by omega)], fun j hj => by rw [Nat.zero_add, h5, if_pos hj]⟩
  · rintro i ⟨b', rv', sub'⟩ hi ⟨h2, h3, h4, h5⟩
    dsimp only at h2 h3 h4 h5
    subst h2 h3
    have hr : b'.rd i = some (lam i) := by
      rw [h5, if_neg (by omega)]
      simpa using hb i hi
    obtain ⟨f, f1, f2⟩ := (hloc i).2
    have hM := (hloc i).1
    unfold richBody
    simp only [hr, f1, Option.bind_eq_bind, Option.bind_some]
    rw [f2]
    cases hl : loc i with
    | none =>
      refine ⟨_, rfl, rfl, rfl, h4, fun j => ?_⟩
      dsimp only
      rw [h5]
      by_cases hj : j = i
      · subst hj
        rw [if_neg (by omega), if_pos (by omega)]
        unfold Spec.extrapolated
        rw [hl]
        simpa using hb j hi
      · exact if_congr (by omega) rfl rfl
    | some m =>
      rw [hl] at hM
      have hy : bsub.rd m = some (mu m) := by simpa using hm m hM.1
      obtain ⟨b2, w1, w2, w3, w4⟩ := Buf.wr_spec (richStep ((s : ℝ) ^ p) (lam i) (mu m)) (Buf.rd_lt hr)
      simp only [hy, w1, Option.bind_some]
      rw [if_neg hds]
      refine ⟨_, rfl, rfl, rfl, by rw [w2, h4], fun j => ?_⟩
      dsimp only
      by_cases hj : j = i
      · subst hj
        rw [w3, if_pos (by omega), richStep_eq]
        unfold Spec.extrapolated
        rw [hl]
      · rw [w4 j hj, h5]
        exact if_congr (by omega) rfl rfl

/-- Bound states and residues are extrapolated. The arrays contain the norming constants `b`, `b2` and residues `r`, `b2/ap2` of the two approximations. -/
theorem richLoop_res {K Ks s p : ℕ} {eps : ℝ} {ds : DsType} (hds : ds = .RESIDUES ∨ ds = .BOTH) {bsub bs sub rv : Buf ℂ} {lam mu b r b2 ap : ℕ → ℂ}
    (hb : bs.Holds 0 K lam) (hm : bsub.Holds 0 Ks mu) (hrv : ∀ i, i < K → rv.rd i = some (b i) ∧ rv.rd (K + i) = some (r i))
    (hsub : ∀ i, i < Ks → sub.rd i = some (b2 i) ∧ sub.rd (Ks + i) = some (b2 i / ap i)) {loc : ℕ → Option ℕ}
    (hloc : ∀ i, Spec.Matched eps (lam i) Ks mu (loc i) ∧ ∃ f, forLoop Ks (richFind (lam i) bsub) (eps, none) = some f ∧ f.2 = loc i)
    (hok : ∀ i m, i < K → loc i = some m → r i ≠ 0 ∧ b2 m ≠ 0 ∧ ap m ≠ 0 ∧ Spec.richardson s p (b i / r i) (Spec.usedDeriv b2 ap loc i m) ≠ 0) :
    ∃ bs' rv' sub', forLoop K (richBody K Ks ((s : ℝ) ^ p) eps ds bsub) ⟨bs, some rv, sub⟩ = some ⟨bs', some rv', sub'⟩ ∧ bs'.len = bs.len ∧
      (∀ j, K ≤ j → bs'.rd j = bs.rd j) ∧ bs'.Holds 0 K (Spec.extrapolated s p lam mu loc) ∧ rv'.len = rv.len ∧
      (∀ j, ¬ (K ≤ j ∧ j < K + K) → rv'.rd j = rv.rd j) ∧ rv'.Holds K K (Spec.extrapolatedResidue s p b r (Spec.usedDeriv b2 ap loc) loc) := by
  have key := forLoop_inv (n := K) (body := richBody K Ks ((s : ℝ) ^ p) eps ds bsub) (s := ⟨bs, some rv, sub⟩)
    (fun k S => ∃ rv', S.rv = some rv' ∧ S.bs.len = bs.len ∧ rv'.len = rv.len ∧
      (∀ j, S.bs.rd j = if j < k then some (Spec.extrapolated s p lam mu loc j) else bs.rd j) ∧
      (∀ j, rv'.rd j = if K ≤ j ∧ j < K + k then some (Spec.extrapolatedResidue s p b r (Spec.usedDeriv b2 ap loc) loc (j - K)) else rv.rd j) ∧
      ∀ m, m < Ks → S.sub.rd m = some (b2 m) ∧ S.sub.rd (Ks + m) = some (if Spec.oddBefore loc m k then ap m else b2 m / ap m))
    ⟨rv, rfl, rfl, rfl, fun j => by simp, fun j => by rw [if_neg (by omega)], fun m hm => ⟨(hsub m hm).1, by rw [(hsub m hm).2]; rfl⟩⟩ ?_
  · obtain ⟨S, h1, rv', h2, h3, h4, h5, h6, h7⟩ := key
    obtain ⟨b', rvo, sub'⟩ := S
    dsimp only at h2 h3 h4 h5 h6 h7
    subst h2
    refine ⟨b', rv', sub', h1, h3, fun j hj => by rw [h5, if_neg (by omega)], fun j hj => by rw [Nat.zero_add, h5, if_pos hj], h4, fun j hj => by rw [h6, if_neg hj], fun j hj => ?_⟩
    rw [h6, if_pos (by omega), Nat.add_sub_cancel_left]
  · rintro i ⟨b', rvo, sub'⟩ hi ⟨rv', h2, h3, h4, h5, h6, h7⟩
    dsimp only at h2 h3 h4 h5 h6 h7
    subst h2
    have hr : b'.rd i = some (lam i) := by
      rw [h5, if_neg (by omega)]
      simpa using hb i hi
    obtain ⟨f, f1, f2⟩ := (hloc i).2
    have hM := (hloc i).1
    unfold richBody
    simp only [hr, f1, Option.bind_eq_bind, Option.bind_some]
    rw [f2]
    cases hl : loc i with
    | none =>
      refine ⟨_, rfl, rv', rfl, h3, h4, fun j => ?_, fun j => ?_, fun m hm => ⟨(h7 m hm).1, by have := (h7 m hm).2; simpa only [Spec.oddBefore, hl, reduceCtorEq, if_false] using this⟩⟩
      · dsimp only
        rw [h5]
        by_cases hj : j = i
        · subst hj
          rw [if_neg (by omega), if_pos (by omega)]
          unfold Spec.extrapolated
          rw [hl]
          simpa using hb j hi
        · exact if_congr (by omega) rfl rfl
      · rw [h6]
        by_cases hj : j = K + i
        · subst hj
          rw [if_neg (by omega), if_pos (by omega), (hrv i hi).2, Nat.add_sub_cancel_left]
          unfold Spec.extrapolatedResidue
          rw [hl]
        · exact if_congr (by omega) rfl rfl
    | some m =>
      rw [hl] at hM
      obtain ⟨k1, k2, k3, k4⟩ := hok i m hi hl
      have hy : bsub.rd m = some (mu m) := by simpa using hm m hM.1
      obtain ⟨b3, w1, w2, w3, w4⟩ := Buf.wr_spec (richStep ((s : ℝ) ^ p) (lam i) (mu m)) (Buf.rd_lt hr)
      have e1 : rv'.rd i = some (b i) := by rw [h6, if_neg (by omega)]; exact (hrv i hi).1
      have e2 : rv'.rd (K + i) = some (r i) := by rw [h6, if_neg (by omega)]; exact (hrv i hi).2
      have e3 := (h7 m hM.1).1
      have e4 := (h7 m hM.1).2
      have e5 : divNZ (b i) (r i) = some (b i / r i) := by unfold divNZ; rw [if_neg k1]
      have e6 : divNZ (b2 m) (if Spec.oddBefore loc m i then ap m else b2 m / ap m) = some (Spec.usedDeriv b2 ap loc i m) := by
        unfold divNZ Spec.usedDeriv
        cases Spec.oddBefore loc m i
        · simp only [Bool.false_eq_true, if_false]
          rw [if_neg (div_ne_zero k2 k3)]
          congr 1
          field_simp
        · simp only [if_true]
          rw [if_neg k3]
      obtain ⟨s3, v1, v2, v3, v4⟩ := Buf.wr_spec (Spec.usedDeriv b2 ap loc i m) (Buf.rd_lt e4)
      have e7 : divNZ (b i) (richStep ((s : ℝ) ^ p) (b i / r i) (Spec.usedDeriv b2 ap loc i m)) = some (b i / Spec.richardson s p (b i / r i) (Spec.usedDeriv b2 ap loc i m)) := by
        rw [richStep_eq]
        unfold divNZ
        rw [if_neg k4]
      obtain ⟨r3, u1, u2, u3, u4⟩ := Buf.wr_spec (b i / Spec.richardson s p (b i / r i) (Spec.usedDeriv b2 ap loc i m)) (Buf.rd_lt e2)
      have hres : richResidue K Ks i m ((s : ℝ) ^ p) rv' sub' = some (r3, s3) := by
        unfold richResidue
        simp only [e1, e2, e3, e4, e5, e6, e7, v1, u1, Option.bind_eq_bind, Option.bind_some, Option.pure_def]
      simp only [hy, w1, Option.bind_some]
      rw [if_pos hds]
      simp only [hres, Option.bind_some]
      refine ⟨_, rfl, r3, rfl, by rw [w2, h3], by rw [u2, h4], fun j => ?_, fun j => ?_, fun n hn => ⟨?_, ?_⟩⟩
      · dsimp only
        by_cases hj : j = i
        · subst hj
          rw [w3, if_pos (by omega), richStep_eq]
          unfold Spec.extrapolated
          rw [hl]
        · rw [w4 j hj, h5]
          exact if_congr (by omega) rfl rfl
      · by_cases hj : j = K + i
        · subst hj
          rw [u3, if_pos (by omega), Nat.add_sub_cancel_left]
          unfold Spec.extrapolatedResidue
          rw [hl]
        · rw [u4 j hj, h6]
          exact if_congr (by omega) rfl rfl
      · dsimp only
        rw [v4 n (by have := hM.1; omega)]
        exact (h7 n hn).1
      · dsimp only
        rw [Spec.oddBefore, hl]
        by_cases hnm : n = m
        · subst hnm
          rw [v3, if_pos rfl]
          unfold Spec.usedDeriv
          cases Spec.oddBefore loc n i <;> rfl
        · rw [v4 (Ks + n) (by omega), if_neg (show ¬ (some m = some n) from fun h => by injection h with h; exact hnm h.symm)]
          exact (h7 n hn).2

end FNFT

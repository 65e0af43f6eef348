import Verif.Proofs.NsevFast
/-!
# Proofs: norming constants and residues
-/
namespace FNFT
open Complex AknsDisc

/-- Number of values per bound state. -/
def Spec.dsLen : DsType → ℕ
  | .BOTH => 2
  | _ => 1

/-- The output for norming constants `b` and derivatives `ap`: the norming constants, the residues `b_i / ap_i`, or first all norming
constants and then all residues. -/
noncomputable def Spec.dsOut (ds : DsType) (K : ℕ) (b ap : ℕ → ℂ) (j : ℕ) : ℂ :=
  match ds with
  | .RESIDUES => b j / ap j
  | .BOTH => if j < K then b j else b (j - K) / ap (j - K)
  | _ => b j

theorem residue_loop {off K : ℕ} {ap : Buf ℂ} {Ws : Option (Buf ℤ)} {x b apf : ℕ → ℂ} {wt : ℕ → ℤ} {nc : Buf ℂ}
    (hap : ∀ i, i < K → ap.rd i = some (x i) ∧ (2 : ℂ) ^ wt i * x i = apf i)
    (hW : ∀ V, Ws = some V → ∀ i, i < K → V.rd i = some (wt i)) (hW' : Ws = none → ∀ i, i < K → wt i = 0)
    (hnc : nc.Holds off K b) :
    ∃ s, forLoop K (residueBody off ap Ws) (false, nc) = some s ∧ s.2.len = nc.len ∧ (∀ j, j < off ∨ off + K ≤ j → s.2.rd j = nc.rd j) ∧
      (s.1 = true ↔ ∃ i, i < K ∧ apf i = 0) ∧ (s.1 = false → s.2.Holds off K (fun i => b i / apf i)) := by
  have key := forLoop_inv (n := K) (body := residueBody off ap Ws) (s := (false, nc))
    (fun k s => s.2.len = nc.len ∧ (∀ j, j < off ∨ off + K ≤ j → s.2.rd j = nc.rd j) ∧ (s.1 = true ↔ ∃ i, i < k ∧ apf i = 0) ∧
      (s.1 = false → (∀ i, i < k → s.2.rd (off + i) = some (b i / apf i)) ∧ ∀ i, k ≤ i → s.2.rd (off + i) = nc.rd (off + i)))
    ⟨rfl, fun _ _ => rfl, by simp, fun _ => ⟨fun i hi => by omega, fun _ _ => rfl⟩⟩ ?_
  · obtain ⟨s, h1, h2, h3, h4, h5⟩ := key
    exact ⟨s, h1, h2, h3, h4, fun h => (h5 h).1⟩
  · rintro k ⟨f, c⟩ hk ⟨h1, h2, h3, h4⟩
    dsimp only at h1 h2 h3 h4
    cases f with
    | true =>
      refine ⟨(true, c), rfl, h1, h2, ?_, fun h => by cases h⟩
      obtain ⟨i, hi, h0⟩ := h3.mp rfl
      exact ⟨fun _ => ⟨i, by omega, h0⟩, fun _ => rfl⟩
    | false =>
      obtain ⟨h5, h6⟩ := h4 rfl
      obtain ⟨e1, e2⟩ := hap k hk
      have hno : ∀ i, i < k → apf i ≠ 0 := fun i hi h0 => by
        have := h3.mpr ⟨i, hi, h0⟩; cases this
      by_cases hx : x k = 0
      · refine ⟨(true, c), ?_, h1, h2, ⟨fun _ => ⟨k, by omega, by rw [← e2, hx, mul_zero]⟩, fun _ => rfl⟩, fun h => by cases h⟩
        unfold residueBody
        simp [e1, hx]
      · have hlt : off + k < c.len := by
          have := Buf.rd_lt (hnc k hk); omega
        have hap0 : apf k ≠ 0 := by
          rw [← e2]; exact mul_ne_zero (zpow_ne_zero _ two_ne_zero) hx
        have hrd : c.rd (off + k) = some (b k) := by rw [h6 k le_rfl]; exact hnc k hk
        refine ⟨(false, c.set (off + k) (b k / x k / 2 ^ wt k)), ?_, by simp [h1], ?_, ?_, ?_⟩
        · unfold residueBody
          simp only [Bool.false_eq_true, if_false, e1, Option.bind_eq_bind, Option.bind_some, hx, hrd]
          cases hWs : Ws with
          | none => simp [hW' hWs k hk, Buf.wr_eq _ hlt]
          | some V => simp [hW V hWs k hk, Buf.wr_eq _ hlt]
        · intro j hj
          dsimp only
          rw [Buf.rd_set _ hlt, if_neg (by omega)]
          exact h2 j hj
        · refine ⟨fun h => (by cases h), ?_⟩
          rintro ⟨i, hi, h0⟩
          rcases Nat.lt_succ_iff_lt_or_eq.mp hi with hi | rfl
          · exact absurd h0 (hno i hi)
          · exact absurd h0 hap0
        · intro _
          dsimp only
          refine ⟨fun i hi => ?_, fun i hi => ?_⟩
          · rw [Buf.rd_set _ hlt]
            by_cases hik : off + i = off + k
            · have : i = k := by omega
              subst this
              rw [if_pos rfl, ← e2, div_div, mul_comm]
            · rw [if_neg hik]; exact h5 i (by omega)
          · rw [Buf.rd_set _ hlt, if_neg (by omega)]
            exact h6 i (by omega)

/-- What is written: `out 0, ..., out (n-1)`, nothing else is changed. -/
def Spec.Wrote (nc nc' : Buf ℂ) (n : ℕ) (out : ℕ → ℂ) : Prop :=
  nc'.len = nc.len ∧ nc'.Holds 0 n out ∧ ∀ j, n ≤ j → nc'.rd j = nc.rd j

theorem residues_ok {ds : DsType} (hds : ∀ n, ds ≠ .other n) {K : ℕ} {ap : Buf ℂ} {Ws : Option (Buf ℤ)} {x b apf : ℕ → ℂ} {wt : ℕ → ℤ} {nc : Buf ℂ}
    (hap : ∀ i, i < K → ap.rd i = some (x i) ∧ (2 : ℂ) ^ wt i * x i = apf i)
    (hW : ∀ V, Ws = some V → ∀ i, i < K → V.rd i = some (wt i)) (hW' : Ws = none → ∀ i, i < K → wt i = 0)
    (hnc : nc.Holds 0 K b) (hl : Spec.dsLen ds * K ≤ nc.len) :
    ∃ code nc', residues ds K ap Ws nc = some (code, nc') ∧ nc'.len = nc.len ∧
      (∀ j, Spec.dsLen ds * K ≤ j → nc'.rd j = nc.rd j) ∧
      (ds = .NORMING_CONSTANTS ∨ (∀ i, i < K → apf i ≠ 0) → code = SUCCESS ∧ nc'.Holds 0 (Spec.dsLen ds * K) (Spec.dsOut ds K b apf)) ∧
      (ds ≠ .NORMING_CONSTANTS → (∃ i, i < K ∧ apf i = 0) → code = EC_DIV_BY_ZERO) := by
  cases ds with
  | NORMING_CONSTANTS =>
    exact ⟨SUCCESS, nc, rfl, rfl, fun _ _ => rfl, fun _ => ⟨rfl, by
      intro i hi; exact hnc i (by simpa [Spec.dsLen] using hi)⟩, fun h => absurd rfl h⟩
  | other n => exact absurd rfl (hds n)
  | RESIDUES =>
    obtain ⟨s, h1, h2, h3, h4, h5⟩ := residue_loop hap hW hW' hnc
    have hr : residues .RESIDUES K ap Ws nc = some (if s.1 then EC_DIV_BY_ZERO else SUCCESS, s.2) := by
      unfold residues; dsimp only; rw [h1]; rfl
    refine ⟨_, _, hr, h2, fun j hj => h3 j (Or.inr (by simpa [Spec.dsLen] using hj)), ?_, ?_⟩
    · rintro (h | h)
      · cases h
      · have hs : s.1 = false := by
          rw [← Bool.not_eq_true]; intro hc
          obtain ⟨i, hi, h0⟩ := h4.mp hc
          exact h i hi h0
        rw [hs]
        refine ⟨rfl, ?_⟩
        intro i hi
        exact h5 hs i (by simpa [Spec.dsLen] using hi)
    · intro _ h
      rw [h4.mpr h]; rfl
  | BOTH =>
    have hl2 : 2 * K ≤ nc.len := hl
    obtain ⟨c, f1, f2, f3⟩ := fill_spec (off := K) (cnt := K) (f := fun i => nc.rd (i - K)) (b := nc) (fun i => b (i - K))
      (fun i h1 h2 => by
        have := hnc (i - K) (by omega)
        rwa [Nat.zero_add] at this) (Or.inl (by omega))
    have hc : c.Holds K K b := fun i hi => by
      rw [f3, if_pos (by omega)]; congr 2; omega
    obtain ⟨s, h1, h2, h3, h4, h5⟩ := residue_loop hap hW hW' hc
    have hr : residues .BOTH K ap Ws nc = some (if s.1 then EC_DIV_BY_ZERO else SUCCESS, s.2) := by
      unfold residues; dsimp only; rw [f1]
      simp only [Option.bind_eq_bind, Option.bind_some, h1]; rfl
    refine ⟨_, _, hr, h2.trans f2, fun j hj => ?_, ?_, ?_⟩
    · have hj' : 2 * K ≤ j := hj
      rw [h3 j (Or.inr (by omega)), f3, if_neg (by omega)]
    · rintro (h | h)
      · cases h
      · have hs : s.1 = false := by
          rw [← Bool.not_eq_true]; intro hc
          obtain ⟨i, hi, h0⟩ := h4.mp hc
          exact h i hi h0
        rw [hs]
        refine ⟨rfl, fun j hj => ?_⟩
        have hj' : j < 2 * K := hj
        rw [Nat.zero_add]
        unfold Spec.dsOut
        dsimp only
        by_cases hjK : j < K
        · rw [if_pos hjK, h3 j (Or.inl hjK), f3, if_neg (by omega)]
          have := hnc j hjK
          rwa [Nat.zero_add] at this
        · rw [if_neg hjK]
          have := h5 hs (j - K) (by omega)
          rwa [Nat.add_sub_cancel' (by omega)] at this
    · intro _ h
      rw [h4.mpr h]; rfl

variable {D Dg : ℕ} {q r : Buf ℂ} {qf rf : ℕ → ℂ} {T0 T1 eps : ℝ} {kappa : ℤ} {o : NsevOpts} {a : AknsDisc}

/-- The value that is taken as norming constant: the ratio at the boundary where the two components agree best; if there is no usable boundary,
what the array contained. -/
def Spec.NormConst (E : Spec.M2 → Spec.M2) (d : AknsDisc) (D Dg : ℕ) (T0 T1 eps : ℝ) (qf rf : ℕ → ℂ) (l : ℂ) (old : Option ℂ) (b : ℂ) : Prop :=
  ∃ v, Spec.Best false (fun n => Spec.jostPhi 1 (Spec.slowStep E d eps (Spec.cfWeight d) qf rf l) (T0 - eps / 2) l (n * Spec.perSample d))
      (fun n => Spec.jostPsi 1 (Spec.slowStep E d eps (Spec.cfWeight d) qf rf l) (Spec.slowCount d D) (T1 + eps / 2) l (n * Spec.perSample d)) Dg v ∧
    some b = match v with | none => old | some x => some x

/-- There is no boundary at which all components of the two Jost solutions are nonzero. -/
def Spec.NoBoundary (E : Spec.M2 → Spec.M2) (d : AknsDisc) (D Dg : ℕ) (T0 T1 eps : ℝ) (qf rf : ℕ → ℂ) (l : ℂ) : Prop :=
  ∀ n, n ≤ Dg → ¬ Spec.Cand false
    (fun n => Spec.jostPhi 1 (Spec.slowStep E d eps (Spec.cfWeight d) qf rf l) (T0 - eps / 2) l (n * Spec.perSample d))
    (fun n => Spec.jostPsi 1 (Spec.slowStep E d eps (Spec.cfWeight d) qf rf l) (Spec.slowCount d D) (T1 + eps / 2) l (n * Spec.perSample d)) n

theorem normconsts_ok (h : BaseArgs D Dg q r qf rf T0 T1 eps kappa o a) (hds : ∀ n, o.ds ≠ .other n) (g : Garbage)
    {K : ℕ} (hK : K ≠ 0) {bs nc : Buf ℂ} {lf : ℕ → ℂ} (hb : bs.Holds 0 K lf) (hl : Spec.dsLen o.ds * K ≤ nc.len)
    (hinit : ∀ i, i < K → Spec.NoBoundary expS (Spec.baseOf a) D Dg T0 T1 eps qf rf (lf i) → ∃ x, nc.rd i = some x) :
    ∃ code nc' b apf, nsev_normconsts D q r T0 T1 K bs nc o g = some (code, nc') ∧ nc'.len = nc.len ∧
      (∀ j, Spec.dsLen o.ds * K ≤ j → nc'.rd j = nc.rd j) ∧
      (∀ i, i < K → Spec.NormConst expS (Spec.baseOf a) D Dg T0 T1 eps qf rf (lf i) (nc.rd i) (b i)) ∧
      (∀ i, i < K → apf i = slowA' (Spec.baseOf a) D T0 T1 eps qf rf (lf i)) ∧
      (o.ds = .NORMING_CONSTANTS ∨ (∀ i, i < K → apf i ≠ 0) → code = SUCCESS ∧ nc'.Holds 0 (Spec.dsLen o.ds * K) (Spec.dsOut o.ds K b apf)) ∧
      (o.ds ≠ .NORMING_CONSTANTS → (∃ i, i < K ∧ apf i = 0) → code = EC_DIV_BY_ZERO) := by
  obtain ⟨b1, b2, b3⟩ := baseOf_ok h.hd
  have hKl : K ≤ nc.len := by
    refine le_trans ?_ hl
    have : 1 ≤ Spec.dsLen o.ds := by cases o.ds <;> simp [Spec.dsLen]
    nlinarith
  have hup : nse_upsampling_factor o.disc ≠ 0 := by rw [h.up_eq]; exact h.up_ne
  have hD0 : D ≠ 0 := by
    rw [h.hDg]; exact mul_ne_zero (by have := h.hDg2; omega) h.up_ne
  have hargs : Spec.BoundArgs D Dg q r qf rf K bs lf (Buf.malloc K) (Buf.malloc K) (some nc)
      (if o.nrm then some (Buf.malloc K) else none) (Spec.baseOf a) .NSE 0 :=
    { hDg := h.hDg2, hD := by rw [b3]; exact h.hDg, hq := h.hq, hr := h.hr, hK := by omega, hl := hb,
      hd := b2, hp := Or.inr rfl, hx := fun h => (by cases h), ha := le_rfl, hap := le_rfl, hb := fun _ => ⟨nc, rfl, hKl⟩,
      hW := fun V hV => by
        cases hn : o.nrm
        · rw [hn] at hV; cases hV
        · rw [hn] at hV; cases hV; simp }
  obtain ⟨res, wt, v, e1, e2, e3, e4, e5, e6, e7⟩ := nse_bound_ok hargs b1 T0 T1 (g 0) (g 1)
  rw [← h.heps] at e3 e7
  obtain ⟨nc1, n1, n2, n3, n4⟩ := e4 rfl nc rfl
  have hval : ∀ i, i < K → ∃ x, nc1.rd i = some x ∧ Spec.NormConst expS (Spec.baseOf a) D Dg T0 T1 eps qf rf (lf i) (nc.rd i) x := by
    intro i hi
    have hB := e7 i hi rfl
    have hn := n3 i hi
    cases hv : v i with
    | none =>
      rw [hv] at hB hn
      obtain ⟨x, hx⟩ := hinit i hi hB
      exact ⟨x, hn.trans hx, none, hB, hx.symm⟩
    | some x =>
      rw [hv] at hB hn
      exact ⟨x, hn, some x, hB, rfl⟩
  choose! b hb1 hb2 using hval
  have hap : ∀ i, i < K → ∃ x, res.aprime.rd i = some x ∧ (2 : ℂ) ^ wt i * x = slowA' (Spec.baseOf a) D T0 T1 eps qf rf (lf i) :=
    fun i hi => (e3 i hi).2
  choose! x hx using hap
  obtain ⟨code, nc', r1, r2, r3, r4, r5⟩ := residues_ok (ds := o.ds) hds (K := K) (ap := res.aprime) (Ws := res.Ws) (x := x) (b := b)
    (apf := fun i => slowA' (Spec.baseOf a) D T0 T1 eps qf rf (lf i)) (wt := wt) (nc := nc1) hx
    (fun V hV i hi => by
      cases hn : o.nrm
      · rw [hn] at e6
        rw [(e6 rfl).1] at hV; cases hV
      · rw [hn] at e5
        obtain ⟨V', v1, -, v2⟩ := e5 _ rfl
        rw [v1] at hV; cases hV
        exact v2 i hi)
    (fun hV i hi => by
      cases hn : o.nrm
      · rw [hn] at e6
        exact (e6 rfl).2 i
      · rw [hn] at e5
        obtain ⟨V', v1, -, v2⟩ := e5 _ rfl
        rw [v1] at hV; cases hV)
    (fun i hi => by rw [Nat.zero_add]; exact hb1 i hi) (by rw [n2]; exact hl)
  refine ⟨code, nc', b, _, ?_, r2.trans n2, fun j hj => ?_, hb2, fun _ _ => rfl, r4, r5⟩
  · unfold nsev_normconsts
    rw [if_neg hK, if_neg hD0, if_neg hup, e1]
    simp only [Option.bind_eq_bind, Option.bind_some, n1, e2, ne_eq, not_true_eq_false, if_false]
    exact r1
  · rw [r3 j hj]
    refine n4 j (le_trans ?_ hj)
    have : 1 ≤ Spec.dsLen o.ds := by cases o.ds <;> simp [Spec.dsLen]
    nlinarith

end FNFT

import Verif.Proofs.NsevNormc
import Verif.Props.Nsev
/-!
# Proofs: the discrete spectrum in `fnft_nsev_base`
-/
namespace FNFT
open Complex AknsDisc

/-- How the discrete part ends for the list `out` of bound states, if there is room for `K0` of them. `ret code K' bs' nc'` says that the
call ends with this code and these values of the output arguments. At most `K0` bound states are written. If norming constants or residues
are requested: let `b i` be the norming constants (see `NormConst`); the requested quantities are written; if residues are requested and `A'` is
zero at some bound state, the call fails. -/
def Spec.DiscDone (E : Spec.M2 → Spec.M2) (A' : ℂ → ℂ) (o : NsevOpts) (d : AknsDisc) (D Dg : ℕ) (T0 T1 eps : ℝ) (qf rf : ℕ → ℂ)
    (out : List ℂ) (K0 : ℕ) (bs : Buf ℂ) (nc : Option (Buf ℂ)) (ret : ℤ → ℕ → Buf ℂ → Option (Buf ℂ) → Prop) : Prop :=
  ∃ K' bs', Spec.BsWritten out K0 K' bs bs' ∧
    (nc = none → ret SUCCESS K' bs' none) ∧
    (∀ nc0, nc = some nc0 → (∀ i, i < K' → Spec.NoBoundary E d D Dg T0 T1 eps qf rf (out.getD i 0) → ∃ x, nc0.rd i = some x) →
      ∃ code nc1 b, ret code K' bs' (some nc1) ∧ nc1.len = nc0.len ∧ (∀ j, Spec.dsLen o.ds * K' ≤ j → nc1.rd j = nc0.rd j) ∧
        (∀ i, i < K' → Spec.NormConst E d D Dg T0 T1 eps qf rf (out.getD i 0) (nc0.rd i) (b i)) ∧
        (o.ds = .NORMING_CONSTANTS ∨ (∀ i, i < K' → A' (out.getD i 0) ≠ 0) → code = SUCCESS ∧
          nc1.Holds 0 (Spec.dsLen o.ds * K') (Spec.dsOut o.ds K' b (fun i => A' (out.getD i 0)))) ∧
        (o.ds ≠ .NORMING_CONSTANTS → (∃ i, i < K' ∧ A' (out.getD i 0) = 0) → code = E_SUBROUTINE EC_DIV_BY_ZERO))

variable {D Dg : ℕ} {q r : Buf ℂ} {qf rf : ℕ → ℂ} {T0 T1 eps : ℝ} {kappa : ℤ} {o : NsevOpts} {a : AknsDisc}

theorem Spec.DiscDone.mono {E : Spec.M2 → Spec.M2} {A' : ℂ → ℂ} {d : AknsDisc} {out : List ℂ} {K0 : ℕ} {bs : Buf ℂ} {nc : Option (Buf ℂ)}
    {ret ret' : ℤ → ℕ → Buf ℂ → Option (Buf ℂ) → Prop} (h : Spec.DiscDone E A' o d D Dg T0 T1 eps qf rf out K0 bs nc ret)
    (hm : ∀ code K b n, (code = SUCCESS ∨ code = E_SUBROUTINE EC_DIV_BY_ZERO) → ret code K b n → ret' code K b n) :
    Spec.DiscDone E A' o d D Dg T0 T1 eps qf rf out K0 bs nc ret' := by
  obtain ⟨K', bs', h1, h2, h3⟩ := h
  refine ⟨K', bs', h1, fun h => hm _ _ _ _ (Or.inl rfl) (h2 h), fun nc0 h0 hi => ?_⟩
  obtain ⟨code, nc1, b, e1, e2, e3, e4, e5, e6⟩ := h3 nc0 h0 hi
  refine ⟨code, nc1, b, hm _ _ _ _ ?_ e1, e2, e3, e4, e5, e6⟩
  by_cases hc : o.ds = .NORMING_CONSTANTS ∨ (∀ i, i < K' → A' (out.getD i 0) ≠ 0)
  · exact Or.inl (e5 hc).1
  · push Not at hc
    exact Or.inr (e6 hc.1 hc.2)

/-- The array for norming constants and residues is large enough. -/
def Spec.NcReq (o : NsevOpts) (K0 : ℕ) (nc : Option (Buf ℂ)) : Prop :=
  ∀ n, nc = some n → Spec.dsLen o.ds * K0 ≤ n.len ∧ ∀ k, o.ds ≠ .other k

theorem take_holds {out : List ℂ} {K0 K' : ℕ} {bs bs' : Buf ℂ} (h : Spec.BsWritten out K0 K' bs bs') :
    bs'.Holds 0 K' (fun i => out.getD i 0) := by
  obtain ⟨h1, h2, -⟩ := h
  intro i hi
  rw [Nat.zero_add, h2 i (by rw [List.length_take]; omega), List.getElem?_take_of_lt hi]
  dsimp only
  rw [List.getD_eq_getElem?_getD, List.getElem?_eq_getElem (by omega)]
  simp

/-- After the localisation. -/
theorem baseDisc_finish (h : BaseArgs D Dg q r qf rf T0 T1 eps 1 o a) (g : Garbage) {roots : RootFinder} {deg : ℕ} {tm : Option (Buf ℂ)}
    {s : NsevSt} {bs : Buf ℂ} {K0 : ℕ} (hbs : s.bs = some bs) (hK : s.K = some K0) (hnc : Spec.NcReq o K0 s.nc)
    {K' : ℕ} {bs' : Buf ℂ} {out : List ℂ}
    (hc : nsev_compute_boundstates roots D q r deg tm T0 T1 eps K0 bs o g = some (SUCCESS, K', bs'))
    (hw : Spec.BsWritten out K0 K' bs bs') :
    Spec.DiscDone expS (slowA' (Spec.baseOf a) D T0 T1 eps qf rf) o (Spec.baseOf a) D Dg T0 T1 eps qf rf out K0 bs s.nc
      (fun code K b n => baseDisc roots D q r T0 T1 eps 1 o g deg tm s = some (code, { s with K := some K, bs := some b, nc := n })) := by
  have hrun : baseDisc roots D q r T0 T1 eps 1 o g deg tm s =
      baseNorm D q r T0 T1 o g K' bs' { s with K := some K', bs := some bs' } := by
    unfold baseDisc
    rw [hbs, hK]
    simp only [if_true, Option.bind_eq_bind, Option.bind_some, hc, ne_eq, not_true_eq_false, if_false]
  refine ⟨K', bs', hw, fun hn => ?_, fun nc0 hn hinit => ?_⟩
  · rw [hrun]
    unfold baseNorm
    dsimp only
    rw [hn]
  · obtain ⟨hl, hds⟩ := hnc nc0 hn
    by_cases hK' : K' = 0
    · subst hK'
      refine ⟨SUCCESS, nc0, fun _ => 0, ?_, rfl, fun _ _ => rfl, fun i hi => by omega, fun _ => ⟨rfl, fun i hi => by simp at hi⟩, ?_⟩
      · rw [hrun]
        unfold baseNorm
        dsimp only
        rw [hn]
        rfl
      · rintro _ ⟨i, hi, -⟩; omega
    · have hle : K' ≤ K0 := by rw [hw.1]; omega
      obtain ⟨code, nc1, b, apf, n1, n2, n3, n4, n5, n6, n7⟩ := normconsts_ok h hds g hK' (take_holds hw)
        (le_trans (Nat.mul_le_mul_left _ hle) hl) hinit
      have hb : baseNorm D q r T0 T1 o g K' bs' { s with K := some K', bs := some bs' } =
          some (if code = SUCCESS then SUCCESS else E_SUBROUTINE code, { s with K := some K', bs := some bs', nc := some nc1 }) := by
        unfold baseNorm
        dsimp only
        rw [hn]
        dsimp only
        rw [if_pos hK', n1]
        rfl
      have hout : nc1.Holds 0 (Spec.dsLen o.ds * K') (Spec.dsOut o.ds K' b apf) →
          nc1.Holds 0 (Spec.dsLen o.ds * K') (Spec.dsOut o.ds K' b (fun i => slowA' (Spec.baseOf a) D T0 T1 eps qf rf (out.getD i 0))) := by
        intro hh j hj
        rw [hh j hj]
        congr 1
        cases hds' : o.ds with
        | NORMING_CONSTANTS => rfl
        | other k => rfl
        | RESIDUES =>
          unfold Spec.dsOut
          rw [hds'] at hj
          have hj' : j < K' := by simpa [Spec.dsLen] using hj
          dsimp only
          rw [n5 j hj']
        | BOTH =>
          unfold Spec.dsOut
          rw [hds'] at hj
          have hj' : j < 2 * K' := by simpa [Spec.dsLen] using hj
          dsimp only
          split
          · rfl
          · rw [n5 (j - K') (by omega)]
      refine ⟨_, nc1, b, by rw [hrun]; exact hb, n2, n3, n4, fun hh => ?_, fun h1 h2 => ?_⟩
      · obtain ⟨z1, z2⟩ := n6 (hh.imp id fun hh i hi => by rw [n5 i hi]; exact hh i hi)
        rw [if_pos z1]
        exact ⟨rfl, hout z2⟩
      · obtain ⟨i, hi, h2⟩ := h2
        rw [n7 h1 ⟨i, hi, by rw [n5 i hi]; exact h2⟩]
        rfl

/-- A request for the continuous spectrum that can be fulfilled: nothing is requested, or the request is valid and there are no zeros of `a` on
the grid (if the reflection coefficient is requested). -/
def Spec.ContOK (D : ℕ) (T0 T1 eps : ℝ) (M : ℕ) (XI : Option (ℝ × ℝ)) (o : NsevOpts) (a : AknsDisc) (U : ℂ → ℕ → Spec.M2)
    (c : Option (Buf ℂ)) : Prop :=
  ∀ cb, c = some cb → M = 0 ∨ ∃ XI0 XI1, XI = some (XI0, XI1) ∧ Spec.ContReq D M XI0 XI1 o a cb ∧
    (o.cs = .AB ∨ ∀ i, i < M → Spec.gridA a (D * akns_upsampling_factor a) T0 T1 eps XI0 XI1 M U i ≠ 0)

/-- `c'` contains the continuous spectrum, if it was requested. -/
def Spec.ContDone (D : ℕ) (T0 T1 eps : ℝ) (M : ℕ) (XI : Option (ℝ × ℝ)) (o : NsevOpts) (a : AknsDisc) (U : ℂ → ℕ → Spec.M2)
    (c c' : Option (Buf ℂ)) : Prop :=
  (c = none ∨ M = 0 → c' = c) ∧ ∀ cb, c = some cb → M ≠ 0 → ∃ XI0 XI1 cb', XI = some (XI0, XI1) ∧ c' = some cb' ∧
    Spec.ContWritten o.cs M (Spec.gridA a (D * akns_upsampling_factor a) T0 T1 eps XI0 XI1 M U)
      (Spec.gridB a (D * akns_upsampling_factor a) T0 T1 eps XI0 XI1 M U) cb cb'

theorem baseCont_any {D : ℕ} (h : BaseArgs (D * akns_upsampling_factor a) Dg q r qf rf T0 T1 eps kappa o a) {U : ℂ → ℕ → Spec.M2} {deg : ℕ} {W : ℤ}
    {tm : Option (Buf ℂ)} (ht : TransferData o.disc a (D * akns_upsampling_factor a) Dg eps qf rf U deg W tm) {M : ℕ} {XI : Option (ℝ × ℝ)}
    {s : NsevSt} (hc : Spec.ContOK D T0 T1 eps M XI o a U s.contspec) :
    ∃ c', baseCont (D * akns_upsampling_factor a) q r T0 T1 M XI kappa o deg W tm s = some (SUCCESS, { s with contspec := c' }) ∧
      Spec.ContDone D T0 T1 eps M XI o a U s.contspec c' := by
  cases hs : s.contspec with
  | none =>
    refine ⟨none, ?_, fun _ => rfl, fun cb h => by cases h⟩
    rw [baseCont_none (Or.inl hs)]
    congr 2
    cases s; cases hs; rfl
  | some cb =>
    have hX := hc cb hs
    by_cases hM : M = 0
    · refine ⟨some cb, ?_, fun _ => rfl, fun cb h h0 => absurd hM h0⟩
      rw [baseCont_none (Or.inr hM)]
      congr 2
      cases s; cases hs; rfl
    · rcases hX with h0 | ⟨XI0, XI1, rfl, hr, hz⟩
      · exact absurd h0 hM
      · obtain ⟨c', e1, e2⟩ := (baseCont_ok h ht hr.hM hr.hsz XI0 XI1 hr.hcs hs hr.hlen).1 hz
        refine ⟨some c', e1, fun hh => ?_, fun cb' hcb _ => ?_⟩
        · rcases hh with hh | hh
          · cases hh
          · exact absurd hh hM
        · cases hcb
          exact ⟨XI0, XI1, c', rfl, rfl, e2⟩

/-- The values of `*opts`, and the codes that are passed on. -/
theorem chk_idem {c : ℤ} (h : c = SUCCESS ∨ c = E_SUBROUTINE EC_DIV_BY_ZERO) : chk c = c := by
  rcases h with rfl | rfl <;> decide

theorem chk_chk (c : ℤ) : chk (chk c) = chk c := by
  unfold chk E_SUBROUTINE SUCCESS
  split_ifs <;> simp_all

theorem chk_sub (c : ℤ) : chk (E_SUBROUTINE c) = E_SUBROUTINE c := by
  unfold chk E_SUBROUTINE SUCCESS
  split_ifs <;> simp_all

/-- A call without Richardson extrapolation and without subsampling. -/
theorem nsev_direct {D : ℕ} {q : Buf ℂ} {x : ℕ → ℂ} (h : Spec.NsevArgs D q x T0 T1 kappa o a) {XI : Option (ℝ × ℝ)} {s : NsevSt}
    (hr : Spec.NsevReq kappa o XI s) (hrich : o.rich ≠ 1) (hmix : ¬ (kappa = 1 ∧ s.bs.isSome ∧ o.loc = .SUBSAMPLE_AND_REFINE)) :
    let eps := (T1 - T0) / (D - 1)
    let D' := D * akns_upsampling_factor a
    ∃ qp rp qf rf deg W tm U, Spec.Processed a kappa D eps x D 1 qf rf ∧ BaseArgs D' D qp rp qf rf T0 T1 eps kappa o a ∧
      TransferData o.disc a D' D eps qf rf U deg W tm ∧
      ∀ (roots : RootFinder) (M : ℕ) (g : ℕ → Garbage), Spec.ContOK D T0 T1 eps M XI o a U s.contspec →
        ∃ c', Spec.ContDone D T0 T1 eps M XI o a U s.contspec c' ∧
          fnft_nsev roots D (some q) (some (T0, T1)) M XI kappa o g s =
            (baseDisc roots D' qp rp T0 T1 eps kappa o (g 1) deg tm { s with contspec := c' }).map fun R => (chk R.1, R.2, o) := by
  intro eps D'
  obtain ⟨qp, rp, qf, rf, h1, h2, h3⟩ := nsev_run h hr hrich
  obtain ⟨deg, W, tm, U, h4, h5⟩ := base_run (h2 o rfl)
  have hup : nse_upsampling_factor o.disc = akns_upsampling_factor a := by rw [nse_upsampling_factor, h.hd]
  refine ⟨qp, rp, qf, rf, deg, W, tm, U, h1, h2 o rfl, h4, fun roots M g hc => ?_⟩
  obtain ⟨c', e1, e2⟩ := baseCont_any (h2 o rfl) h4 hc
  refine ⟨c', e2, ?_⟩
  rw [h3]
  unfold nsevFirst
  rw [if_neg hmix]
  unfold nsevCallBase
  dsimp only
  rw [hup, h5 roots M _ (g 1) _ hr.hXI hr.hK, e1]
  simp only [Option.bind_eq_bind, Option.bind_some, ne_eq, not_true_eq_false, if_false]
  cases baseDisc roots D' qp rp T0 T1 eps kappa o (g 1) deg tm { s with contspec := c' } <;> rfl

end FNFT

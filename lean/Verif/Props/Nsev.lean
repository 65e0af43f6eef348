import Verif.Proofs.NsevBase
/-!
# Properties of `fnft_nsev`
-/
namespace FNFT
open Complex AknsDisc

variable {D : ℕ} {q : Buf ℂ} {x : ℕ → ℂ} {T0 T1 : ℝ} {kappa : ℤ} {o : NsevOpts} {a : AknsDisc}

/-- The number of evaluations of the chirp transform fits into the FFT sizes. -/
def Spec.ContSize (D M : ℕ) (a : AknsDisc) : Prop := D * akns_upsampling_factor a * akns_degree a + M < 3 ^ 32

/-- A valid request for a continuous spectrum. -/
structure Spec.ContReq (D M : ℕ) (XI0 XI1 : ℝ) (o : NsevOpts) (a : AknsDisc) (c : Buf ℂ) : Prop where
  hM : 2 ≤ M
  hXI : XI0 < XI1
  hsz : Spec.ContSize D M a
  hcs : ∀ n, o.cs ≠ .other n
  hlen : Spec.csLen o.cs * M ≤ c.len

/-- C41. Continuous spectrum, when no bound states are requested (or the system is defocusing). Let `U` be the steps of the
chosen discretization for the signal as that discretization uses it, and `a(ξ)`, `b(ξ)` the scattering coefficients of these
steps. If all `a(ξ_i)` are different from zero (not needed for the type `AB`), the call succeeds and writes the requested
quantities in the documented order to `contspec`; `*K_ptr` becomes zero, and nothing else is changed. If some `a(ξ_i)` is zero, a
call that has to divide by it fails. -/
theorem C41_continuous_spectrum (h : Spec.NsevArgs D q x T0 T1 kappa o a) {M : ℕ} {XI0 XI1 : ℝ} {c : Buf ℂ}
    (hc : Spec.ContReq D M XI0 XI1 o a c) (hrich : o.rich ≠ 1) (K : Option ℕ) (bs nc : Option (Buf ℂ))
    (hK : bs.isSome → K ≠ none) (hnb : bs = none ∨ kappa = -1) :
    let eps := (T1 - T0) / (D - 1)
    ∃ qf rf U, Spec.Processed a kappa D eps x D 1 qf rf ∧ Spec.NseSteps a eps qf rf U ∧
      let av := Spec.gridA a (D * akns_upsampling_factor a) T0 T1 eps XI0 XI1 M U
      let bv := Spec.gridB a (D * akns_upsampling_factor a) T0 T1 eps XI0 XI1 M U
      ∀ (roots : RootFinder) (g : ℕ → Garbage),
      ((o.cs = .AB ∨ ∀ i, i < M → av i ≠ 0) →
        ∃ c', fnft_nsev roots D (some q) (some (T0, T1)) M (some (XI0, XI1)) kappa o g ⟨some c, K, bs, nc⟩ =
            some (SUCCESS, ⟨some c', K.map fun _ => 0, bs, nc⟩, o) ∧
          Spec.ContWritten o.cs M av bv c c') ∧
      (o.cs ≠ .AB → (∃ i, i < M ∧ av i = 0) →
        ∃ c', fnft_nsev roots D (some q) (some (T0, T1)) M (some (XI0, XI1)) kappa o g ⟨some c, K, bs, nc⟩ =
            some (E_SUBROUTINE EC_DIV_BY_ZERO, ⟨some c', K, bs, nc⟩, o) ∧ c'.len = c.len ∧ ∀ j, M ≤ j → c'.rd j = c.rd j) := by
  intro eps
  have hr : Spec.NsevReq kappa o (some (XI0, XI1)) ⟨some c, K, bs, nc⟩ := by
    refine ⟨fun _ => ⟨_, rfl, hc.hXI⟩, hK, fun h1 h2 => ?_⟩
    rcases hnb with rfl | h3
    · cases h2
    · rw [h1] at h3; cases h3
  obtain ⟨qp, rp, qf, rf, h1, h2, h3⟩ := nsev_run h hr hrich
  obtain ⟨deg, W, tm, U, h4, h5⟩ := base_run (h2 o rfl)
  refine ⟨qf, rf, U, h1, h4.steps, ?_⟩
  intro av bv roots g
  have hup : nse_upsampling_factor o.disc = akns_upsampling_factor a := by rw [nse_upsampling_factor, h.hd]
  obtain ⟨b1, b2⟩ := baseCont_ok (h2 o rfl) h4 hc.hM hc.hsz XI0 XI1 hc.hcs (s := ⟨some c, K, bs, nc⟩) rfl hc.hlen
  have hrun : ∀ C, baseCont (D * akns_upsampling_factor a) qp rp T0 T1 M (some (XI0, XI1)) kappa o deg W tm ⟨some c, K, bs, nc⟩ =
        some C → C.2.bs = bs →
      fnft_nsev roots D (some q) (some (T0, T1)) M (some (XI0, XI1)) kappa o g ⟨some c, K, bs, nc⟩ =
        some (chk C.1, if C.1 = SUCCESS then { C.2 with K := C.2.K.map fun _ => 0 } else C.2, o) := by
    intro C hC hbs
    have hmix : ¬ (kappa = 1 ∧ bs.isSome ∧ o.loc = .SUBSAMPLE_AND_REFINE) := by
      rintro ⟨c1, c2, -⟩
      rcases hnb with rfl | h3
      · cases c2
      · rw [c1] at h3; cases h3
    rw [h3]
    unfold nsevFirst
    rw [if_neg hmix]
    unfold nsevCallBase
    dsimp only
    rw [hup, h5 roots M _ (g 1) _ hr.hXI hr.hK, hC]
    simp only [Option.bind_eq_bind, Option.bind_some]
    by_cases hs : C.1 = SUCCESS
    · rw [if_neg (not_not.mpr hs), if_pos hs, baseDisc_none (by rw [hbs]; exact hnb), hs]
      rfl
    · rw [if_pos hs, if_neg hs]
      rfl
  constructor
  · intro h0
    obtain ⟨c', e1, e2⟩ := b1 h0
    exact ⟨c', by rw [hrun _ e1 rfl]; rfl, e2⟩
  · intro h0 h0'
    obtain ⟨c', e1, e2⟩ := b2 h0 h0'
    exact ⟨c', by rw [hrun _ e1 rfl]; rfl, e2⟩

/-- C41, any request. Whatever else is requested (bound states with any localisation method): if the call succeeds, `contspec`
contains the continuous spectrum. -/
theorem C41_any_request (h : Spec.NsevArgs D q x T0 T1 kappa o a) {M : ℕ} {XI0 XI1 : ℝ} {c : Buf ℂ}
    (hc : Spec.ContReq D M XI0 XI1 o a c) (hrich : o.rich ≠ 1) {s : NsevSt} (hs : s.contspec = some c)
    (hr : Spec.NsevReq kappa o (some (XI0, XI1)) s) :
    let eps := (T1 - T0) / (D - 1)
    ∃ qf rf U, Spec.Processed a kappa D eps x D 1 qf rf ∧ Spec.NseSteps a eps qf rf U ∧
      let av := Spec.gridA a (D * akns_upsampling_factor a) T0 T1 eps XI0 XI1 M U
      let bv := Spec.gridB a (D * akns_upsampling_factor a) T0 T1 eps XI0 XI1 M U
      ∀ (roots : RootFinder) (g : ℕ → Garbage) (s' : NsevSt) (o' : NsevOpts),
        fnft_nsev roots D (some q) (some (T0, T1)) M (some (XI0, XI1)) kappa o g s = some (SUCCESS, s', o') →
        (o.cs = .AB ∨ ∀ i, i < M → av i ≠ 0) ∧ ∃ c', s'.contspec = some c' ∧ Spec.ContWritten o.cs M av bv c c' := by
  intro eps
  obtain ⟨qp, rp, qf, rf, h1, h2, h3⟩ := nsev_run h hr hrich
  have hup : nse_upsampling_factor o.disc = akns_upsampling_factor a := by rw [nse_upsampling_factor, h.hd]
  -- what a call of the base routine on the full signal does
  have key : ∀ o1 : NsevOpts, o1.disc = o.disc → o1.cs = o.cs → ∃ U, Spec.NseSteps a eps qf rf U ∧
      let av := Spec.gridA a (D * akns_upsampling_factor a) T0 T1 eps XI0 XI1 M U
      let bv := Spec.gridB a (D * akns_upsampling_factor a) T0 T1 eps XI0 XI1 M U
      ∀ (roots : RootFinder) (g : Garbage) (s1 s2 : NsevSt), s1.contspec = some c → (s1.bs.isSome → s1.K ≠ none) →
        nsev_base roots (D * akns_upsampling_factor a) qp rp T0 T1 M (some (XI0, XI1)) kappa o1 g s1 = some (SUCCESS, s2) →
        (o.cs = .AB ∨ ∀ i, i < M → av i ≠ 0) ∧ ∃ c', s2.contspec = some c' ∧ Spec.ContWritten o.cs M av bv c c' := by
    intro o1 ho1 hcs1
    obtain ⟨deg, W, tm, U, h4, h5⟩ := base_run (h2 o1 ho1)
    refine ⟨U, h4.steps, ?_⟩
    intro av bv roots g s1 s2 hs1 hK1 hb
    rw [h5 roots M _ g s1 (fun _ => ⟨_, rfl, hc.hXI⟩) hK1] at hb
    obtain ⟨b1, b2⟩ := baseCont_ok (h2 o1 ho1) h4 hc.hM hc.hsz XI0 XI1 (by rw [hcs1]; exact hc.hcs) hs1 (by rw [hcs1]; exact hc.hlen)
    rw [hcs1] at b1 b2
    by_cases h0 : o.cs = .AB ∨ ∀ i, i < M → av i ≠ 0
    · refine ⟨h0, ?_⟩
      obtain ⟨c', e1, e2⟩ := b1 h0
      rw [e1] at hb
      simp only [Option.bind_eq_bind, Option.bind_some, ne_eq, not_true_eq_false, if_false] at hb
      exact ⟨c', baseDisc_contspec hb, e2⟩
    · exfalso
      push Not at h0
      obtain ⟨c', e1, e2⟩ := b2 h0.1 h0.2
      rw [e1] at hb
      simp only [Option.bind_eq_bind, Option.bind_some] at hb
      rw [if_pos (by decide)] at hb
      have hc' : E_SUBROUTINE EC_DIV_BY_ZERO = SUCCESS := congrArg Prod.fst (Option.some.inj hb)
      revert hc'; decide
  by_cases hmix : kappa = 1 ∧ s.bs.isSome ∧ o.loc = .SUBSAMPLE_AND_REFINE
  · obtain ⟨U, k1, k2⟩ := key { o with loc := .NEWTON } rfl rfl
    refine ⟨qf, rf, U, h1, k1, fun roots g s' o' hrun => ?_⟩
    rw [h3] at hrun
    unfold nsevFirst at hrun
    rw [if_pos hmix] at hrun
    rw [Option.bind_eq_bind, Option.bind_eq_some_iff] at hrun
    obtain ⟨F, hF, hrun⟩ := hrun
    unfold nsevMixed at hF
    rw [Option.bind_eq_bind, Option.bind_eq_some_iff] at hF
    obtain ⟨Dsub, -, hF⟩ := hF
    rw [Option.bind_eq_bind, Option.bind_eq_some_iff] at hF
    obtain ⟨P, hP, hF⟩ := hF
    split at hF
    · rename_i qrs fl hPo hPf
      rw [Option.bind_eq_bind, Option.bind_eq_some_iff] at hF
      obtain ⟨R, hR, hF⟩ := hF
      split_ifs at hF with hR1
      · cases hF; exact absurd (chk_success.mp (congrArg Prod.fst (Option.some.inj hrun))) hR1
      · rw [Option.bind_eq_bind, Option.bind_eq_some_iff] at hF
        obtain ⟨S, hS, hF⟩ := hF
        split_ifs at hF with hS1
        · cases hF; exact absurd (congrArg Prod.fst (Option.some.inj hrun)) hS1
        · cases hF
          cases hrun
          unfold nsevCallBase at hS
          dsimp only at hS
          rw [Option.bind_eq_bind, Option.bind_eq_some_iff, hup] at hS
          obtain ⟨B, hB, hS⟩ := hS
          cases hS
          obtain ⟨B1, B2⟩ := B
          have : B1 = SUCCESS := chk_success.mp (not_not.mp hS1)
          subst this
          refine k2 roots (g 1) _ _ ?_ ?_ hB
          · exact hs
          · intro _
            exact base_K hR (hr.hK hmix.2.1)
    · rename_i hno
      obtain ⟨_, _, _, _, _, _, p1, -⟩ := nse_pre_ok h.hd h.hD h.hCF h.lt h.hq h.eps_pos h.hk Dsub
      rw [p1] at hP
      cases hP
      exact absurd rfl (hno _ _ rfl)
  · obtain ⟨U, k1, k2⟩ := key o rfl rfl
    refine ⟨qf, rf, U, h1, k1, fun roots g s' o' hrun => ?_⟩
    rw [h3] at hrun
    unfold nsevFirst at hrun
    rw [if_neg hmix] at hrun
    unfold nsevCallBase at hrun
    dsimp only at hrun
    rw [hup] at hrun
    simp only [Option.bind_eq_bind, Option.bind_eq_some_iff] at hrun
    obtain ⟨F, ⟨B, hB, hF⟩, hrun⟩ := hrun
    cases hF
    obtain ⟨B1, B2⟩ := B
    have e := Option.some.inj hrun
    have : B1 = SUCCESS := chk_success.mp (congrArg Prod.fst e)
    subst this
    have e2 : B2 = s' := congrArg (fun p => p.2.1) e
    rw [← e2]
    exact k2 roots (g 1) _ _ hs hr.hK hB

/-- The hypotheses of C41 are met, with the default options (discretization `2SPLIT4B`), for the focusing and the defocusing case. -/
example (kappa : ℤ) (hk : |kappa| = 1) :
    Spec.NsevArgs 4 (Buf.ofList [1, 2, 2 * I, 4]) (fun i => [1, 2, 2 * I, 4].getD i 0) (-1) 1 kappa nsev_default_opts .D2SPLIT4B ∧
    Spec.ContReq 4 3 (-2) 2 nsev_default_opts .D2SPLIT4B (Buf.malloc 3) ∧ nsev_default_opts.rich ≠ 1 where
  left :=
    { hd := rfl, hD := by norm_num, hCF := fun h => (by norm_num), hsize := by decide
      hq := by intro i hi; have : i < 4 := by omega
               interval_cases i <;> rfl
      hT := by norm_num, hk := hk, hal := fun h => by cases h }
  right := ⟨{ hM := by norm_num, hXI := by norm_num, hsz := by unfold Spec.ContSize; decide, hcs := fun n h => (by cases h), hlen := by decide },
    by decide⟩

/-- ... and with the Ablowitz-Ladik method in the defocusing case. -/
example :
    Spec.NsevArgs 3 (Buf.ofList [1, 3, 5]) (fun i => [1, 3, 5].getD i 0) 0 1 (-1) { nsev_default_opts with disc := .D2SPLIT2_MODAL }
      .D2SPLIT2_MODAL where
  hd := rfl
  hD := by norm_num
  hCF := fun h => by norm_num
  hsize := by decide
  hq := by intro i hi; have : i < 3 := by omega
           interval_cases i <;> rfl
  hT := by norm_num
  hk := rfl
  hal := by
    intro _ _ n hn h
    interval_cases n <;> norm_num at h

end FNFT

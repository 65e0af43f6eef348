import Verif.Proofs.NsepMix
import Verif.Props.NsepSub
import Verif.Proofs.FinvTop
/-!
# Properties of `fnft_nsep`: mixed method and arguments
-/
namespace FNFT
open Complex

variable {D : ℕ} {q : Buf ℂ} {x : ℕ → ℂ} {T0 T1 : ℝ} {kappa : ℤ} {o : NsepOpts} {a : AknsDisc}

/-! ## C63: the mixed method, and what is rejected -/

/-- C63. With `fnft_nsep_loc_MIXED`, the main spectrum consists of non-real points found by subsampling and refinement (only in the focusing case),
followed by the points found by the grid search; and the auxiliary spectrum likewise. The output is cut off at the given capacity, nothing else is
written, and the counts are those of both parts together. -/
theorem C63_mixed {roots : RootFinder} {R : ℕ → Polynomial ℂ → ℕ → ℂ} (hroots : Spec.Finder roots R)
    (h : Spec.NsepArgs D q x T0 T1 kappa o a) (hloc : o.loc = .MIXED) (hdeg : akns_degree a ≠ 0)
    {ph L eps : ℝ} (hL : L = Spec.lamShift ph (T1 - T0)) (heps : eps = (T1 - T0) / D)
    (hmod : a = .D2SPLIT2_MODAL → ∀ Ds s, (Spec.SubPeriod D o.Dsub Ds s ∨ Ds = D ∧ s = 1) → ∀ j, j < Ds → 0 < 1 + kappa * (s * eps * ‖x (s * j)‖) ^ 2)
    {N : ℕ} (hN : N = D * akns_upsampling_factor a) {dg : ℕ} (hdg : dg = D * Spec.degree1step a) {x0 x1 : ℝ}
    (hB : Spec.GsBox (Spec.frameOpts L o) a eps x0 x1 dg) :
    ∃ (Ds s deg : ℕ) (S S2 : ℂ → Spec.M2) (P P2 : ℂ → Polynomial ℂ) (Pa Pa2 : Polynomial ℂ) (E : Spec.M2 → Spec.M2) (qf rf : ℕ → ℂ) (Y : ℂ → Spec.M2),
      Spec.SubPeriod D o.Dsub Ds s ∧ Spec.PeriodPolys a kappa D (T1 - T0) (Spec.periodic x L T0 eps) Ds s deg S P Pa ∧
      Spec.PeriodPolys a kappa D (T1 - T0) (Spec.periodic x L T0 eps) D 1 dg S2 P2 Pa2 ∧ Spec.NearExp E ∧
      Spec.Processed (Spec.refineDisc a) kappa D eps (Spec.periodic x L T0 eps) D 1 qf rf ∧
      (∀ l, Spec.MonoDeriv E (Spec.refineDisc a) N eps qf rf l (Y l)) ∧
      ∀ (box : Fin 4 → Dbl) (S' : ℂ → Spec.M2) (keep : List ℂ → List ℂ),
        box = Spec.nsepEffBox (Spec.frameOpts L o) a (s * eps) → (o.filt = .NONE ∨ Spec.ValidBox box) → Dbl.zero.le (Spec.realTol D box) →
        S' = Spec.mono E (Spec.refineDisc a) N eps qf rf → keep = Spec.subKeep o.filt box true (Spec.realTol D box) →
      ∀ (K M : ℕ) (main aux main1 : Option (Buf ℂ)), main1 = (if kappa = 1 then main else none) → Spec.NsepReq o K main M aux →
        Spec.NoZero R o deg P Pa main1 aux →
      ∃ w : ℂ → ℤ, (o.nrm = false → ∀ l, w l = 0) ∧ ∃ cm outs ca outa,
        (main1.isSome → Spec.Spines (Spec.subMainList R a (s * eps) deg P S' Y o box keep) o.pps K cm outs) ∧
        (main1 = none → outs = []) ∧
        (aux.isSome → Spec.subAuxList R a (s * eps) deg Pa S' Y w o box keep ca outa) ∧
        let hits := fun Q => Spec.gsHits a eps Q (Spec.nsepPHI a eps x0 x1) dg
        let pts := fun Q => Spec.Kept o.filt (Spec.nsepEffBox (Spec.frameOpts L o) a eps) (hits Q)
        ∀ junk,
        (main1.isSome ∧ cm ≠ SUCCESS ∨ aux.isSome ∧ ca ≠ SUCCESS →
          ∃ st, fnft_nsep roots junk D (some q) (some (T0, T1)) ph (some K) main (some M) aux false kappa o =
            some (E_SUBROUTINE EC_DIV_BY_ZERO, some st)) ∧
        ((main1.isSome → cm = SUCCESS) ∧ (aux.isSome → ca = SUCCESS) →
          (main.isSome ∧ (dg < (hits (P2 2)).length ∨ dg < (hits (P2 (-2))).length) →
            ∃ st, fnft_nsep roots junk D (some q) (some (T0, T1)) ph (some K) main (some M) aux false kappa o =
              some (E_SUBROUTINE EC_OTHER, some st)) ∧
          (main = none ∨ (hits (P2 2)).length ≤ dg ∧ (hits (P2 (-2))).length ≤ dg →
            ∃ K' m M' u, fnft_nsep roots junk D (some q) (some (T0, T1)) ph (some K) main (some M) aux false kappa o =
                some (SUCCESS, some ⟨K', m, M', u, { o with box := Spec.nsepEffBox o a eps }⟩) ∧
              Spec.ListOut 0 K ((outs.flatten ++ (pts (P2 2) ++ pts (P2 (-2)))).map (· + (L : ℂ))) junk main K' m ∧
              Spec.ListOut 0 M ((outa ++ pts Pa2).map (· + (L : ℂ))) 0 aux M' u)) := by
  obtain ⟨k, hk1, hDk⟩ := h.hD
  obtain ⟨qp, hp, hrun⟩ := nsep_top' h hL
  rw [← heps] at hp
  obtain ⟨o', ho'⟩ : ∃ o', o' = Spec.frameOpts L o := ⟨_, rfl⟩
  have hdisc : o'.disc = o.disc := by rw [ho', frame_disc]
  have hfilt : o'.filt = o.filt := by rw [ho', frame_filt]
  have hloc' : o'.loc = .MIXED := by rw [ho', frame_loc, hloc]
  have hpps : o'.pps = o.pps := by rw [ho', frame_eq]
  have hnrm : o'.nrm = o.nrm := by rw [ho', frame_eq]
  have hDsub : o'.Dsub = o.Dsub := by rw [ho', frame_eq]
  rw [← ho'] at hB
  obtain ⟨Ds, s, deg, S, S2, P, P2, Pa, Pa2, qf, rf, Y, e1, e2, e2', e3, e4, e5⟩ := nsep_mixed_ok hroots hk1 hDk (o := o') (by rw [hdisc]; exact hp) hdeg heps
    (by
      intro ha Ds s hs j hj
      rw [hDsub] at hs
      rw [periodic_norm]
      exact hmod ha Ds s hs j hj) hN hdg hB
  rw [hDsub] at e1
  refine ⟨Ds, s, deg, S, S2, P, P2, Pa, Pa2, expS, qf, rf, Y, e1, e2, e2', nearExp_expS, e3, e4, ?_⟩
  intro box S' keep hbox hv htol hS' hkeep K M main aux main1 hm1 hr hnz
  have hnz' : Spec.NoZero R o' deg P Pa main1 aux := by rw [ho', frame_eq]; exact hnz
  rw [← ho'] at hbox ⊢
  obtain ⟨w, w1, cm, outs, ca, outa, f1, f1', f2, f3⟩ := e5 box _ S' keep hbox rfl (by rw [hfilt]; exact hv) htol hS' (by rw [hfilt]; exact hkeep)
    K M main aux main1 hm1 hr.roomK hr.roomM hnz'
  have hmm : Spec.subMainList R a (s * eps) deg P S' Y o' box keep = Spec.subMainList R a (s * eps) deg P S' Y o box keep := by
    rw [ho', frame_eq]; rfl
  have haa : Spec.subAuxList R a (s * eps) deg Pa S' Y w o' box keep = Spec.subAuxList R a (s * eps) deg Pa S' Y w o box keep := by
    rw [ho', frame_eq]; rfl
  rw [hmm, hpps] at f1
  rw [haa] at f2
  rw [hnrm] at w1
  refine ⟨w, w1, cm, outs, ca, outa, f1, f1', f2, ?_⟩
  intro hits pts junk
  obtain ⟨g1, g2⟩ := f3 hits pts (fun _ => rfl) (fun Q => by rw [hfilt]) junk
  have hsw : nsepSwitch roots junk D qp T0 T1 kappa ⟨K, main, M, aux, o'⟩ = nsepMixed roots junk D qp T0 T1 kappa ⟨K, main, M, aux, o'⟩ := by
    unfold nsepSwitch
    dsimp only
    rw [hloc']
  rw [hrun K M main aux hr.both, ← ho', hsw]
  refine ⟨fun hc => ?_, fun hc => ⟨fun hc' => ?_, fun hc' => ?_⟩⟩
  · obtain ⟨st, hst⟩ := g1 hc
    rw [hst]
    exact ⟨st, rfl⟩
  · obtain ⟨st, hst⟩ := (g2 hc).1 hc'
    rw [hst]
    exact ⟨st, rfl⟩
  · obtain ⟨K', m, M', u, g1, g2, g3⟩ := (g2 hc).2 hc'
    obtain ⟨m', k1, k2⟩ := listOut_shift g2 L
    obtain ⟨u', l1, l2⟩ := listOut_shift g3 L
    refine ⟨K', m', M', u', ?_, k2, l2⟩
    rw [g1]
    simp only [Option.bind_some, nsepFinish, ne_eq, not_true_eq_false, if_false, k1, l1, Option.bind_eq_bind, Option.pure_def]
    rw [ho', box_back]

open Classical in
/-- C63. The part of the main spectrum that comes from subsampling and refinement consists of points that are not real. -/
theorem C63_nonreal {filt : NsepFilt} {box : Fin 4 → Dbl} {tol : Dbl} (htol : Dbl.zero.le tol) {l : List ℂ} {z : ℂ}
    (hz : z ∈ Spec.subKeep filt box true tol l) : z.im ≠ 0 ∧ z ∈ l := by
  unfold Spec.subKeep Spec.Nonreal at hz
  rw [if_pos rfl, List.mem_filter] at hz
  obtain ⟨h1, h2⟩ := hz
  refine ⟨fun h0 => ?_, ?_⟩
  · have h3 : tol.lt (.num ((|z.im| : ℝ) : EReal)) := by simpa using h2
    rw [h0, abs_zero] at h3
    cases tol with
    | nan => exact h3
    | num t =>
      have h4 : ((0 : ℝ) : EReal) ≤ t := htol
      have h5 : t < ((0 : ℝ) : EReal) := h3
      exact absurd h5 (not_lt.mpr h4)
  · unfold Spec.Kept at h1
    split_ifs at h1
    · exact h1
    · exact (List.mem_filter.mp h1).1

theorem testBit_top {n k : ℕ} (h1 : 2 ^ k ≤ n) (h2 : n < 2 ^ (k + 1)) : n.testBit k = true := by
  have : n / 2 ^ k = 1 := Nat.div_eq_of_lt_le (by omega) (by rw [pow_succ] at h2; omega)
  rw [Nat.testBit_eq_decide_div_mod_eq, this]; rfl

/-- The bit test in the code recognises powers of two. -/
theorem pow_iff_and (D : ℕ) (hD : 2 ≤ D) : D &&& (D - 1) = 0 ↔ ∃ k, 1 ≤ k ∧ D = 2 ^ k := by
  constructor
  · intro h
    have h1 : 2 ^ (Nat.log 2 D) ≤ D := Nat.pow_log_le_self 2 (by omega)
    have h2 : D < 2 ^ (Nat.log 2 D + 1) := Nat.lt_pow_succ_log_self (by norm_num) D
    have h3 : 1 ≤ Nat.log 2 D := Nat.log_pos (by norm_num) hD
    refine ⟨Nat.log 2 D, h3, ?_⟩
    by_contra hne
    have e := Nat.testBit_and D (D - 1) (Nat.log 2 D)
    rw [h, testBit_top h1 h2, testBit_top (n := D - 1) (by omega) (by omega)] at e
    simp at e
  · rintro ⟨k, -, rfl⟩
    exact two_pow_and k
/-- C63. With automatic filtering, the threshold for being real is not negative. -/
theorem C63_auto {o : NsepOpts} (hf : o.filt = .AUTO) (a : AknsDisc) {h : ℝ} (hh : 0 < h) (D : ℕ) :
    Dbl.zero.le (Spec.realTol D (Spec.nsepEffBox o a h)) := by
  have hh : 0 < Spec.nsepStretch a * h := mul_pos (stretch_pos _) hh
  have hl : 0 < Real.log 10 / (Spec.nsepStretch a * h) := div_pos (Real.log_pos (by norm_num)) hh
  unfold Spec.realTol Spec.nsepEffBox
  rw [if_pos hf]
  simp only [Matrix.cons_val, Dbl.sub, Dbl.divNat]
  rw [if_neg (by simp)]
  show ((0 : ℝ) : EReal) ≤ _
  rw [← EReal.coe_sub]
  refine EReal.div_nonneg ?_ ?_
  · exact_mod_cast (by linarith)
  · positivity

/-- Arguments that `fnft_nsep` accepts (apart from what is in the options). -/
structure Spec.NsepValid (D : ℕ) (q : Option (Buf ℂ)) (T : Option (ℝ × ℝ)) (K_ptr : Option ℕ) (main : Option (Buf ℂ)) (M_ptr : Option ℕ)
    (aux : Option (Buf ℂ)) (kappa : ℤ) (o : NsepOpts) : Prop where
  pow : ∃ k, 1 ≤ k ∧ D = 2 ^ k
  q_ne : q ≠ none
  T_ok : ∃ T0 T1, T = some (T0, T1) ∧ T0 < T1
  kappa_ok : kappa = 1 ∨ kappa = -1
  K_ne : K_ptr ≠ none
  M_ne : M_ptr ≠ none
  both : o.filt = .NONE ∨ main ≠ none ∨ aux = none

/-- C63. Invalid arguments are rejected with the code for that, whatever the other arguments are, and nothing is written. A
request for sheet indices is rejected as not implemented. -/
theorem C63_rejects (roots : RootFinder) (junk : ℕ) {D : ℕ} {q : Option (Buf ℂ)} {T : Option (ℝ × ℝ)} {K_ptr : Option ℕ} {main : Option (Buf ℂ)}
    {M_ptr : Option ℕ} {aux : Option (Buf ℂ)} {kappa : ℤ} {o : NsepOpts} (ph : ℝ) :
    (¬ Spec.NsepValid D q T K_ptr main M_ptr aux kappa o →
      fnft_nsep roots junk D q T ph K_ptr main M_ptr aux false kappa o = some (EC_INVALID_ARGUMENT, none)) ∧
    (Spec.NsepValid D q T K_ptr main M_ptr aux kappa o →
      fnft_nsep roots junk D q T ph K_ptr main M_ptr aux true kappa o = some (EC_NOT_YET_IMPLEMENTED, none)) := by
  have habs : ∀ k : ℤ, |k| ≠ 1 ↔ ¬ (k = 1 ∨ k = -1) := by
    intro k
    rw [not_iff_not, abs_eq (by norm_num)]
  have hpow : (D < 2 ∨ D &&& (D - 1) ≠ 0) ↔ ¬ ∃ k, 1 ≤ k ∧ D = 2 ^ k := by
    by_cases hD : D < 2
    · refine iff_of_true (Or.inl hD) ?_
      rintro ⟨k, k1, rfl⟩
      have : 2 ^ 1 ≤ 2 ^ k := Nat.pow_le_pow_right (by norm_num) k1
      omega
    · rw [← pow_iff_and D (by omega)]
      exact or_iff_right hD
  constructor
  · intro hn
    unfold fnft_nsep
    by_cases h1 : D < 2 ∨ D &&& (D - 1) ≠ 0
    · rw [if_pos h1]
    rw [if_neg h1]
    · rcases q with _ | q
      · rfl
      · rcases T with _ | ⟨T0, T1⟩
        · rfl
        · dsimp only
          by_cases h2 : T0 ≥ T1
          · rw [if_pos h2]
          rw [if_neg h2]
          by_cases h3 : |kappa| ≠ 1
          · rw [if_pos h3]
          rw [if_neg h3]
          · rcases K_ptr with _ | K
            · rfl
            · rcases M_ptr with _ | M
              · rfl
              · dsimp only
                rw [if_neg (by simp)]
                by_cases h4 : o.filt ≠ .NONE ∧ main = none ∧ aux ≠ none
                · rw [if_pos h4]
                · exfalso
                  refine hn ⟨?_, by simp, ⟨T0, T1, rfl, not_le.mp h2⟩, ?_, by simp, by simp, ?_⟩
                  · by_contra hc; exact h1 (hpow.mpr hc)
                  · by_contra hc; exact h3 ((habs kappa).mpr hc)
                  · by_contra hc
                    push_neg at hc
                    exact h4 ⟨hc.1, hc.2.1, hc.2.2⟩
  · intro hv
    obtain ⟨T0, T1, rfl, hT⟩ := hv.T_ok
    obtain ⟨q, rfl⟩ := Option.ne_none_iff_exists'.mp hv.q_ne
    obtain ⟨K, rfl⟩ := Option.ne_none_iff_exists'.mp hv.K_ne
    obtain ⟨M, rfl⟩ := Option.ne_none_iff_exists'.mp hv.M_ne
    unfold fnft_nsep
    rw [if_neg (fun hc => hpow.mp hc hv.pow)]
    dsimp only
    rw [if_neg (not_le.mpr hT), if_neg (fun hc => (habs kappa).mp hc hv.kappa_ok), if_pos rfl]

/-- C63. A method that does not exist is rejected as well. -/
theorem C63_unknown (roots : RootFinder) (junk : ℕ) (h : Spec.NsepArgs D q x T0 T1 kappa o a) {n : ℤ} (hloc : o.loc = .other n) (ph : ℝ) {K M : ℕ}
    {main aux : Option (Buf ℂ)} (hr : Spec.NsepReq o K main M aux) :
    fnft_nsep roots junk D (some q) (some (T0, T1)) ph (some K) main (some M) aux false kappa o =
      some (EC_INVALID_ARGUMENT, some ⟨K, main, M, aux, Spec.frameOpts (Spec.lamShift ph (T1 - T0)) o⟩) := by
  obtain ⟨qp, -, hrun⟩ := nsep_top' h (rfl : Spec.lamShift ph (T1 - T0) = _)
  rw [hrun K M main aux hr.both]
  have : nsepSwitch roots junk D qp T0 T1 kappa ⟨K, main, M, aux, Spec.frameOpts (Spec.lamShift ph (T1 - T0)) o⟩ =
      some (EC_INVALID_ARGUMENT, ⟨K, main, M, aux, Spec.frameOpts (Spec.lamShift ph (T1 - T0)) o⟩) := by
    unfold nsepSwitch
    dsimp only
    rw [frame_loc, hloc]
  rw [this]
  simp only [Option.bind_some, nsepFinish]
  rw [if_pos (by decide)]

/-- A case that meets the hypotheses of `C63_mixed`: sixteen samples, of which four are to be used at first, and a phase shift. -/
example : ∃ (o : NsepOpts) (q : Buf ℂ) (a : AknsDisc) (K M : ℕ) (main aux : Option (Buf ℂ)) (roots : RootFinder) (R : ℕ → Polynomial ℂ → ℕ → ℂ)
      (x0 x1 : ℝ),
    Spec.Finder roots R ∧ (∀ deg P Pa, Spec.NoZero R o deg P Pa main aux) ∧
    Spec.NsepArgs 16 q (fun _ => 1 + I) 0 1 1 o a ∧ o.loc = .MIXED ∧ o.Dsub = 4 ∧ akns_degree a ≠ 0 ∧ a ≠ .D2SPLIT2_MODAL ∧
    Spec.GsBox (Spec.frameOpts (Spec.lamShift 1 (1 - 0)) o) a ((1 - 0) / (16 : ℕ)) x0 x1 (16 * Spec.degree1step a) ∧
    (∀ s : ℕ, 0 < s → Spec.ValidBox (Spec.nsepEffBox (Spec.frameOpts (Spec.lamShift 1 (1 - 0)) o) a (s * ((1 - 0) / (16 : ℕ)))) ∧
      Dbl.zero.le (Spec.realTol 16 (Spec.nsepEffBox (Spec.frameOpts (Spec.lamShift 1 (1 - 0)) o) a (s * ((1 - 0) / (16 : ℕ)))))) ∧
    Spec.NsepReq o K main M aux ∧ main ≠ none ∧ aux ≠ none := by
  obtain ⟨roots, R, h1, h2, -⟩ := exists_finder fun z => if z = 0 then 1 else z
  have h3 : ∀ deg Q k, R deg Q k ≠ 0 := by
    intro deg Q k
    obtain ⟨z, hz⟩ := h2 deg Q k
    rw [hz]
    split_ifs with h
    · exact one_ne_zero
    · exact h
  obtain ⟨o, ho⟩ : ∃ o : NsepOpts, o = { nsep_default_opts with Dsub := 4, loc := .MIXED } := ⟨_, rfl⟩
  have hf : (Spec.frameOpts (Spec.lamShift 1 (1 - 0)) o).filt = .AUTO := by rw [frame_filt, ho]; rfl
  refine ⟨o, Buf.ofList (List.replicate 16 (1 + I)), .D2SPLIT2A, 2, 2, some (Buf.malloc 2),
    some (Buf.malloc 2), roots, R, _, _, h1, fun deg P Pa => ⟨fun _ _ _ _ _ => h3 _ _ _, fun _ _ _ => h3 _ _ _⟩,
    ⟨by rw [ho]; rfl, ⟨4, by norm_num, by norm_num⟩, fun h => absurd h (by simp [Spec.isCF]), by decide, fun i hi => ?_, by norm_num,
      by norm_num⟩, by rw [ho], by rw [ho], by decide, by simp, gsBox_auto hf _ (by norm_num) (by decide),
      fun s hs => ⟨effBox_auto hf _ (by positivity), ?_⟩,
      ⟨Or.inr (Or.inl (by simp)), fun b hb => ?_, fun b hb => ?_⟩, by simp, by simp⟩
  · rcases i with _ | _ | _ | _ | _ | _ | _ | _ | _ | _ | _ | _ | _ | _ | _ | _ | i
    all_goals first | rfl | omega
  · exact C63_auto hf _ (by positivity) _
  · cases hb; simp
  · cases hb; simp

end FNFT

import Verif.Proofs.NsepSub4
import Verif.Proofs.NsevDisc
/-!
# Proofs: the mixed method of fnft_nsep.c
-/
namespace FNFT
open Complex

/-- The box that the second routine uses does not depend on what the first has stored. -/
theorem effBox_twice (o : NsepOpts) (a : AknsDisc) (h1 h2 : ℝ) :
    Spec.nsepEffBox { o with box := Spec.nsepEffBox o a h1 } a h2 = Spec.nsepEffBox o a h2 := by
  unfold Spec.nsepEffBox
  by_cases hf : o.filt = .AUTO
  · simp only [if_pos hf]
  · simp only [if_neg hf]

theorem gsBox_twice {o : NsepOpts} {a : AknsDisc} (h1 : ℝ) {h x0 x1 : ℝ} {deg : ℕ} (hB : Spec.GsBox o a h x0 x1 deg) :
    Spec.GsBox { o with box := Spec.nsepEffBox o a h1 } a h x0 x1 deg := by
  obtain ⟨b1, b2, b3, b4, b5⟩ := hB
  refine ⟨?_, ?_, b3, b4, ?_⟩
  · rw [effBox_twice]; exact b1
  · rw [effBox_twice]; exact b2
  · rw [effBox_twice]; exact b5

/-- One list after the other. -/
theorem listOut_append {K : ℕ} {l1 l2 : List ℂ} {b m m' : Option (Buf ℂ)} {n n' d : ℕ} (h1 : Spec.ListOut 0 K l1 0 b n m)
    (h2 : Spec.ListOut n (K - n) l2 d m n' m') : Spec.ListOut 0 K (l1 ++ l2) d b (n + n') m' := by
  rcases b with _ | c
  · obtain ⟨rfl, rfl⟩ := h1.1 rfl
    obtain ⟨rfl, rfl⟩ := h2.1 rfl
    exact ⟨fun _ => ⟨rfl, by rw [Nat.zero_add]⟩, fun c hc => (by cases hc)⟩
  · obtain ⟨e1, c1, rfl, w1⟩ := h1.2 c rfl
    obtain ⟨e2, c2, rfl, w2⟩ := h2.2 c1 rfl
    have hK : K - n = K - l1.length := by rw [e1, List.length_take]; omega
    have ht : (l1 ++ l2).take K = l1.take K ++ l2.take (K - n) := by rw [List.take_append, hK]
    refine ⟨fun hc => (by cases hc), fun c' hc' => ?_⟩
    cases hc'
    rw [ht]
    refine ⟨by rw [List.length_append, ← e1, ← e2], c2, rfl, ?_⟩
    refine WroteAt.append w1 ?_
    rw [Nat.zero_add, ← e1]
    exact w2

theorem listOut_le {K : ℕ} {l : List ℂ} {b m : Option (Buf ℂ)} {n : ℕ} (h : Spec.ListOut 0 K l 0 b n m) : n ≤ K := by
  rcases b with _ | c
  · rw [(h.1 rfl).2]; exact Nat.zero_le _
  · rw [(h.2 c rfl).1, List.length_take]; exact Nat.min_le_left _ _

theorem listOut_len {K : ℕ} {l : List ℂ} {b m : Option (Buf ℂ)} {n : ℕ} (h : Spec.ListOut 0 K l 0 b n m) (hb : ∀ c, b = some c → K ≤ c.len)
    (c : Buf ℂ) (hc : m = some c) : n + (K - n) ≤ c.len := by
  have hn := listOut_le h
  rcases b with _ | b
  · rw [(h.1 rfl).1] at hc; cases hc
  · obtain ⟨-, c', e, w⟩ := h.2 b rfl
    rw [e] at hc; cases hc
    rw [w.1]
    have := hb b rfl
    omega

theorem listOut_some {K : ℕ} {l : List ℂ} {b m : Option (Buf ℂ)} {n : ℕ} (h : Spec.ListOut 0 K l 0 b n m) : m.isSome = b.isSome := by
  rcases b with _ | b
  · rw [(h.1 rfl).1]
  · obtain ⟨-, c', e, -⟩ := h.2 b rfl
    rw [e]; rfl

theorem nsep_mixed_ok {roots : RootFinder} {R : ℕ → Polynomial ℂ → ℕ → ℂ} (hroots : Spec.Finder roots R) {D k : ℕ} (hk1 : 1 ≤ k)
    (hDk : D = 2 ^ k) {q : Buf ℂ} {x : ℕ → ℂ} {T0 T1 : ℝ} {kappa : ℤ} {o : NsepOpts} {a : AknsDisc}
    (h : PerArgs D q x T0 T1 kappa o.disc a) (hdeg : akns_degree a ≠ 0) {eps : ℝ} (heps : eps = (T1 - T0) / D)
    (hmod : a = .D2SPLIT2_MODAL → ∀ Ds s, (Spec.SubPeriod D o.Dsub Ds s ∨ Ds = D ∧ s = 1) → ∀ j, j < Ds → 0 < 1 + kappa * (s * eps * ‖x (s * j)‖) ^ 2)
    {N : ℕ} (hN : N = D * akns_upsampling_factor a) {dg : ℕ} (hdg : dg = D * Spec.degree1step a) {x0 x1 : ℝ} (hB : Spec.GsBox o a eps x0 x1 dg) :
    ∃ (Ds s deg : ℕ) (S S2 : ℂ → Spec.M2) (P P2 : ℂ → Polynomial ℂ) (Pa Pa2 : Polynomial ℂ) (qf rf : ℕ → ℂ) (Y : ℂ → Spec.M2),
      Spec.SubPeriod D o.Dsub Ds s ∧ Spec.PeriodPolys a kappa D (T1 - T0) x Ds s deg S P Pa ∧
      Spec.PeriodPolys a kappa D (T1 - T0) x D 1 dg S2 P2 Pa2 ∧
      Spec.Processed (Spec.refineDisc a) kappa D eps x D 1 qf rf ∧ (∀ l, Spec.MonoDeriv expS (Spec.refineDisc a) N eps qf rf l (Y l)) ∧
      ∀ (box : Fin 4 → Dbl) (tol : Dbl) (S' : ℂ → Spec.M2) (keep : List ℂ → List ℂ),
        box = Spec.nsepEffBox o a (s * eps) → tol = Spec.realTol D box → (o.filt = .NONE ∨ Spec.ValidBox box) →
        Dbl.zero.le tol → S' = Spec.mono expS (Spec.refineDisc a) N eps qf rf → keep = Spec.subKeep o.filt box true tol →
      ∀ (K M : ℕ) (main aux main1 : Option (Buf ℂ)), main1 = (if kappa = 1 then main else none) →
        (∀ b, main = some b → K ≤ b.len) → (∀ b, aux = some b → M ≤ b.len) → Spec.NoZero R o deg P Pa main1 aux →
      ∃ w : ℂ → ℤ, (o.nrm = false → ∀ l, w l = 0) ∧ ∃ cm outs ca outa,
        (main1.isSome → Spec.Spines (Spec.subMainList R a (s * eps) deg P S' Y o box keep) o.pps K cm outs) ∧
        (main1 = none → outs = []) ∧
        (aux.isSome → Spec.subAuxList R a (s * eps) deg Pa S' Y w o box keep ca outa) ∧
        ∀ (hits : Polynomial ℂ → List ℂ) (pts : Polynomial ℂ → List ℂ), (∀ Q, hits Q = Spec.gsHits a eps Q (Spec.nsepPHI a eps x0 x1) dg) →
          (∀ Q, pts Q = Spec.Kept o.filt (Spec.nsepEffBox o a eps) (hits Q)) → ∀ junk,
        (main1.isSome ∧ cm ≠ SUCCESS ∨ aux.isSome ∧ ca ≠ SUCCESS →
          ∃ st, nsepMixed roots junk D q T0 T1 kappa ⟨K, main, M, aux, o⟩ = some (E_SUBROUTINE EC_DIV_BY_ZERO, st)) ∧
        ((main1.isSome → cm = SUCCESS) ∧ (aux.isSome → ca = SUCCESS) →
          (main.isSome ∧ (dg < (hits (P2 2)).length ∨ dg < (hits (P2 (-2))).length) →
            ∃ st, nsepMixed roots junk D q T0 T1 kappa ⟨K, main, M, aux, o⟩ = some (E_SUBROUTINE EC_OTHER, st)) ∧
          (main = none ∨ (hits (P2 2)).length ≤ dg ∧ (hits (P2 (-2))).length ≤ dg →
            ∃ K' m M' u, nsepMixed roots junk D q T0 T1 kappa ⟨K, main, M, aux, o⟩ =
                some (SUCCESS, ⟨K', m, M', u, { o with box := Spec.nsepEffBox o a eps }⟩) ∧
              Spec.ListOut 0 K (outs.flatten ++ (pts (P2 2) ++ pts (P2 (-2)))) junk main K' m ∧
              Spec.ListOut 0 M (outa ++ pts Pa2) 0 aux M' u)) := by
  obtain ⟨Ds, s, deg, S, P, Pa, qf, rf, Y, e1, e2, e3, e4, e5⟩ := nsep_subsample_ok hroots hk1 hDk h hdeg heps
    (fun ha Ds s hs => hmod ha Ds s (Or.inl hs)) hN
  have hpp : ∃ S2 P2 Pa2, Spec.PeriodPolys a kappa D (T1 - T0) x D 1 dg S2 P2 Pa2 ∧ ∀ (offK offM : ℕ) (st : NsepSt), st.opts = { o with box := Spec.nsepEffBox o a (s * eps) } →
      (∀ b, st.main = some b → offK + st.K ≤ b.len) → (∀ b, st.aux = some b → offM + st.M ≤ b.len) →
      ∀ (L1 L2 La : List ℂ), L1 = Spec.gsHits a eps (P2 2) (Spec.nsepPHI a eps x0 x1) dg →
        L2 = Spec.gsHits a eps (P2 (-2)) (Spec.nsepPHI a eps x0 x1) dg → La = Spec.gsHits a eps Pa2 (Spec.nsepPHI a eps x0 x1) dg → ∀ junk,
      (st.main.isSome = true ∧ (dg < L1.length ∨ dg < L2.length) → ∃ st', nsep_gridsearch junk D q T0 T1 kappa offK offM st = some (EC_OTHER, st')) ∧
      (st.main = none ∨ (L1.length ≤ dg ∧ L2.length ≤ dg) →
        ∃ K m M u, nsep_gridsearch junk D q T0 T1 kappa offK offM st =
            some (SUCCESS, ⟨K, m, M, u, { o with box := Spec.nsepEffBox o a eps }⟩) ∧
          Spec.ListOut offK st.K (Spec.Kept o.filt (Spec.nsepEffBox o a eps) L1 ++ Spec.Kept o.filt (Spec.nsepEffBox o a eps) L2) junk st.main K m ∧
          Spec.ListOut offM st.M (Spec.Kept o.filt (Spec.nsepEffBox o a eps) La) 0 st.aux M u) := by
    obtain ⟨o1, ho1⟩ : ∃ o1 : NsepOpts, o1 = { o with box := Spec.nsepEffBox o a (s * eps) } := ⟨_, rfl⟩
    have hB1 : Spec.GsBox o1 a eps x0 x1 dg := by rw [ho1]; exact gsBox_twice _ hB
    have hbx : Spec.nsepEffBox o1 a eps = Spec.nsepEffBox o a eps := by rw [ho1]; exact effBox_twice _ _ _ _
    have hff : o1.filt = o.filt := by rw [ho1]
    rw [hdg] at hB1
    obtain ⟨S2, P2, Pa2, i1, i2⟩ := nsep_gridsearch_ok' (o := o1) (by rw [ho1]; exact h) hdeg heps
      (fun ha j hj => by simpa using hmod ha D 1 (Or.inr ⟨rfl, rfl⟩) j hj) hB1
    refine ⟨S2, P2, Pa2, by rw [hdg]; exact i1, ?_⟩
    intro offK offM st hst hmn hax L1 L2 La hL1 hL2 hLa junk
    rw [hdg] at hL1 hL2 hLa ⊢
    obtain ⟨j1, j2⟩ := i2 offK offM st (by rw [hst, ho1]) hmn hax L1 L2 La hL1 hL2 hLa junk
    rw [hbx, hff] at j2
    refine ⟨fun hh => ?_, fun hh => ?_⟩
    · obtain ⟨m, hm⟩ := j1 hh
      exact ⟨_, hm⟩
    · obtain ⟨K, m, M, u, q1, q2⟩ := j2 hh
      exact ⟨K, m, M, u, by rw [q1, ho1], q2⟩
  obtain ⟨S2, P2, Pa2, g1, g2⟩ := hpp
  refine ⟨Ds, s, deg, S, S2, P, P2, Pa, Pa2, qf, rf, Y, e1, e2, g1, e3, e4, ?_⟩
  intro box tol S' keep hbox htl hv htol hS' hkeep K M main aux main1 hm1 hmn hax hnz
  have hm1len : ∀ b, main1 = some b → (if kappa = 1 then K else 0) ≤ b.len := by
    intro b hb
    rw [hm1] at hb
    split_ifs at hb ⊢ with hk
    · exact hmn b hb
  obtain ⟨w, w1, cm, outs, ca, outa, f1, f2, f3, f4⟩ := e5 box tol true S' keep hbox htl hv (fun _ => htol) hS' hkeep
    (if kappa = 1 then K else 0) M main1 aux hm1len hax hnz
  refine ⟨w, w1, cm, if main1 = none then [] else outs, ca, outa, ?_, ?_, f2, ?_⟩
  · intro hh
    have hk : kappa = 1 := by
      by_contra hk
      rw [hm1, if_neg hk] at hh; cases hh
    have : main1 ≠ none := by rintro rfl; cases hh
    rw [if_neg this]
    have := f1 hh
    rwa [if_pos hk] at this
  · intro hh; rw [if_pos hh]
  intro hits pts hhits hpts junk
  have hA : nsep_subsample roots D q T0 T1 kappa true (if kappa = 1 then ⟨K, main, M, aux, o⟩ else { (⟨K, main, M, aux, o⟩ : NsepSt) with K := 0, main := none }) =
      nsep_subsample roots D q T0 T1 kappa true ⟨if kappa = 1 then K else 0, main1, M, aux, o⟩ := by
    rw [hm1]
    split_ifs <;> rfl
  constructor
  · intro hf
    obtain ⟨st, hst⟩ := f3 hf
    unfold nsepMixed
    rw [hA, hst]
    simp only [Option.bind_eq_bind, Option.bind_some]
    rw [if_pos (E_SUBROUTINE_ne (by decide)), chk_sub]
    exact ⟨_, rfl⟩
  · intro hf
    obtain ⟨K1, m1, M1, u1, k1, k2, k3⟩ := f4 hf
    -- the main array after the first routine
    obtain ⟨mm, hmm⟩ : ∃ mm, mm = if kappa = 1 then m1 else main := ⟨_, rfl⟩
    have k2' : Spec.ListOut 0 K (if main1 = none then [] else outs).flatten 0 main K1 mm := by
      by_cases hk : kappa = 1
      · rw [if_pos hk] at hm1 k2 hmm
        rw [hm1] at k2 ⊢
        rw [hmm]
        rcases main with _ | b
        · obtain ⟨rfl, rfl⟩ := k2.1 rfl
          exact ⟨fun _ => ⟨rfl, rfl⟩, fun c hc => (by cases hc)⟩
        · rw [if_neg (by simp)]; exact k2
      · rw [if_neg hk] at hm1 hmm
        rw [hm1] at k2
        obtain ⟨-, rfl⟩ := k2.1 rfl
        rw [hm1, if_pos rfl, hmm]
        refine ⟨fun hh => ⟨hh, rfl⟩, fun c hc => ⟨by simp, c, hc, ?_⟩⟩
        simpa using WroteAt.nil 0 c
    have hK1 := listOut_le k2'
    have hM1 := listOut_le k3
    obtain ⟨st, hst⟩ : ∃ st : NsepSt, st = ⟨K - K1, mm, M - M1, u1, { o with box := box }⟩ := ⟨_, rfl⟩
    have hrun : nsepMixed roots junk D q T0 T1 kappa ⟨K, main, M, aux, o⟩ = (nsep_gridsearch junk D q T0 T1 kappa K1 M1 st).bind fun B =>
        if B.1 ≠ SUCCESS then some (chk B.1, { B.2 with K := K, M := M })
        else some (SUCCESS, { B.2 with K := K1 + B.2.K, M := M1 + B.2.M }) := by
      unfold nsepMixed
      rw [hA, k1]
      simp only [Option.bind_eq_bind, Option.bind_some]
      rw [if_neg (by simp), if_neg (by omega), hst, hmm]
      rfl
    obtain ⟨j1, j2⟩ := g2 K1 M1 st (by rw [hst, hbox]) (by rw [hst]; exact listOut_len k2' hmn) (by rw [hst]; exact listOut_len k3 hax) _ _ _ rfl rfl rfl junk
    have hsome : st.main.isSome = main.isSome := by rw [hst]; exact listOut_some k2'
    rw [hrun]
    constructor
    · intro hc
      obtain ⟨st', hs'⟩ := j1 ⟨by rw [hsome]; exact hc.1, by simpa only [hhits] using hc.2⟩
      rw [hs']
      exact ⟨_, rfl⟩
    · intro hc
      obtain ⟨K', m, M', u, l1, l2, l3⟩ := j2 (by
        rcases hc with hc | hc
        · left
          rw [← Option.not_isSome_iff_eq_none, hsome, hc]; simp
        · right; simpa only [hhits] using hc)
      rw [l1]
      refine ⟨K1 + K', m, M1 + M', u, rfl, ?_, ?_⟩
      · rw [hst] at l2
        simp only [hpts, hhits]
        exact listOut_append k2' l2
      · rw [hst] at l3
        simp only [hpts, hhits]
        exact listOut_append k3 l3

end FNFT

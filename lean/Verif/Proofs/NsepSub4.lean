import Verif.Proofs.NsepSub3
/-!
# Proofs: subsample and refine in fnft_nsep.c, the routine
-/
namespace FNFT
open Complex

theorem refine_up {a : AknsDisc} (hdeg : akns_degree a ≠ 0) (hup : akns_upsampling_factor a ≠ 0) :
    akns_upsampling_factor (Spec.refineDisc a) = akns_upsampling_factor a := by
  cases a <;> first | rfl | (exact absurd rfl hup) | (exact absurd rfl hdeg)

theorem refine_slow (a : AknsDisc) : Spec.slow (Spec.refineDisc a) := by
  unfold Spec.refineDisc Spec.slow
  split_ifs <;> simp

theorem processed_refine {a : AknsDisc} (hdeg : akns_degree a ≠ 0) (hup : akns_upsampling_factor a ≠ 0) {kappa : ℤ} {D : ℕ} {eps : ℝ} {x : ℕ → ℂ}
    {Ds s : ℕ} {qf rf : ℕ → ℂ} (h : Spec.Processed a kappa D eps x Ds s qf rf) : Spec.Processed (Spec.refineDisc a) kappa D eps x Ds s qf rf := by
  cases a <;> first | exact h | (exact absurd rfl hup) | (exact absurd rfl hdeg) | skip

theorem slow_refine {d : NseDisc} {a : AknsDisc} (hd : nse_to_akns d = .ok a) (hdeg : akns_degree a ≠ 0) (hup : akns_upsampling_factor a ≠ 0) :
    nse_to_akns (nsepSlow d) = .ok (Spec.refineDisc a) := by
  unfold nsepSlow
  rw [nse_up_eq hd]
  cases a <;> first | rfl | (exact absurd rfl hup) | (exact absurd rfl hdeg)

theorem refinedList_code {m : ℂ → ℤ → ℂ → Prop} (hm : ∀ z c w, m z c w → c = SUCCESS ∨ c = EC_DIV_BY_ZERO) {keep : List ℂ → List ℂ}
    {init : List ℂ} {code : ℤ} {out : List ℂ} (h : Spec.RefinedList m keep init code out) : code = SUCCESS ∨ code = EC_DIV_BY_ZERO := by
  obtain ⟨f, h1, -⟩ := h
  by_cases hc : code = SUCCESS
  · exact Or.inl hc
  · obtain ⟨i, -, h2, -⟩ := h1.failed hc
    exact hm _ _ _ h2

theorem nsep_subsample_ok {roots : RootFinder} {R : ℕ → Polynomial ℂ → ℕ → ℂ} (hroots : Spec.Finder roots R) {D k : ℕ} (hk1 : 1 ≤ k)
    (hDk : D = 2 ^ k) {q : Buf ℂ} {x : ℕ → ℂ} {T0 T1 : ℝ} {kappa : ℤ} {o : NsepOpts} {a : AknsDisc}
    (h : PerArgs D q x T0 T1 kappa o.disc a) (hdeg : akns_degree a ≠ 0) {eps : ℝ} (heps : eps = (T1 - T0) / D)
    (hmod : a = .D2SPLIT2_MODAL → ∀ Ds s, Spec.SubPeriod D o.Dsub Ds s → ∀ j, j < Ds → 0 < 1 + kappa * (s * eps * ‖x (s * j)‖) ^ 2)
    {N : ℕ} (hN : N = D * akns_upsampling_factor a) :
    ∃ (Ds s deg : ℕ) (S : ℂ → Spec.M2) (P : ℂ → Polynomial ℂ) (Pa : Polynomial ℂ) (qf rf : ℕ → ℂ) (Y : ℂ → Spec.M2),
      Spec.SubPeriod D o.Dsub Ds s ∧ Spec.PeriodPolys a kappa D (T1 - T0) x Ds s deg S P Pa ∧
      Spec.Processed (Spec.refineDisc a) kappa D eps x D 1 qf rf ∧ (∀ l, Spec.MonoDeriv expS (Spec.refineDisc a) N eps qf rf l (Y l)) ∧
      ∀ (box : Fin 4 → Dbl) (tol : Dbl) (skip : Bool) (S' : ℂ → Spec.M2) (keep : List ℂ → List ℂ),
        box = Spec.nsepEffBox o a (s * eps) → tol = Spec.realTol D box → (o.filt = .NONE ∨ Spec.ValidBox box) →
        (skip = true → Dbl.zero.le tol) → S' = Spec.mono expS (Spec.refineDisc a) N eps qf rf → keep = Spec.subKeep o.filt box skip tol →
      ∀ (K M : ℕ) (main aux : Option (Buf ℂ)), (∀ b, main = some b → K ≤ b.len) → (∀ b, aux = some b → M ≤ b.len) →
        Spec.NoZero R o deg P Pa main aux →
      ∃ w : ℂ → ℤ, (o.nrm = false → ∀ l, w l = 0) ∧ ∃ cm outs ca outa,
        (main.isSome → Spec.Spines (Spec.subMainList R a (s * eps) deg P S' Y o box keep) o.pps K cm outs) ∧
        (aux.isSome → Spec.subAuxList R a (s * eps) deg Pa S' Y w o box keep ca outa) ∧
        (main.isSome ∧ cm ≠ SUCCESS ∨ aux.isSome ∧ ca ≠ SUCCESS →
          ∃ st, nsep_subsample roots D q T0 T1 kappa skip ⟨K, main, M, aux, o⟩ = some (E_SUBROUTINE EC_DIV_BY_ZERO, st)) ∧
        ((main.isSome → cm = SUCCESS) ∧ (aux.isSome → ca = SUCCESS) →
          ∃ K' m M' u, nsep_subsample roots D q T0 T1 kappa skip ⟨K, main, M, aux, o⟩ =
              some (SUCCESS, ⟨K', m, M', u, { o with box := box }⟩) ∧
            Spec.ListOut 0 K outs.flatten 0 main K' m ∧ Spec.ListOut 0 M outa 0 aux M' u) := by
  have hpos : 0 < eps := heps ▸ h.eps_pos
  have hup := nse_up_eq h.hd
  obtain ⟨D1, s1, qp, rp, qf, rf, p1, p2, p3, p4, p5⟩ := nse_pre_ok h.hd h.hD h.hCF h.D_lt h.hq hpos h.hk D
  obtain ⟨rfl, rfl⟩ := subGrid_full p2
  obtain ⟨Ds, s, qs, rs, qg, rg, r1, r2, r3, r4, r5⟩ := nse_pre_sub h.hd hk1 hDk h.hCF h.D_lt h.hq hpos h.hk o.Dsub
  have hev : Ds % 2 = 0 := by
    obtain ⟨j, hj⟩ := r2.pow
    have := r2.two
    rcases j with _ | j
    · rw [hj] at this; norm_num at this
    · rw [hj, pow_succ]; omega
  have hs0 : 0 < s := by
    rcases Nat.eq_zero_or_pos s with hs | hs
    · have := r2.cover
      rw [hs, Nat.zero_mul] at this
      have := h.hD
      omega
    · exact hs
  rw [heps] at r5
  obtain ⟨deg, W, tm, S, P, Pa, y, f1, f2, f3, f4, f5⟩ := per_polys h hdeg r2.two hev r2.cover (H := s * eps) (by rw [heps]) r3 r4 r5
    (fun ha j hj => hmod ha Ds s r2 j hj) o.nrm
  rw [← hN] at p3 p4
  have hmono : MonoArgs N qp rp qf rf eps kappa (nsepSlow o.disc) (Spec.refineDisc a) :=
    ⟨slow_refine h.hd hdeg h.up_ne, refine_slow a, by rw [hN]; have := h.hD; have := Nat.pos_of_ne_zero h.up_ne; positivity, p3, p4, hpos, h.hk,
      by rw [hN, ← refine_up hdeg h.up_ne]; exact slowSamples_up (refine_slow a) _⟩
  refine ⟨Ds, s, deg, S, P, Pa, qf, rf, monoD (Spec.refineDisc a) N eps qf rf, r2, f5, processed_refine hdeg h.up_ne p5, monoD_ok hmono, ?_⟩
  intro box tol skip S' keep hbox htl hv htol hS' hkeep K M main aux hmn hax hnz
  obtain ⟨o', ho'⟩ : ∃ o' : NsepOpts, o' = { o with box := box } := ⟨_, rfl⟩
  have hbx : nsepBox (s * eps) o = o' := by rw [nsepBox_ok h.hd, ← hbox, ho']
  have htl' : nsepTolIm D1 o' = tol := by rw [htl, ho']; rfl
  obtain ⟨c, hc⟩ : ∃ c : SubCtx, c = ⟨N, qp, rp, eps, s * eps, kappa, skip, tol⟩ := ⟨_, rfl⟩
  have hsub : SubArgs roots R c o' a qf rf := ⟨hroots, by rw [ho']; exact h.hd, hdeg, by rw [ho']; exact hv, by rw [hc]; exact htol, by rw [hc, ho']; exact hmono⟩
  have hkp : keepB o' c.skip c.tol_im = keep := by rw [hkeep, hc, ho']; rfl
  obtain ⟨w, w1, cm, outs, ca, outa, a1, a2, a3, a4, a5⟩ := subSpectra_ok (W := W) hsub f2 f3 f4 (s := ⟨K, main, M, aux, o⟩)
    (fun hh => by rw [ho']; exact hnz.1 hh) (fun hh => hnz.2 hh) hmn hax
  have hm : subMethod R c o' a qf rf deg P = Spec.subMainList R a (s * eps) deg P S' (monoD (Spec.refineDisc a) N eps qf rf) o box keep := by
    funext n
    unfold subMethod Spec.subMainList
    rw [hkp, hS', hc, ho']
    rfl
  have ha : subAuxMethod R c o' a qf rf w deg Pa = Spec.subAuxList R a (s * eps) deg Pa S' (monoD (Spec.refineDisc a) N eps qf rf) w o box keep := by
    unfold subAuxMethod Spec.subAuxList
    rw [hkp, hS', hc, ho']
    rfl
  have hpps : o'.pps = o.pps := by rw [ho']
  have hrun : nsep_subsample roots D1 q T0 T1 kappa skip ⟨K, main, M, aux, o⟩ = subSpectra roots c deg W tm o' ⟨K, main, M, aux, o⟩ := by
    have hdiv : D1 / Ds = s := by
      rw [← r2.cover]; exact Nat.mul_div_cancel _ (by have := r2.two; omega)
    have hfl : ¬ ((0 : ℕ) ≠ 0 ∨ (Ds - 1) * s + s ≠ D1) := by
      push_neg
      refine ⟨rfl, ?_⟩
      have := r2.two
      rw [← r2.cover, ← Nat.succ_mul, Nat.succ_eq_add_one, Nat.sub_add_cancel (by omega), Nat.mul_comm]
    unfold nsep_subsample
    dsimp only
    rw [if_neg (by rw [hup]; exact h.up_ne), ← heps, p1]
    simp only [Option.bind_eq_bind, Option.bind_some, r1, hdiv, if_neg hfl, hup, f1, hbx, htl', ← hN, ← hc]
  rw [hrun]
  dsimp only at a1 a2 a3 a4 a5
  rw [hm, hpps] at a1
  rw [ha] at a2
  refine ⟨w, by rw [ho'] at w1; exact w1, cm, outs, ca, outa, a1, a2, ?_, ?_⟩
  · intro hf
    have hcm : main.isSome → cm = SUCCESS ∨ cm = EC_DIV_BY_ZERO := by
      intro h1
      rcases (a1 h1).2.2.2 with e | ⟨-, -, -, l, e⟩
      · exact Or.inl e.1
      · exact refinedList_code (fun _ _ _ => mainNewton_code) e
    have hca : aux.isSome → ca = SUCCESS ∨ ca = EC_DIV_BY_ZERO := fun h1 => refinedList_code (fun _ _ _ => auxNewton_code) (a2 h1)
    by_cases hh : main.isSome ∧ cm ≠ SUCCESS
    · rw [← (hcm hh.1).resolve_left hh.2]
      exact a3 hh
    · have hf := hf.resolve_left hh
      rw [← (hca hf.1).resolve_left hf.2]
      exact a4 ⟨fun h1 => by by_contra h2; exact hh ⟨h1, h2⟩, hf⟩
  · intro hf
    obtain ⟨K', m, M', u, g1, g2, g3⟩ := a5 hf
    exact ⟨K', m, M', u, by rw [g1, ho'], g2, g3⟩

end FNFT

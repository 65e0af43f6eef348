import Verif.Proofs.NsepSub4
import Verif.Props.NsepNewton
import Mathlib.Analysis.Complex.Polynomial.Basic
/-!
# Properties of `fnft_nsep`: subsample and refine
-/
namespace FNFT
open Complex

variable {D : ℕ} {q : Buf ℂ} {x : ℕ → ℂ} {T0 T1 : ℝ} {kappa : ℤ} {o : NsepOpts} {a : AknsDisc}

/-! ## C62: roots of the subsampled problem, refined -/

theorem periodic_norm (x : ℕ → ℂ) (L T0 eps : ℝ) (j : ℕ) : ‖Spec.periodic x L T0 eps j‖ = ‖x j‖ := by
  unfold Spec.periodic
  have e : 2 * I * (L : ℂ) * (T0 + eps * j) = ((2 * L * (T0 + eps * j) : ℝ) : ℂ) * I := by push_cast; ring
  rw [norm_mul, e, norm_exp_ofReal_mul_I, mul_one]

/-- C62. With `fnft_nsep_loc_SUBSAMPLE_AND_REFINE`: for each of the `points_per_spine` values of the Floquet discriminant, the candidates are the
points at which the Floquet discriminant of the subsampled (periodic) signal has this value, according to the root finder; those that pass the filter are
refined with Newton's method for the monodromy matrix of the full signal, computed with an exponential integrator; those that then pass the filter are
returned, shifted back, for one value after the other, as long as there is room. The auxiliary spectrum is found in the same way. The call fails
exactly if a derivative is zero in some refinement; it never fails because of the number of samples that are asked for. -/
theorem C62_subsample {roots : RootFinder} {R : ℕ → Polynomial ℂ → ℕ → ℂ} (hroots : Spec.Finder roots R)
    (h : Spec.NsepArgs D q x T0 T1 kappa o a) (hloc : o.loc = .SUBSAMPLE_AND_REFINE) (hdeg : akns_degree a ≠ 0)
    {ph L eps : ℝ} (hL : L = Spec.lamShift ph (T1 - T0)) (heps : eps = (T1 - T0) / D)
    (hmod : a = .D2SPLIT2_MODAL → ∀ Ds s, Spec.SubPeriod D o.Dsub Ds s → ∀ j, j < Ds → 0 < 1 + kappa * (s * eps * ‖x (s * j)‖) ^ 2)
    {N : ℕ} (hN : N = D * akns_upsampling_factor a) :
    ∃ (Ds s deg : ℕ) (S : ℂ → Spec.M2) (P : ℂ → Polynomial ℂ) (Pa : Polynomial ℂ) (E : Spec.M2 → Spec.M2) (qf rf : ℕ → ℂ) (Y : ℂ → Spec.M2),
      Spec.SubPeriod D o.Dsub Ds s ∧ Spec.PeriodPolys a kappa D (T1 - T0) (Spec.periodic x L T0 eps) Ds s deg S P Pa ∧ Spec.NearExp E ∧
      Spec.Processed (Spec.refineDisc a) kappa D eps (Spec.periodic x L T0 eps) D 1 qf rf ∧
      (∀ l, Spec.MonoDeriv E (Spec.refineDisc a) N eps qf rf l (Y l)) ∧
      ∀ (box : Fin 4 → Dbl) (S' : ℂ → Spec.M2),
        box = Spec.nsepEffBox (Spec.frameOpts L o) a (s * eps) → (o.filt = .NONE ∨ Spec.ValidBox box) →
        S' = Spec.mono E (Spec.refineDisc a) N eps qf rf →
      ∀ (K M : ℕ) (main aux : Option (Buf ℂ)), Spec.NsepReq o K main M aux → Spec.NoZero R o deg P Pa main aux →
      ∃ w : ℂ → ℤ, (o.nrm = false → ∀ l, w l = 0) ∧ ∃ cm outs ca outa,
        (main.isSome → Spec.Spines (Spec.subMainList R a (s * eps) deg P S' Y o box (Spec.Kept o.filt box)) o.pps K cm outs) ∧
        (aux.isSome → Spec.subAuxList R a (s * eps) deg Pa S' Y w o box (Spec.Kept o.filt box) ca outa) ∧
        ∀ junk,
        (main.isSome ∧ cm ≠ SUCCESS ∨ aux.isSome ∧ ca ≠ SUCCESS →
          ∃ st, fnft_nsep roots junk D (some q) (some (T0, T1)) ph (some K) main (some M) aux false kappa o =
            some (E_SUBROUTINE EC_DIV_BY_ZERO, some st)) ∧
        ((main.isSome → cm = SUCCESS) ∧ (aux.isSome → ca = SUCCESS) →
          ∃ K' m M' u, fnft_nsep roots junk D (some q) (some (T0, T1)) ph (some K) main (some M) aux false kappa o =
              some (SUCCESS, some ⟨K', m, M', u, { o with box := Spec.nsepEffBox o a (s * eps) }⟩) ∧
            Spec.ListOut 0 K (outs.flatten.map (· + (L : ℂ))) 0 main K' m ∧ Spec.ListOut 0 M (outa.map (· + (L : ℂ))) 0 aux M' u) := by
  obtain ⟨k, hk1, hDk⟩ := h.hD
  obtain ⟨qp, hp, hrun⟩ := nsep_top' h hL
  rw [← heps] at hp
  obtain ⟨o', ho'⟩ : ∃ o', o' = Spec.frameOpts L o := ⟨_, rfl⟩
  have hdisc : o'.disc = o.disc := by rw [ho', frame_disc]
  have hfilt : o'.filt = o.filt := by rw [ho', frame_filt]
  have hloc' : o'.loc = .SUBSAMPLE_AND_REFINE := by rw [ho', frame_loc, hloc]
  have hpps : o'.pps = o.pps := by rw [ho', frame_eq]
  have hnrm : o'.nrm = o.nrm := by rw [ho', frame_eq]
  have hDsub : o'.Dsub = o.Dsub := by rw [ho', frame_eq]
  obtain ⟨Ds, s, deg, S, P, Pa, qf, rf, Y, e1, e2, e3, e4, e5⟩ := nsep_subsample_ok hroots hk1 hDk (o := o') (by rw [hdisc]; exact hp) hdeg heps
    (by
      intro ha Ds s hs j hj
      rw [hDsub] at hs
      rw [periodic_norm]
      exact hmod ha Ds s hs j hj) hN
  rw [hDsub] at e1
  refine ⟨Ds, s, deg, S, P, Pa, expS, qf, rf, Y, e1, e2, nearExp_expS, e3, e4, ?_⟩
  intro box S' hbox hv hS' K M main aux hr hnz
  have hnz' : Spec.NoZero R o' deg P Pa main aux := by rw [ho', frame_eq]; exact hnz
  rw [← ho'] at hbox
  obtain ⟨w, w1, cm, outs, ca, outa, f1, f2, f3, f4⟩ := e5 box _ false S' _ hbox rfl (by rw [hfilt]; exact hv) (fun hh => (by cases hh)) hS' rfl
    K M main aux hr.roomK hr.roomM hnz'
  have hkeep : Spec.subKeep o'.filt box false (Spec.realTol D box) = Spec.Kept o.filt box := by
    funext l; unfold Spec.subKeep Spec.Nonreal; rw [hfilt]; simp
  have hmm : ∀ keep, Spec.subMainList R a (s * eps) deg P S' Y o' box keep = Spec.subMainList R a (s * eps) deg P S' Y o box keep := by
    intro keep; rw [ho', frame_eq]; rfl
  have haa : ∀ keep, Spec.subAuxList R a (s * eps) deg Pa S' Y w o' box keep = Spec.subAuxList R a (s * eps) deg Pa S' Y w o box keep := by
    intro keep; rw [ho', frame_eq]; rfl
  rw [hkeep, hmm, hpps] at f1
  rw [hkeep, haa] at f2
  rw [hnrm] at w1
  refine ⟨w, w1, cm, outs, ca, outa, f1, f2, fun junk => ?_⟩
  have hsw : nsepSwitch roots junk D qp T0 T1 kappa ⟨K, main, M, aux, o'⟩ = (do
      let R ← nsep_subsample roots D qp T0 T1 kappa false ⟨K, main, M, aux, o'⟩
      return (chk R.1, R.2)) := by
    unfold nsepSwitch
    dsimp only
    rw [hloc']
  rw [hrun K M main aux hr.both, ← ho', hsw]
  constructor
  · intro hc
    obtain ⟨st, hst⟩ := f3 hc
    rw [hst]
    exact ⟨st, rfl⟩
  · intro hc
    obtain ⟨K', m, M', u, g1, g2, g3⟩ := f4 hc
    obtain ⟨m', k1, k2⟩ := listOut_shift g2 L
    obtain ⟨u', l1, l2⟩ := listOut_shift g3 L
    refine ⟨K', m', M', u', ?_, k2, l2⟩
    rw [g1]
    simp only [Option.bind_eq_bind, Option.bind_some, Option.pure_def, chk_success, nsepFinish, ne_eq, not_true_eq_false, if_false, k1, l1]
    rw [hbox, ho', box_back]

theorem zOf_lamOf (hdeg : akns_degree a ≠ 0) {h : ℝ} (hh : 0 < h) {z : ℂ} (hz : z ≠ 0) : Spec.zOf a h (Spec.lamOf a h z) = z := by
  have hd' : (Spec.degree1step a : ℂ) ≠ 0 := by exact_mod_cast (degree1step_pos hdeg).ne'
  have he : (h : ℂ) ≠ 0 := by exact_mod_cast hh.ne'
  unfold Spec.zOf Spec.lamOf
  rw [show 2 * I * (log z / (2 * I * h / (Spec.degree1step a : ℂ))) * h / (Spec.degree1step a : ℂ) = log z by field_simp, exp_log hz]

theorem lamOf_zOf (hdeg : akns_degree a ≠ 0) {h : ℝ} (hh : 0 < h) {l : ℂ} (hl : |2 * l.re * h / Spec.degree1step a| < Real.pi) :
    Spec.lamOf a h (Spec.zOf a h l) = l := by
  have hd' : (Spec.degree1step a : ℂ) ≠ 0 := by exact_mod_cast (degree1step_pos hdeg).ne'
  have he : (h : ℂ) ≠ 0 := by exact_mod_cast hh.ne'
  have him : (2 * I * l * h / Spec.degree1step a).im = 2 * l.re * h / Spec.degree1step a := by
    have e : 2 * I * l * (h : ℂ) / (Spec.degree1step a : ℂ) = ((2 * h / Spec.degree1step a : ℝ) : ℂ) * (I * l) := by push_cast; ring
    rw [e, Complex.im_ofReal_mul]
    simp
    ring
  obtain ⟨h1, h2⟩ := abs_lt.mp hl
  unfold Spec.lamOf Spec.zOf
  rw [log_exp (by rw [him]; exact h1) (by rw [him]; exact h2.le)]
  field_simp

/-- Roots of a polynomial that the finder is right about. -/
theorem finder_roots {R : ℕ → Polynomial ℂ → ℕ → ℂ} (hR : Spec.ExactFinder R) {deg : ℕ} {Q : Polynomial ℂ} (hQ : Q.natDegree = deg) (hne : Q ≠ 0)
    (z : ℂ) : Q.eval z = 0 ↔ ∃ k, k < deg ∧ z = R deg Q k := by
  rw [show Q.eval z = (Polynomial.C Q.leadingCoeff * ∏ k ∈ Finset.range deg, (Polynomial.X - Polynomial.C (R deg Q k))).eval z by
    rw [← hR deg Q hQ]]
  rw [Polynomial.eval_mul, Polynomial.eval_C, mul_eq_zero, or_iff_right (Polynomial.leadingCoeff_ne_zero.mpr hne), Polynomial.eval_prod,
    Finset.prod_eq_zero_iff]
  simp only [Finset.mem_range, Polynomial.eval_sub, Polynomial.eval_X, Polynomial.eval_C, sub_eq_zero]

/-- C62. If the root finder is right, the candidates are, in the strip that `z` can represent, exactly the points at which the Floquet discriminant of the
subsampled signal has the value looked for. -/
theorem C62_candidates {T : ℝ} {Ds s deg : ℕ} {S P Pa} (hP : Spec.PeriodPolys a kappa D T x Ds s deg S P Pa) (hdeg : akns_degree a ≠ 0)
    {R : ℕ → Polynomial ℂ → ℕ → ℂ} (hR : Spec.ExactFinder R) {h : ℝ} (hh : h = s * (T / D)) (hpos : 0 < h) (v : ℂ)
    (hn : (P v).natDegree = deg) (hne : P v ≠ 0) (hz : ∀ k, k < deg → R deg (P v) k ≠ 0) {l : ℂ}
    (hl : |2 * l.re * h / Spec.degree1step a| < Real.pi) :
    l ∈ Spec.candidates R a h deg (P v) ↔ Spec.floquet (S l) = -v := by
  obtain ⟨-, -, -, qf, rf, U, W, p, -, -, -, h5, -⟩ := hP
  rw [← hh] at h5
  have key : (P v).eval (Spec.zOf a h l) = 0 ↔ Spec.floquet (S l) = -v := by
    rw [h5, mul_eq_zero, or_iff_right (mul_ne_zero (zpow_ne_zero _ two_ne_zero) (exp_ne_zero _)), add_eq_zero_iff_eq_neg]
  rw [← key, finder_roots hR hn hne]
  unfold Spec.candidates
  simp only [List.mem_map, List.mem_range]
  constructor
  · rintro ⟨k, k1, k2⟩
    exact ⟨k, k1, by rw [← k2, zOf_lamOf hdeg hpos (hz k k1)]⟩
  · rintro ⟨k, k1, k2⟩
    exact ⟨k, k1, by rw [← k2, lamOf_zOf hdeg hpos hl]⟩

/-- C62. The same for the auxiliary spectrum. -/
theorem C62_aux_candidates {T : ℝ} {Ds s deg : ℕ} {S P Pa} (hP : Spec.PeriodPolys a kappa D T x Ds s deg S P Pa) (hdeg : akns_degree a ≠ 0)
    {R : ℕ → Polynomial ℂ → ℕ → ℂ} (hR : Spec.ExactFinder R) {h : ℝ} (hh : h = s * (T / D)) (hpos : 0 < h)
    (hn : Pa.natDegree = deg) (hne : Pa ≠ 0) (hz : ∀ k, k < deg → R deg Pa k ≠ 0) {l : ℂ}
    (hl : |2 * l.re * h / Spec.degree1step a| < Real.pi) :
    l ∈ Spec.candidates R a h deg Pa ↔ S l 0 1 = 0 := by
  obtain ⟨-, -, -, qf, rf, U, W, p, -, -, -, -, h5⟩ := hP
  rw [← hh] at h5
  have key : Pa.eval (Spec.zOf a h l) = 0 ↔ S l 0 1 = 0 := by
    rw [h5, mul_eq_zero, or_iff_right (mul_ne_zero (zpow_ne_zero _ two_ne_zero) (exp_ne_zero _)), mul_eq_zero, or_iff_right (exp_ne_zero _)]
  rw [← key, finder_roots hR hn hne]
  unfold Spec.candidates
  simp only [List.mem_map, List.mem_range]
  constructor
  · rintro ⟨k, k1, k2⟩
    exact ⟨k, k1, by rw [← k2, zOf_lamOf hdeg hpos (hz k k1)]⟩
  · rintro ⟨k, k1, k2⟩
    exact ⟨k, k1, by rw [← k2, lamOf_zOf hdeg hpos hl]⟩

/-- C62. All candidates are in that strip. -/
theorem C62_strip (hdeg : akns_degree a ≠ 0) {R : ℕ → Polynomial ℂ → ℕ → ℂ} {h : ℝ} (hpos : 0 < h) {deg : ℕ} {Q : Polynomial ℂ} {l : ℂ}
    (hl : l ∈ Spec.candidates R a h deg Q) : |2 * l.re * h / Spec.degree1step a| ≤ Real.pi := by
  obtain ⟨k, -, rfl⟩ := List.mem_map.mp hl
  have hd : (0 : ℝ) < Spec.degree1step a := by exact_mod_cast degree1step_pos hdeg
  have e : (Spec.lamOf a h (R deg Q k)).re = (log (R deg Q k)).im / (2 * h / Spec.degree1step a) := by
    unfold Spec.lamOf
    have : log (R deg Q k) / (2 * I * h / (Spec.degree1step a : ℂ)) = (-(I * log (R deg Q k))) / ((2 * h / Spec.degree1step a : ℝ) : ℂ) := by
      have hI : (1 : ℂ) / I = -I := by simp
      push_cast
      rw [show 2 * I * (h : ℂ) / (Spec.degree1step a : ℂ) = I * (2 * h / Spec.degree1step a) by ring, ← div_div, div_eq_mul_one_div (log _) I, hI]
      ring
    rw [this, Complex.div_ofReal_re]
    simp
  rw [e, show 2 * ((log (R deg Q k)).im / (2 * h / Spec.degree1step a)) * h / Spec.degree1step a = (log (R deg Q k)).im by field_simp]
  exact abs_le.mpr ⟨(neg_pi_lt_log_im _).le, log_im_le_pi _⟩

/-- C62. All points found are returned if there is room: then the lists for all values of the Floquet discriminant are complete. -/
theorem C62_complete {RL : ℕ → ℤ → List ℂ → Prop} {p cap : ℕ} {outs : List (List ℂ)} (h : Spec.Spines RL p cap SUCCESS outs)
    (hroom : outs.flatten.length ≤ cap) : outs.length = p ∧ outs.flatten.take cap = outs.flatten := by
  refine ⟨?_, List.take_of_length_le hroom⟩
  rcases h.2.2.2 with ⟨-, h | h⟩ | ⟨h, -⟩
  · exact h
  · omega
  · exact absurd rfl h

theorem prod_getD {A : Type*} [CommMonoid A] (f : ℂ → A) (l : List ℂ) : ∏ k ∈ Finset.range l.length, f (l.getD k 0) = (l.map f).prod := by
  induction l with
  | nil => simp
  | cons z l ih => rw [List.length_cons, Finset.prod_range_succ', List.map_cons, List.prod_cons, ← ih, mul_comm]; rfl

/-- There is a root finder that finds all roots. -/
theorem exists_finder (g : ℂ → ℂ) : ∃ (roots : RootFinder) (R : ℕ → Polynomial ℂ → ℕ → ℂ), Spec.Finder roots R ∧
    (∀ deg Q k, ∃ z, R deg Q k = g z) ∧ ((∀ z, g z = z) → Spec.ExactFinder R) := by
  refine ⟨fun deg c buf => (fill 0 deg (fun k => some (g ((Spec.poly deg fun i => (c.rd i).getD 0).roots.toList.getD k 0))) buf).map fun b => (SUCCESS, b),
    fun _ Q k => g (Q.roots.toList.getD k 0), ?_, fun deg Q k => ⟨_, rfl⟩, ?_⟩
  · intro deg Q c buf hQ hc hb
    have hpoly : (Spec.poly deg fun i => (c.rd i).getD 0) = Q := by
      ext n
      rw [Spec.poly_coeff]
      split_ifs with hn
      · have := hc (deg - n) (by omega)
        rw [Nat.zero_add] at this
        rw [this]
        dsimp only
        rw [Option.getD_some, show deg - (deg - n) = n by omega]
      · rw [Polynomial.coeff_eq_zero_of_natDegree_lt (by omega)]
    obtain ⟨b, h1, h2, h3⟩ := fill_spec (off := 0) (cnt := deg) (b := buf) (f := fun k => some (g (Q.roots.toList.getD k 0)))
      (fun k => g (Q.roots.toList.getD k 0)) (fun _ _ _ => rfl) (Or.inl (by omega))
    refine ⟨b, ?_, h2, fun i hi => ?_⟩
    · dsimp only
      rw [hpoly, h1]
      rfl
    · rw [Nat.zero_add, h3, if_pos ⟨Nat.zero_le _, by omega⟩]
  · intro hg deg Q hQ
    simp only [hg]
    have hs : Q.Splits := IsAlgClosed.splits Q
    have hcard : Q.roots.card = deg := by rw [← hQ]; exact (Polynomial.splits_iff_card_roots.mp hs)
    have hlen : Q.roots.toList.length = deg := by rw [Multiset.length_toList, hcard]
    have key : ∏ k ∈ Finset.range deg, (Polynomial.X - Polynomial.C (Q.roots.toList.getD k 0)) = (Q.roots.map fun z => Polynomial.X - Polynomial.C z).prod := by
      conv_rhs => rw [← Multiset.coe_toList Q.roots]
      rw [Multiset.map_coe, Multiset.prod_coe, ← hlen]
      exact prod_getD (fun z => Polynomial.X - Polynomial.C z) _
    rw [key]
    exact Polynomial.Splits.eq_prod_roots hs

/-- The assumptions of `C62_subsample` and `C62_candidates` can be met: sixteen samples, of which four are to be used, and a phase shift. -/
example : ∃ (o : NsepOpts) (q : Buf ℂ) (a : AknsDisc) (K M : ℕ) (main aux : Option (Buf ℂ)) (roots : RootFinder) (R : ℕ → Polynomial ℂ → ℕ → ℂ),
    Spec.Finder roots R ∧ (∀ deg P Pa, Spec.NoZero R o deg P Pa main aux) ∧
    Spec.NsepArgs 16 q (fun _ => 1 + I) 0 1 1 o a ∧ o.loc = .SUBSAMPLE_AND_REFINE ∧ o.Dsub = 4 ∧ akns_degree a ≠ 0 ∧ a ≠ .D2SPLIT2_MODAL ∧
    (∀ s : ℕ, 0 < s → Spec.ValidBox (Spec.nsepEffBox (Spec.frameOpts (Spec.lamShift 1 (1 - 0)) o) a (s * ((1 - 0) / (16 : ℕ))))) ∧
    Spec.NsepReq o K main M aux ∧ main ≠ none ∧ aux ≠ none := by
  obtain ⟨roots, R, h1, h2, -⟩ := exists_finder fun z => if z = 0 then 1 else z
  have h3 : ∀ deg Q k, R deg Q k ≠ 0 := by
    intro deg Q k
    obtain ⟨z, hz⟩ := h2 deg Q k
    rw [hz]
    split_ifs with h
    · exact one_ne_zero
    · exact h
  refine ⟨{ nsep_default_opts with Dsub := 4 }, Buf.ofList (List.replicate 16 (1 + I)), .D2SPLIT2A, 2, 2, some (Buf.malloc 2),
    some (Buf.malloc 2), roots, R, h1, fun deg P Pa => ⟨fun _ _ _ _ _ => h3 _ _ _, fun _ _ _ => h3 _ _ _⟩,
    ⟨rfl, ⟨4, by norm_num, by norm_num⟩, fun h => absurd h (by simp [Spec.isCF]), by decide, fun i hi => ?_, by norm_num,
      by norm_num⟩, rfl, rfl, by decide, by simp, fun s hs => effBox_auto (by rw [frame_filt]; rfl) _ (by positivity),
      ⟨Or.inr (Or.inl (by simp)), fun b hb => ?_, fun b hb => ?_⟩, by simp, by simp⟩
  · rcases i with _ | _ | _ | _ | _ | _ | _ | _ | _ | _ | _ | _ | _ | _ | _ | _ | i
    all_goals first | rfl | omega
  · cases hb; simp
  · cases hb; simp

end FNFT

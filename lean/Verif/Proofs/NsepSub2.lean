import Verif.Proofs.NsepSub
/-!
# Proofs: subsample and refine in fnft_nsep.c, auxiliary spectrum
-/
namespace FNFT
open Complex

variable {roots : RootFinder} {R : ℕ → Polynomial ℂ → ℕ → ℂ} {c : SubCtx} {o : NsepOpts} {a : AknsDisc} {qf rf : ℕ → ℂ}

/-- The method for the auxiliary spectrum. -/
noncomputable def subAuxMethod (R : ℕ → Polynomial ℂ → ℕ → ℂ) (c : SubCtx) (o : NsepOpts) (a : AknsDisc) (qf rf : ℕ → ℂ) (w : ℂ → ℤ) (deg : ℕ)
    (Pa : Polynomial ℂ) : ℤ → List ℂ → Prop :=
  Spec.RefinedList (Spec.auxMethod (Spec.mono expS (Spec.refineDisc a) c.Deff c.eps_t qf rf) (monoD (Spec.refineDisc a) c.Deff c.eps_t qf rf) w o o.box)
    (keepB o c.skip c.tol_im) (Spec.Kept o.filt o.box (Spec.candidates R a c.eps_sub deg Pa))

theorem view_holds {b : Buf ℂ} {off n : ℕ} {f : ℕ → ℂ} (h : b.Holds 0 (off + n) f) : (b.view off).Holds 0 n fun i => f (off + i) := by
  intro i hi
  have := h (off + i) (by omega)
  rw [Nat.zero_add] at this ⊢
  rw [rd_view, this]

theorem subAux_ok (h : SubArgs roots R c o a qf rf) {deg : ℕ} {tm buf : Buf ℂ} {y : ℕ → ℂ} (hy : tm.Holds 0 (2 * (deg + 1)) y)
    (hb : deg ≤ buf.len) {Pa : Polynomial ℂ} (hPa : Pa = Spec.poly deg fun i => y (deg + 1 + i))
    (hz : ∀ k, k < deg → R deg Pa k ≠ 0) {M0 : ℕ} {aux : Buf ℂ} (hm : M0 ≤ aux.len) :
    ∃ w : ℂ → ℤ, (o.nrm = false → ∀ l, w l = 0) ∧ ∃ code out, subAuxMethod R c o a qf rf w deg Pa code out ∧
      (code ≠ SUCCESS → subAux roots c deg tm o M0 (some aux) buf = some (E_SUBROUTINE code, M0, some aux)) ∧
      (code = SUCCESS → ∃ m, subAux roots c deg tm o M0 (some aux) buf = some (SUCCESS, (out.take M0).length, some m) ∧
        Spec.WroteAt 0 (out.take M0) aux m) := by
  have hQ : (tm.view (deg + 1)).Holds 0 (deg + 1) fun k => Pa.coeff (deg - k) := by
    intro i hi
    rw [view_holds (n := deg + 1) (by rw [← two_mul]; exact hy) i hi, hPa]
    dsimp only
    rw [Spec.poly_coeff]
    simp only [show deg - i ≤ deg by omega, if_true]
    rw [show deg - (deg - i) = i by omega]
  obtain ⟨b1, b2, e1, e2, e3, e4⟩ := subRoots_ok h (by rw [hPa]; exact poly_deg_le _ _) hQ hb hz
  obtain ⟨b3, f1, f2, f3⟩ := nsepFilter_ok h.hbox e4
  have hlen : (Spec.candidates R a c.eps_sub deg Pa).length = deg := by unfold Spec.candidates; simp
  rw [hlen] at f1
  obtain ⟨init, hinit⟩ : ∃ init, init = Spec.Kept o.filt o.box (Spec.candidates R a c.eps_sub deg Pa) := ⟨_, rfl⟩
  rw [← hinit] at f1 f2
  obtain ⟨w, w1, code, b4, f, g1, g2, g3, g4, -⟩ := refine_auxspec_ok h.mono o.nrm o.box o.max_evals (nsepTol o) (holds_of_list f2)
  rw [nsepTol_eq] at g2
  refine ⟨w, w1, code, keepB o c.skip c.tol_im ((List.range init.length).map f), ?_, fun hc => ?_, fun hc => ?_⟩
  · unfold subAuxMethod
    rw [← hinit]
    exact ⟨f, g2, rfl⟩
  · unfold subAux
    simp only [e1, e2, f1, g1, Option.bind_eq_bind, Option.bind_some, ne_eq, not_true_eq_false, if_false, hc, not_false_eq_true, if_true,
      Option.pure_def]
  · subst hc
    obtain ⟨b5, k1, k2, k3⟩ := nsepFilters_ok h.hbox h.htol (list_of_holds g3)
    rw [List.length_map, List.length_range] at k1
    obtain ⟨out, hout⟩ : ∃ out, out = keepB o c.skip c.tol_im ((List.range init.length).map f) := ⟨_, rfl⟩
    rw [← hout] at k1 k2 ⊢
    obtain ⟨m, m1, m2⟩ := copyAt_ok (off := 0) (K := if out.length > M0 then M0 else out.length) (dst := aux) k2
      (by split_ifs <;> omega) (by split_ifs <;> omega)
    have hK : (if out.length > M0 then M0 else out.length) = (out.take M0).length := by
      rw [List.length_take]; split_ifs <;> omega
    have ht : out.take (if out.length > M0 then M0 else out.length) = out.take M0 := by
      split_ifs with hh
      · rfl
      · rw [List.take_of_length_le le_rfl, List.take_of_length_le (by omega)]
    rw [ht] at m2
    refine ⟨m, ?_, m2⟩
    unfold subAux
    simp only [e1, e2, f1, g1, k1, m1, Option.bind_eq_bind, Option.bind_some, ne_eq, not_true_eq_false, if_false, Option.pure_def]
    rw [hK]

/-- Both spectra. -/
theorem subSpectra_ok (h : SubArgs roots R c o a qf rf) {deg : ℕ} {W : ℤ} {tm : Buf ℂ} {y : ℕ → ℂ} (hy : tm.Holds 0 (4 * (deg + 1)) y)
    {P : ℂ → Polynomial ℂ}
    (hP : ∀ v, P v = Spec.poly deg fun i => (y i + (starRingEnd ℂ) (y (deg - i))) + if i = deg / 2 then v * 2 ^ (-W) else 0)
    {Pa : Polynomial ℂ} (hPa : Pa = Spec.poly deg fun i => y (deg + 1 + i))
    {s : NsepSt} (hz : s.main.isSome → ∀ n, n < o.pps → ∀ k, k < deg → R deg (P (-(Spec.spineVal o.range0 o.range1 o.pps n : ℝ))) k ≠ 0)
    (hza : s.aux.isSome → ∀ k, k < deg → R deg Pa k ≠ 0)
    (hmain : ∀ b, s.main = some b → s.K ≤ b.len) (haux : ∀ b, s.aux = some b → s.M ≤ b.len) :
    ∃ w : ℂ → ℤ, (o.nrm = false → ∀ l, w l = 0) ∧ ∃ cm outs ca outa,
      (s.main.isSome → Spec.Spines (subMethod R c o a qf rf deg P) o.pps s.K cm outs) ∧
      (s.aux.isSome → subAuxMethod R c o a qf rf w deg Pa ca outa) ∧
      (s.main.isSome ∧ cm ≠ SUCCESS → ∃ st, subSpectra roots c deg W tm o s = some (E_SUBROUTINE cm, st)) ∧
      ((s.main.isSome → cm = SUCCESS) ∧ s.aux.isSome ∧ ca ≠ SUCCESS → ∃ st, subSpectra roots c deg W tm o s = some (E_SUBROUTINE ca, st)) ∧
      ((s.main.isSome → cm = SUCCESS) ∧ (s.aux.isSome → ca = SUCCESS) →
        ∃ K' m M' u, subSpectra roots c deg W tm o s = some (SUCCESS, ⟨K', m, M', u, o⟩) ∧
          Spec.ListOut 0 s.K outs.flatten 0 s.main K' m ∧ Spec.ListOut 0 s.M outa 0 s.aux M' u) := by
  have hlen : 4 * (deg + 1) ≤ tm.len := by
    have := hy (4 * (deg + 1) - 1) (by omega)
    have := Buf.rd_lt this
    omega
  have hvl : (tm.view (3 * (deg + 1))).len = tm.len - 3 * (deg + 1) := rfl
  have hvd : deg ≤ (tm.view (3 * (deg + 1))).len := by rw [hvl]; omega
  -- main spectrum
  obtain ⟨cm, outs, a1, a2, a3⟩ : ∃ cm outs, (s.main.isSome → Spec.Spines (subMethod R c o a qf rf deg P) o.pps s.K cm outs) ∧
      (s.main.isSome ∧ cm ≠ SUCCESS → ∃ K m r, subMain roots c deg W tm o s.K s.main (tm.view (3 * (deg + 1))) = some (E_SUBROUTINE cm, K, m, r)) ∧
      ((s.main.isSome → cm = SUCCESS) → ∃ K m r, subMain roots c deg W tm o s.K s.main (tm.view (3 * (deg + 1))) = some (SUCCESS, K, m, r) ∧
        Spec.ListOut 0 s.K outs.flatten 0 s.main K m ∧ deg ≤ r.len) := by
    rcases hs : s.main with _ | main
    · refine ⟨SUCCESS, [], fun hh => (by cases hh), fun hh => (by cases hh.1), fun _ => ⟨0, none, _, rfl, ⟨fun _ => ⟨rfl, rfl⟩, fun c hc => (by cases hc)⟩, ?_⟩⟩
      rw [hvl]; omega
    · obtain ⟨cm, outs, b1, b2, b3⟩ := subMain_ok (W := W) (buf := tm.view (3 * (deg + 1))) h (y := y)
        (fun i hi => hy i (by omega)) hvd hP (hz (by rw [hs]; rfl)) (K0 := s.K) (main := main) (hmain main hs)
      refine ⟨cm, outs, fun _ => b1, fun hh => b2 hh.2, fun hh => ?_⟩
      obtain ⟨m, r, d1, d2, d3⟩ := b3 (hh rfl)
      refine ⟨_, _, _, d1, ⟨fun hh => (by cases hh), fun c hc => ?_⟩, by rw [d3, hvl]; omega⟩
      cases hc
      exact ⟨rfl, m, rfl, d2⟩
  by_cases hcm : s.main.isSome → cm = SUCCESS
  · obtain ⟨K, m, r, d1, d2, d3⟩ := a3 hcm
    obtain ⟨w, w1, ca, outa, b1, b2, b3⟩ : ∃ w : ℂ → ℤ, (o.nrm = false → ∀ l, w l = 0) ∧ ∃ ca outa,
        (s.aux.isSome → subAuxMethod R c o a qf rf w deg Pa ca outa) ∧
        (s.aux.isSome ∧ ca ≠ SUCCESS → ∃ K m, subAux roots c deg tm o s.M s.aux r = some (E_SUBROUTINE ca, K, m)) ∧
        ((s.aux.isSome → ca = SUCCESS) → ∃ M u, subAux roots c deg tm o s.M s.aux r = some (SUCCESS, M, u) ∧
          Spec.ListOut 0 s.M outa 0 s.aux M u) := by
      rcases hs : s.aux with _ | aux
      · exact ⟨fun _ => 0, fun _ _ => rfl, SUCCESS, [], fun hh => (by cases hh), fun hh => (by cases hh.1),
          fun _ => ⟨0, none, rfl, fun _ => ⟨rfl, rfl⟩, fun c hc => (by cases hc)⟩⟩
      · obtain ⟨w, w1, ca, outa, b1, b2, b3⟩ := subAux_ok h (y := y) (fun i hi => hy i (by omega)) d3 hPa (hza (by rw [hs]; rfl)) (haux aux hs)
        refine ⟨w, w1, ca, outa, fun _ => b1, fun hh => ⟨_, _, b2 hh.2⟩, fun hh => ?_⟩
        obtain ⟨u, u1, u2⟩ := b3 (hh rfl)
        refine ⟨_, _, u1, ⟨fun hh => (by cases hh), fun c hc => ?_⟩⟩
        cases hc
        exact ⟨rfl, u, rfl, u2⟩
    refine ⟨w, w1, cm, outs, ca, outa, a1, b1, fun hh => absurd (hcm hh.1) hh.2, fun hh => ?_, fun hh => ?_⟩
    · obtain ⟨K', m', k1⟩ := b2 hh.2
      unfold subSpectra
      simp only [d1, k1, Option.bind_eq_bind, Option.bind_some, ne_eq, not_true_eq_false, if_false]
      rw [if_pos (E_SUBROUTINE_ne hh.2.2)]
      exact ⟨_, rfl⟩
    · obtain ⟨M, u, k1, k2⟩ := b3 hh.2
      refine ⟨K, m, M, u, ?_, d2, k2⟩
      unfold subSpectra
      simp only [d1, k1, Option.bind_eq_bind, Option.bind_some, ne_eq, not_true_eq_false, if_false]
      rfl
  · have hcm' : s.main.isSome ∧ cm ≠ SUCCESS := by
      by_contra hne; exact hcm fun h1 => by by_contra h2; exact hne ⟨h1, h2⟩
    obtain ⟨w, w1, ca, outa, b1⟩ : ∃ w : ℂ → ℤ, (o.nrm = false → ∀ l, w l = 0) ∧ ∃ ca outa,
        (s.aux.isSome → subAuxMethod R c o a qf rf w deg Pa ca outa) := by
      rcases hs : s.aux with _ | aux
      · exact ⟨fun _ => 0, fun _ _ => rfl, SUCCESS, [], fun hh => (by cases hh)⟩
      · obtain ⟨w, w1, ca, outa, b1, -⟩ := subAux_ok (buf := tm.view (3 * (deg + 1))) h (y := y) (fun i hi => hy i (by omega)) hvd hPa
          (hza (by rw [hs]; rfl)) (haux aux hs)
        exact ⟨w, w1, ca, outa, fun _ => b1⟩
    refine ⟨w, w1, cm, outs, ca, outa, a1, b1, fun _ => ?_, fun hh => absurd hh.1 hcm, fun hh => absurd hh.1 hcm⟩
    obtain ⟨K, m, r, d1⟩ := a2 hcm'
    unfold subSpectra
    simp only [d1, Option.bind_eq_bind, Option.bind_some]
    rw [if_pos (E_SUBROUTINE_ne hcm'.2)]
    exact ⟨_, rfl⟩

end FNFT

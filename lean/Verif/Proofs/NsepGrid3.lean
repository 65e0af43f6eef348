import Verif.Proofs.NsepGrid2
/-!
# Proofs: grid search in fnft_nsep.c, the routine
-/
namespace FNFT
open Complex

theorem poly_deg_le (n : ℕ) (c : ℕ → ℂ) : (Spec.poly n c).natDegree ≤ n := by
  unfold Spec.poly
  refine Polynomial.natDegree_sum_le_of_forall_le _ _ fun i _ => ?_
  exact (Polynomial.natDegree_C_mul_le _ _).trans (by rw [Polynomial.natDegree_X_pow]; omega)

/-- The transfer matrix of one period in terms of the polynomials of the specification. -/
theorem per_polys {D : ℕ} {q : Buf ℂ} {x : ℕ → ℂ} {T0 T1 : ℝ} {kappa : ℤ} {d : NseDisc} {a : AknsDisc}
    (h : PerArgs D q x T0 T1 kappa d a) (hdeg : akns_degree a ≠ 0) {Ds s : ℕ} (hDs2 : 2 ≤ Ds) (hDsev : Ds % 2 = 0)
    (hs : s * Ds = D) {H : ℝ} (hH : H = s * ((T1 - T0) / D)) {qp rp : Buf ℂ} {qf rf : ℕ → ℂ}
    (hqp : qp.Holds 0 (Ds * akns_upsampling_factor a) qf) (hrp : rp.Holds 0 (Ds * akns_upsampling_factor a) rf)
    (hpr : Spec.Processed a kappa D ((T1 - T0) / D) x Ds s qf rf)
    (hmod : a = .D2SPLIT2_MODAL → ∀ j, j < Ds → 0 < 1 + kappa * (H * ‖x (s * j)‖) ^ 2) (nrm : Bool) :
    ∃ deg W tm S P Pa y, nsevTransfer (Ds * akns_upsampling_factor a) (some qp) (some rp) H nrm d = some (.ok (deg, W, some tm)) ∧
      tm.Holds 0 (4 * (deg + 1)) y ∧
      (∀ v : ℂ, P v = Spec.poly deg fun i => (y i + (starRingEnd ℂ) (y (deg - i))) + if i = deg / 2 then v * 2 ^ (-W) else 0) ∧
      (Pa = Spec.poly deg fun i => y (deg + 1 + i)) ∧
      Spec.PeriodPolys a kappa D (T1 - T0) x Ds s deg S P Pa := by
  obtain ⟨W, tm, U, y, e1, e2, e3, e4, e5⟩ := per_transfer h hdeg hDs2 hDsev hs hH hqp hrp hpr hmod nrm
  refine ⟨_, W, tm, fun l => Spec.chain (U l) (Ds * akns_upsampling_factor a), _, _, y, e1, e2, fun v => rfl, rfl, ?_, ?_, ?_, ?_⟩
  · unfold Spec.degree1step; ring
  · exact fun v => poly_deg_le _ _
  · exact poly_deg_le _ _
  · subst hH
    refine ⟨qf, rf, U, W, phB d (s * ((T1 - T0) / D)), hpr, e3, fun l => rfl, fun v l => ?_, fun l => ?_⟩
    · rw [e4 v l]
    · rw [e5 l]

/-- The box for automatic filtering meets the assumptions. -/
theorem gsBox_auto {o : NsepOpts} (hf : o.filt = .AUTO) (a : AknsDisc) {h : ℝ} (hh : 0 < h) {deg : ℕ} (hdeg : 2 ≤ deg) :
    Spec.GsBox o a h (-(0.9 * Real.pi / (Spec.nsepStretch a * h))) (0.9 * Real.pi / (Spec.nsepStretch a * h)) deg := by
  have hs := stretch_pos a
  have hsh : 0 < Spec.nsepStretch a * h := mul_pos hs hh
  refine ⟨?_, ?_, ?_, ?_, Or.inr (effBox_auto hf a hh)⟩
  · unfold Spec.nsepEffBox; rw [if_pos hf]; rfl
  · unfold Spec.nsepEffBox; rw [if_pos hf]; rfl
  · have : 0 < 0.9 * Real.pi / (Spec.nsepStretch a * h) := by positivity
    linarith
  · unfold Spec.gridEps Spec.nsepPHI
    have e : Spec.nsepStretch a * h * (0.9 * Real.pi / (Spec.nsepStretch a * h)) -
        Spec.nsepStretch a * h * -(0.9 * Real.pi / (Spec.nsepStretch a * h)) = 1.8 * Real.pi := by
      field_simp; ring
    simp only [e]
    have h2 : (2 : ℝ) ≤ deg := by exact_mod_cast hdeg
    have := Real.pi_le_four
    rw [div_lt_one (by push_cast; linarith)]
    push_cast
    linarith

/-- The grid search routine: the polynomials only depend on the signal and the options. -/
theorem nsep_gridsearch_ok' {D : ℕ} {q : Buf ℂ} {x : ℕ → ℂ} {T0 T1 : ℝ} {kappa : ℤ} {a : AknsDisc} {o : NsepOpts}
    (h : PerArgs D q x T0 T1 kappa o.disc a) (hdeg : akns_degree a ≠ 0) {H : ℝ} (hH : H = (T1 - T0) / D)
    (hmod : a = .D2SPLIT2_MODAL → ∀ j, j < D → 0 < 1 + kappa * (H * ‖x j‖) ^ 2) {x0 x1 : ℝ}
    (hB : Spec.GsBox o a H x0 x1 (D * Spec.degree1step a)) :
    ∃ S P Pa, Spec.PeriodPolys a kappa D (T1 - T0) x D 1 (D * Spec.degree1step a) S P Pa ∧
      ∀ (offK offM : ℕ) (s : NsepSt), s.opts = o →
        (∀ b, s.main = some b → offK + s.K ≤ b.len) → (∀ b, s.aux = some b → offM + s.M ≤ b.len) →
      ∀ (L1 L2 La : List ℂ), L1 = Spec.gsHits a H (P 2) (Spec.nsepPHI a H x0 x1) (D * Spec.degree1step a) →
        L2 = Spec.gsHits a H (P (-2)) (Spec.nsepPHI a H x0 x1) (D * Spec.degree1step a) →
        La = Spec.gsHits a H Pa (Spec.nsepPHI a H x0 x1) (D * Spec.degree1step a) → ∀ junk,
      (s.main.isSome = true ∧ (D * Spec.degree1step a < L1.length ∨ D * Spec.degree1step a < L2.length) →
        ∃ m, nsep_gridsearch junk D q T0 T1 kappa offK offM s =
          some (EC_OTHER, { s with main := m, opts := { o with box := Spec.nsepEffBox o a H } })) ∧
      (s.main = none ∨ (L1.length ≤ D * Spec.degree1step a ∧ L2.length ≤ D * Spec.degree1step a) →
        ∃ K m M u, nsep_gridsearch junk D q T0 T1 kappa offK offM s =
            some (SUCCESS, ⟨K, m, M, u, { o with box := Spec.nsepEffBox o a H }⟩) ∧
          Spec.ListOut offK s.K (Spec.Kept o.filt (Spec.nsepEffBox o a H) L1 ++
            Spec.Kept o.filt (Spec.nsepEffBox o a H) L2) junk s.main K m ∧
          Spec.ListOut offM s.M (Spec.Kept o.filt (Spec.nsepEffBox o a H) La) 0 s.aux M u) := by
  have hup := h.up_ne
  have hHpos : 0 < H := by rw [hH]; exact h.eps_pos
  obtain ⟨Ds, st, qp, rp, qf, rf, e1, e2, e3, e4, e5⟩ := nse_pre_ok h.hd h.hD h.hCF h.D_lt h.hq h.eps_pos h.hk D
  obtain ⟨rfl, rfl⟩ := subGrid_full e2
  obtain ⟨deg, W, tm, S, P, Pa, y, f1, f2, f3, f4, f5⟩ := per_polys h hdeg h.hD h.hev (Nat.one_mul _)
    (show H = (1 : ℕ) * ((T1 - T0) / Ds) by rw [hH]; simp) e3 e4 e5 (by simpa using hmod) o.nrm
  obtain rfl := f5.1
  refine ⟨S, P, Pa, f5, ?_⟩
  rintro offK offM s rfl hmain haux _ _ _ rfl rfl rfl junk
  have hd1 : 0 < Spec.degree1step a := degree1step_pos hdeg
  have hdle := akns_degree_le a
  have h33 : 33 * (Ds * Spec.degree1step a) < 3 ^ 32 := by
    have : Ds * Spec.degree1step a ≤ 2147483647 * 105 := by
      unfold Spec.degree1step
      calc Ds * (akns_degree a * akns_upsampling_factor a) = Ds * akns_upsampling_factor a * akns_degree a := by ring
        _ ≤ _ := Nat.mul_le_mul h.hsize hdle
    omega
  have h2 : 2 ≤ Ds * Spec.degree1step a := le_trans h.hD (Nat.le_mul_of_pos_right _ hd1)
  have hsh : 0 < Spec.nsepStretch a * H := mul_pos (stretch_pos a) hHpos
  have hg : GsArgs (Ds * Spec.degree1step a) (Spec.nsepPHI a H x0 x1) { s.opts with box := Spec.nsepEffBox s.opts a H } a :=
    ⟨h.hd, hdeg, h2, h33, by unfold Spec.nsepPHI; exact mul_lt_mul_of_pos_left hB.lt hsh, hB.eps, hB.valid⟩
  have key := gsSpectra_ok hHpos rfl hB.lt hB.lo hB.hi hg f2 (f3 2) (f3 (-2)) f4 junk offK offM s rfl hmain haux
  have hrun : nsep_gridsearch junk Ds q T0 T1 kappa offK offM s = gsSpectra junk (Ds * Spec.degree1step a) W tm H offK offM s := by
    rw [← hH] at e1
    unfold nsep_gridsearch
    simp only [nse_up_eq h.hd, if_neg hup, e1, Option.bind_eq_bind, Option.bind_some, ← hH, f1]
  rw [hrun]
  exact key

/-- The grid search routine. -/
theorem nsep_gridsearch_ok {D : ℕ} {q : Buf ℂ} {x : ℕ → ℂ} {T0 T1 : ℝ} {kappa : ℤ} {a : AknsDisc} {s : NsepSt}
    (h : PerArgs D q x T0 T1 kappa s.opts.disc a) (hdeg : akns_degree a ≠ 0) {H : ℝ} (hH : H = (T1 - T0) / D)
    (hmod : a = .D2SPLIT2_MODAL → ∀ j, j < D → 0 < 1 + kappa * (H * ‖x j‖) ^ 2) {x0 x1 : ℝ}
    (hB : Spec.GsBox s.opts a H x0 x1 (D * Spec.degree1step a)) (offK offM : ℕ)
    (hmain : ∀ b, s.main = some b → offK + s.K ≤ b.len) (haux : ∀ b, s.aux = some b → offM + s.M ≤ b.len) :
    ∃ S P Pa, Spec.PeriodPolys a kappa D (T1 - T0) x D 1 (D * Spec.degree1step a) S P Pa ∧
      ∀ (L1 L2 La : List ℂ), L1 = Spec.gsHits a H (P 2) (Spec.nsepPHI a H x0 x1) (D * Spec.degree1step a) →
        L2 = Spec.gsHits a H (P (-2)) (Spec.nsepPHI a H x0 x1) (D * Spec.degree1step a) →
        La = Spec.gsHits a H Pa (Spec.nsepPHI a H x0 x1) (D * Spec.degree1step a) → ∀ junk,
      (s.main.isSome = true ∧ (D * Spec.degree1step a < L1.length ∨ D * Spec.degree1step a < L2.length) →
        ∃ m, nsep_gridsearch junk D q T0 T1 kappa offK offM s =
          some (EC_OTHER, { s with main := m, opts := { s.opts with box := Spec.nsepEffBox s.opts a H } })) ∧
      (s.main = none ∨ (L1.length ≤ D * Spec.degree1step a ∧ L2.length ≤ D * Spec.degree1step a) →
        ∃ K m M u, nsep_gridsearch junk D q T0 T1 kappa offK offM s =
            some (SUCCESS, ⟨K, m, M, u, { s.opts with box := Spec.nsepEffBox s.opts a H }⟩) ∧
          Spec.ListOut offK s.K (Spec.Kept s.opts.filt (Spec.nsepEffBox s.opts a H) L1 ++
            Spec.Kept s.opts.filt (Spec.nsepEffBox s.opts a H) L2) junk s.main K m ∧
          Spec.ListOut offM s.M (Spec.Kept s.opts.filt (Spec.nsepEffBox s.opts a H) La) 0 s.aux M u) := by
  obtain ⟨S, P, Pa, h1, h2⟩ := nsep_gridsearch_ok' h hdeg hH hmod hB
  exact ⟨S, P, Pa, h1, h2 offK offM s rfl hmain haux⟩

end FNFT

import Verif.Proofs.NsepTop
/-!
# Properties of `fnft_nsep`: grid search
-/
namespace FNFT
open Complex

variable {D : ℕ} {q : Buf ℂ} {x : ℕ → ℂ} {T0 T1 : ℝ} {kappa : ℤ} {o : NsepOpts} {a : AknsDisc}

/-! ## C60: spectra of the periodic problem by grid search -/

/-- C60. With `fnft_nsep_loc_GRIDSEARCH`, the main spectrum consists of the points found by the grid search at which the Floquet
discriminant of the (periodic) signal is `-2`, followed by those at which it is `2`; the auxiliary spectrum of those at which the `(1,2)` entry
of the monodromy matrix is zero. All are filtered, shifted back, and cut off at the given capacity; nothing else is written. The call fails if
more points are found than the polynomials can have roots. -/
theorem C60_gridsearch (h : Spec.NsepArgs D q x T0 T1 kappa o a) (hloc : o.loc = .GRIDSEARCH) (hdeg : akns_degree a ≠ 0)
    {ph L eps : ℝ} (hL : L = Spec.lamShift ph (T1 - T0)) (heps : eps = (T1 - T0) / D)
    (hmod : a = .D2SPLIT2_MODAL → ∀ j, j < D → 0 < 1 + kappa * (eps * ‖x j‖) ^ 2)
    {deg : ℕ} (hdg : deg = D * Spec.degree1step a) {x0 x1 : ℝ} (hB : Spec.GsBox (Spec.frameOpts L o) a eps x0 x1 deg)
    {K M : ℕ} {main aux : Option (Buf ℂ)} (hr : Spec.NsepReq o K main M aux) :
    ∃ S P Pa, Spec.PeriodPolys a kappa D (T1 - T0) (Spec.periodic x L T0 eps) D 1 deg S P Pa ∧
      let hits := fun P => Spec.gsHits a eps P (Spec.nsepPHI a eps x0 x1) deg
      let points := fun P => (Spec.Kept o.filt (Spec.nsepEffBox (Spec.frameOpts L o) a eps) (hits P)).map (· + (L : ℂ))
      ∀ roots junk,
      (main.isSome ∧ (deg < (hits (P 2)).length ∨ deg < (hits (P (-2))).length) →
        ∃ st, fnft_nsep roots junk D (some q) (some (T0, T1)) ph (some K) main (some M) aux false kappa o =
          some (E_SUBROUTINE EC_OTHER, some st)) ∧
      (main = none ∨ ((hits (P 2)).length ≤ deg ∧ (hits (P (-2))).length ≤ deg) →
        ∃ K' m M' u, fnft_nsep roots junk D (some q) (some (T0, T1)) ph (some K) main (some M) aux false kappa o =
            some (SUCCESS, some ⟨K', m, M', u, { o with box := Spec.nsepEffBox o a eps }⟩) ∧
          Spec.ListOut 0 K (points (P 2) ++ points (P (-2))) junk main K' m ∧ Spec.ListOut 0 M (points Pa) 0 aux M' u) := by
  obtain ⟨qp, hp, hrun⟩ := nsep_top h hr hL
  subst hdg
  have hnorm : ∀ j, ‖Spec.periodic x L T0 eps j‖ = ‖x j‖ := by
    intro j
    unfold Spec.periodic
    have e : 2 * I * (L : ℂ) * (T0 + eps * j) = ((2 * L * (T0 + eps * j) : ℝ) : ℂ) * I := by push_cast; ring
    rw [norm_mul, e, norm_exp_ofReal_mul_I, mul_one]
  rw [← heps] at hp
  obtain ⟨S, P, Pa, e1, e2⟩ := nsep_gridsearch_ok (s := ⟨K, main, M, aux, Spec.frameOpts L o⟩) (a := a) (by rw [frame_disc]; exact hp)
    hdeg heps (fun ha j hj => by rw [hnorm]; exact hmod ha j hj) hB 0 0 (fun b hb => by simpa using hr.roomK b hb)
    (fun b hb => by simpa using hr.roomM b hb)
  refine ⟨S, P, Pa, e1, ?_⟩
  intro hits points roots junk
  obtain ⟨f1, f2⟩ := e2 _ _ _ rfl rfl rfl junk
  rw [hrun]
  have hsw : ∀ s : NsepSt, s.opts.loc = .GRIDSEARCH → nsepSwitch roots junk D qp T0 T1 kappa s = (do
      let R ← nsep_gridsearch junk D qp T0 T1 kappa 0 0 s
      return (chk R.1, R.2)) := by
    intro s hs
    unfold nsepSwitch
    rw [hs]
  rw [hsw _ (by rw [frame_loc]; exact hloc)]
  constructor
  · intro hc
    obtain ⟨m, hm⟩ := f1 hc
    rw [hm]
    exact ⟨_, rfl⟩
  · intro hc
    obtain ⟨K', m, M', u, g1, g2, g3⟩ := f2 hc
    dsimp only at g2 g3
    rw [frame_filt] at g2 g3
    obtain ⟨m', k1, k2⟩ := listOut_shift g2 L
    obtain ⟨u', l1, l2⟩ := listOut_shift g3 L
    rw [List.map_append] at k2
    refine ⟨K', m', M', u', ?_, k2, l2⟩
    rw [g1]
    simp only [Option.bind_eq_bind, Option.bind_some, Option.pure_def, chk_success, nsepFinish, ne_eq, not_true_eq_false, if_false, k1, l1,
      box_back]

/-- C60. With automatic filtering, the assumptions on the box and the grid hold. -/
theorem C60_auto (hf : o.filt = .AUTO) (a : AknsDisc) (L : ℝ) {eps : ℝ} (heps : 0 < eps) {deg : ℕ} (hdeg : 2 ≤ deg) :
    Spec.GsBox (Spec.frameOpts L o) a eps (-(0.9 * Real.pi / (Spec.nsepStretch a * eps))) (0.9 * Real.pi / (Spec.nsepStretch a * eps)) deg :=
  gsBox_auto (by rw [frame_filt]; exact hf) a heps hdeg

/-- The real point that belongs to grid angle number `i`. -/
noncomputable def Spec.gridLam (a : AknsDisc) (h : ℝ) (PHI : ℝ × ℝ) (deg i : ℕ) : ℝ :=
  Spec.theta PHI (32 * deg) i * Spec.degree1step a / (2 * h)

theorem zOf_gridLam {a : AknsDisc} (hdeg : akns_degree a ≠ 0) {h : ℝ} (hh : 0 < h) (PHI : ℝ × ℝ) (deg i : ℕ) :
    Spec.zOf a h (Spec.gridLam a h PHI deg i) = Spec.unitPt PHI (32 * deg) i := by
  have h1 : (Spec.degree1step a : ℂ) ≠ 0 := by exact_mod_cast (degree1step_pos hdeg).ne'
  have h2 : (h : ℂ) ≠ 0 := by exact_mod_cast hh.ne'
  unfold Spec.zOf Spec.unitPt Spec.gridLam
  congr 1
  push_cast
  field_simp

theorem hit_of_zero {deg : ℕ} {P : Polynomial ℂ} (hdeg : akns_degree a ≠ 0) {eps : ℝ} (hpos : 0 < eps) {PHI : ℝ × ℝ}
    (hPHI : PHI.1 < PHI.2) {i : ℕ} (h1 : 1 ≤ i) (h2 : i + 1 < 32 * deg) (hth : |Spec.theta PHI (32 * deg) i| < Real.pi)
    (h6 : P.eval (Spec.unitPt PHI (32 * deg) i) = 0) :
    ((Spec.gridLam a eps PHI deg i : ℝ) : ℂ) ∈ Spec.gsHits a eps P PHI deg := by
  have h7 := C38_exact P PHI (32 * deg) hPHI i h1 h2 h6
  unfold Spec.gsHits
  refine List.mem_map.mpr ⟨_, h7, ?_⟩
  have hd : (Spec.degree1step a : ℂ) ≠ 0 := by exact_mod_cast (degree1step_pos hdeg).ne'
  have he : (eps : ℂ) ≠ 0 := by exact_mod_cast hpos.ne'
  have hlog : log (Spec.unitPt PHI (32 * deg) i) = I * Spec.theta PHI (32 * deg) i := by
    unfold Spec.unitPt
    have := abs_lt.mp hth
    rw [log_exp] <;> simp <;> linarith
  unfold Spec.lamOf Spec.gridLam
  rw [hlog]
  push_cast
  field_simp

/-- C60. No point is missed at which the Floquet discriminant has exactly the value looked for at a grid point in the interior of the range of
angles. -/
theorem C60_not_missed {T : ℝ} {s deg : ℕ} {S P Pa} (hP : Spec.PeriodPolys a kappa D T x D s deg S P Pa) (hdeg : akns_degree a ≠ 0)
    {eps : ℝ} (heps : eps = s * (T / D)) (hpos : 0 < eps) {PHI : ℝ × ℝ} (hPHI : PHI.1 < PHI.2) (v : ℂ) {i : ℕ} (h1 : 1 ≤ i)
    (h2 : i + 1 < 32 * deg) (hth : |Spec.theta PHI (32 * deg) i| < Real.pi)
    (hz : Spec.floquet (S (Spec.gridLam a eps PHI deg i)) = -v) :
    ((Spec.gridLam a eps PHI deg i : ℝ) : ℂ) ∈ Spec.gsHits a eps (P v) PHI deg := by
  obtain ⟨-, -, -, qf, rf, U, W, p, -, -, -, h5, -⟩ := hP
  rw [← heps] at h5
  have h6 := h5 v (Spec.gridLam a eps PHI deg i)
  rw [hz, neg_add_cancel, mul_zero, zOf_gridLam hdeg hpos] at h6
  exact hit_of_zero hdeg hpos hPHI h1 h2 hth h6

/-- C60. The same for the auxiliary spectrum. -/
theorem C60_aux_not_missed {T : ℝ} {s deg : ℕ} {S P Pa} (hP : Spec.PeriodPolys a kappa D T x D s deg S P Pa) (hdeg : akns_degree a ≠ 0)
    {eps : ℝ} (heps : eps = s * (T / D)) (hpos : 0 < eps) {PHI : ℝ × ℝ} (hPHI : PHI.1 < PHI.2) {i : ℕ} (h1 : 1 ≤ i)
    (h2 : i + 1 < 32 * deg) (hth : |Spec.theta PHI (32 * deg) i| < Real.pi)
    (hz : S (Spec.gridLam a eps PHI deg i) 0 1 = 0) :
    ((Spec.gridLam a eps PHI deg i : ℝ) : ℂ) ∈ Spec.gsHits a eps Pa PHI deg := by
  obtain ⟨-, -, -, qf, rf, U, W, p, -, -, -, -, h5⟩ := hP
  rw [← heps] at h5
  have h6 := h5 (Spec.gridLam a eps PHI deg i)
  rw [hz, mul_zero, mul_zero, zOf_gridLam hdeg hpos] at h6
  exact hit_of_zero hdeg hpos hPHI h1 h2 hth h6

/-- C60. Every point found is, in the coordinate `z`, within one grid step of a (real) grid point at which the distance of the Floquet
discriminant from the value looked for is not larger than at the neighbouring grid points. -/
theorem C60_near {T : ℝ} {s deg : ℕ} {S P Pa} (hP : Spec.PeriodPolys a kappa D T x D s deg S P Pa) (hdeg : akns_degree a ≠ 0)
    {eps : ℝ} (heps : eps = s * (T / D)) (hpos : 0 < eps) {PHI : ℝ × ℝ} (hPHI : PHI.1 < PHI.2) (hd : 2 ≤ deg)
    (hg : Spec.gridEps PHI (32 * deg) < 1) (v : ℂ) {l : ℂ} (hl : l ∈ Spec.gsHits a eps (P v) PHI deg) :
    ∃ i, 1 ≤ i ∧ i + 1 < 32 * deg ∧
      ‖Spec.zOf a eps l - Spec.zOf a eps (Spec.gridLam a eps PHI deg i)‖ ≤ Spec.gridEps PHI (32 * deg) ∧
      ∀ j, i - 1 ≤ j → j ≤ i + 1 → ‖Spec.floquet (S (Spec.gridLam a eps PHI deg i)) + v‖ ≤
        ‖Spec.floquet (S (Spec.gridLam a eps PHI deg j)) + v‖ := by
  obtain ⟨-, -, -, qf, rf, U, W, p, -, -, -, h5, -⟩ := hP
  rw [← heps] at h5
  obtain ⟨z, hz, rfl⟩ := List.mem_map.mp hl
  obtain ⟨i, i1, i2, i3, i4⟩ := C38_near (P v) PHI (32 * deg) (by omega) hPHI z hz
  have hz0 := hits_ne (by omega) hPHI hg z hz
  have hd' : (Spec.degree1step a : ℂ) ≠ 0 := by exact_mod_cast (degree1step_pos hdeg).ne'
  have he : (eps : ℂ) ≠ 0 := by exact_mod_cast hpos.ne'
  have hzz : Spec.zOf a eps (Spec.lamOf a eps z) = z := by
    unfold Spec.zOf Spec.lamOf
    rw [show 2 * I * (log z / (2 * I * eps / (Spec.degree1step a : ℂ))) * eps / (Spec.degree1step a : ℂ) = log z by field_simp,
      exp_log hz0]
  refine ⟨i, i1, i2, by rw [hzz, zOf_gridLam hdeg hpos]; exact i4, fun j hj1 hj2 => ?_⟩
  have hval : ∀ j, ‖(P v).eval (Spec.unitPt PHI (32 * deg) j)‖ =
      ‖(2 : ℂ) ^ (-W)‖ * ‖Spec.floquet (S (Spec.gridLam a eps PHI deg j)) + v‖ := by
    intro j
    rw [← zOf_gridLam hdeg hpos, h5, norm_mul, norm_mul]
    have e : I * ((Spec.gridLam a eps PHI deg j : ℝ) : ℂ) * (T : ℂ) = ((Spec.gridLam a eps PHI deg j * T : ℝ) : ℂ) * I := by push_cast; ring
    rw [e, norm_exp_ofReal_mul_I, mul_one]
  have h6 := i3 1 (by norm_num) (j - (i - 1)) (by omega)
  rw [show i - 1 + (j - (i - 1)) = j by omega, ringPt_one, hval, hval] at h6
  exact le_of_mul_le_mul_left h6 (norm_pos_iff.mpr (zpow_ne_zero _ two_ne_zero))

theorem addR_le_left {b : Dbl} {L y : ℝ} (h : (b.addR (-L)).le (.num (y : EReal))) : b.le (.num ((y + L : ℝ) : EReal)) := by
  cases b with
  | nan => exact h
  | num t =>
    simp only [Dbl.addR, Dbl.le] at h ⊢
    induction t using EReal.rec with
    | bot => exact bot_le
    | coe t => norm_cast at h ⊢; linarith
    | top => simp [EReal.top_add_coe] at h

theorem addR_le_right {b : Dbl} {L y : ℝ} (h : Dbl.le (.num (y : EReal)) (b.addR (-L))) : Dbl.le (.num ((y + L : ℝ) : EReal)) b := by
  cases b with
  | nan => exact h
  | num t =>
    simp only [Dbl.addR, Dbl.le] at h ⊢
    induction t using EReal.rec with
    | bot => simp at h
    | coe t => norm_cast at h ⊢; linarith
    | top => exact le_top

open Classical in
/-- C60. With `fnft_nsep_filt_MANUAL`, what is kept is in the box of the user, also if the spectrum is shifted. -/
theorem C60_in_box (hf : o.filt = .MANUAL) (a : AknsDisc) (eps L : ℝ) (l : List ℂ) (z : ℂ)
    (hz : z ∈ (Spec.Kept o.filt (Spec.nsepEffBox (Spec.frameOpts L o) a eps) l).map (· + (L : ℂ))) : Spec.InBoxC o.box z := by
  obtain ⟨w, hw, rfl⟩ := List.mem_map.mp hz
  have hna : (Spec.frameOpts L o).filt ≠ .AUTO := by rw [frame_filt, hf]; simp
  unfold Spec.Kept at hw
  rw [if_neg (by rw [hf]; simp)] at hw
  have hb : Spec.nsepEffBox (Spec.frameOpts L o) a eps = ![(o.box 0).addR (-L), (o.box 1).addR (-L), o.box 2, o.box 3] := by
    unfold Spec.nsepEffBox
    rw [if_neg hna]
    unfold Spec.frameOpts
    rw [if_pos hf]
  rw [hb] at hw
  obtain ⟨-, hw⟩ := List.mem_filter.mp hw
  obtain ⟨w0, w1, w2, w3⟩ := of_decide_eq_true (p := Spec.InBoxC ![(o.box 0).addR (-L), (o.box 1).addR (-L), o.box 2, o.box 3] w) hw
  refine ⟨?_, ?_, ?_, ?_⟩
  · have := addR_le_left w0; simpa using this
  · have := addR_le_right w1; simpa using this
  · simpa using w2
  · simpa using w3

/-- The hypotheses of `C60_gridsearch` are met, e.g., by four samples of `1 + i`, a phase shift of one, and automatic filtering. -/
example : ∃ (o : NsepOpts) (q : Buf ℂ) (a : AknsDisc) (K M : ℕ) (main aux : Option (Buf ℂ)),
    Spec.NsepArgs 4 q (fun _ => 1 + I) 0 1 1 o a ∧ o.loc = .GRIDSEARCH ∧ akns_degree a ≠ 0 ∧
    Spec.GsBox (Spec.frameOpts (Spec.lamShift 1 (1 - 0)) o) a ((1 - 0) / (4 : ℕ))
      (-(0.9 * Real.pi / (Spec.nsepStretch a * ((1 - 0) / (4 : ℕ))))) (0.9 * Real.pi / (Spec.nsepStretch a * ((1 - 0) / (4 : ℕ))))
      (4 * Spec.degree1step a) ∧
    Spec.NsepReq o K main M aux := by
  refine ⟨{ nsep_default_opts with loc := .GRIDSEARCH }, Buf.ofList [1 + I, 1 + I, 1 + I, 1 + I], .D2SPLIT2A, 2, 2, some (Buf.malloc 2),
    some (Buf.malloc 2), ⟨rfl, ⟨2, by norm_num, by norm_num⟩, fun h => absurd h (by simp [Spec.isCF]), by decide, fun i hi => ?_, by norm_num,
      by norm_num⟩, rfl, by decide, C60_auto rfl _ _ (by norm_num) (by decide), ⟨Or.inr (Or.inl (by simp)), fun b hb => ?_, fun b hb => ?_⟩⟩
  · rcases i with _ | _ | _ | _ | i
    all_goals first | rfl | omega
  · cases hb; simp
  · cases hb; simp

end FNFT

import Verif.Proofs.NsepGrid
import Verif.Proofs.NsevPre
/-!
# Proofs: grid search in fnft_nsep.c, continued
-/
namespace FNFT
open Complex

theorem nse_degree_eq {d : NseDisc} {a : AknsDisc} (hd : nse_to_akns d = .ok a) : nse_degree d = akns_degree a := by
  unfold nse_degree; rw [hd]

theorem nse_up_eq {d : NseDisc} {a : AknsDisc} (hd : nse_to_akns d = .ok a) : nse_upsampling_factor d = akns_upsampling_factor a := by
  unfold nse_upsampling_factor; rw [hd]

/-- The fast discretizations keep `r = -κ conj q`. -/
theorem processed_sym {a : AknsDisc} (hdeg : akns_degree a ≠ 0) {kappa : ℤ} {D : ℕ} {eps : ℝ} {x : ℕ → ℂ} {Dsub s : ℕ} {qf rf : ℕ → ℂ}
    (h : Spec.Processed a kappa D eps x Dsub s qf rf) (n : ℕ) (hn : n < Dsub * akns_upsampling_factor a) :
    rf n = -((kappa : ℝ) : ℂ) * (starRingEnd ℂ) (qf n) := by
  unfold Spec.Processed at h
  by_cases h1 : akns_upsampling_factor a = 1
  · rw [if_pos h1] at h
    rw [h1, Nat.mul_one] at hn
    rw [(h n hn).2, (h n hn).1]; push_cast; rfl
  · rw [if_neg h1] at h
    have ha : a = .D4SPLIT4A ∨ a = .D4SPLIT4B := by
      cases a <;> simp [akns_upsampling_factor, akns_degree] at h1 hdeg ⊢
    rw [if_neg (by rcases ha with rfl | rfl <;> simp)] at h
    obtain ⟨c, w, ew, -, hw, hc⟩ := h
    obtain ⟨e1, e2⟩ := hc n hn
    have hup : akns_upsampling_factor a = 2 := by rcases ha with rfl | rfl <;> rfl
    rw [hup] at e1 e2
    rw [e1, e2]
    have hwr : ∃ u v : ℝ, w = [(u : ℂ), v, v, u] := by
      refine ⟨0.5 + 1 / Real.sqrt 3, 0.5 - 1 / Real.sqrt 3, ?_⟩
      rcases ha with rfl | rfl <;> simp only [akns_method_weights, Except.ok.injEq, Prod.mk.injEq] at hw <;>
        rw [← hw.1] <;> push_cast <;> rfl
    obtain ⟨u, v, rfl⟩ := hwr
    unfold Spec.cfSum
    rw [map_sum, Finset.mul_sum]
    refine Finset.sum_congr rfl fun k _ => ?_
    have hreal : ∀ i, (starRingEnd ℂ) ([(u : ℂ), v, v, u].getD i 0) = [(u : ℂ), v, v, u].getD i 0 := by
      intro i
      rcases i with _ | _ | _ | _ | i <;> simp [List.getD]
    rw [map_mul, hreal]; push_cast; ring

theorem nsepMap_eq {d : NseDisc} {a : AknsDisc} (hd : nse_to_akns d = .ok a) : nsepMap d = Spec.nsepStretch a := by
  unfold nsepMap Spec.nsepStretch
  rw [nse_degree_eq hd]

theorem stretch_pos (a : AknsDisc) : 0 < Spec.nsepStretch a := by
  unfold Spec.nsepStretch
  split_ifs with h
  · norm_num
  · have : (0 : ℝ) < akns_degree a := by exact_mod_cast Nat.pos_of_ne_zero h
    positivity

theorem nsepBox_ok {o : NsepOpts} {a : AknsDisc} (hd : nse_to_akns o.disc = .ok a) (h : ℝ) :
    nsepBox h o = { o with box := Spec.nsepEffBox o a h } := by
  unfold nsepBox Spec.nsepEffBox
  split_ifs with hc
  · have hl : -Real.log 0.1 = Real.log 10 := by rw [← Real.log_inv]; norm_num
    rw [nsepMap_eq hd, abs_of_pos (stretch_pos a), hl]
  · rfl

theorem effBox_auto {o : NsepOpts} (hf : o.filt = .AUTO) (a : AknsDisc) {h : ℝ} (hh : 0 < h) :
    Spec.ValidBox (Spec.nsepEffBox o a h) := by
  unfold Spec.nsepEffBox
  rw [if_pos hf]
  have hs := stretch_pos a
  have h1 : 0 < 0.9 * Real.pi / (Spec.nsepStretch a * h) := div_pos (by positivity) (mul_pos hs hh)
  have h2 : 0 < Real.log 10 / (Spec.nsepStretch a * h) := div_pos (Real.log_pos (by norm_num)) (mul_pos hs hh)
  constructor
  · show ((_ : ℝ) : EReal) ≤ ((_ : ℝ) : EReal)
    rw [EReal.coe_le_coe_iff]; linarith
  · show ((_ : ℝ) : EReal) ≤ ((_ : ℝ) : EReal)
    rw [EReal.coe_le_coe_iff]; linarith

theorem gsPhi_ok {o : NsepOpts} {a : AknsDisc} (hd : nse_to_akns o.disc = .ok a) {h : ℝ} (hh : 0 < h) {x0 x1 : ℝ}
    (h0 : o.box 0 = .num (x0 : EReal)) (h1 : o.box 1 = .num (x1 : EReal)) (hlt : x0 < x1) :
    gsPhi h o = some (Spec.nsepStretch a * h * x0, Spec.nsepStretch a * h * x1) := by
  unfold gsPhi
  rw [h0, h1, nsepMap_eq hd]
  have hs := stretch_pos a
  have : ¬ Spec.nsepStretch a * h * x0 > Spec.nsepStretch a * h * x1 := by
    have : 0 < Spec.nsepStretch a * h := mul_pos hs hh
    nlinarith
  simp [Dbl.fin?, this]

/-- Arguments of the routines for one period of a signal with samples `x`. -/
structure PerArgs (D : ℕ) (q : Buf ℂ) (x : ℕ → ℂ) (T0 T1 : ℝ) (kappa : ℤ) (d : NseDisc) (a : AknsDisc) : Prop where
  hd : nse_to_akns d = .ok a
  hD : 2 ≤ D
  hev : D % 2 = 0
  hCF : Spec.isCF a → 3 ≤ D
  hsize : D * akns_upsampling_factor a ≤ 2147483647
  hq : q.Holds 0 D x
  hT : T0 < T1
  hk : |kappa| = 1

theorem PerArgs.eps_pos {D : ℕ} {q : Buf ℂ} {x : ℕ → ℂ} {T0 T1 : ℝ} {kappa : ℤ} {d : NseDisc} {a : AknsDisc}
    (h : PerArgs D q x T0 T1 kappa d a) : 0 < (T1 - T0) / D :=
  div_pos (by linarith [h.hT]) (by have := h.hD; positivity)

theorem PerArgs.up_ne {D : ℕ} {q : Buf ℂ} {x : ℕ → ℂ} {T0 T1 : ℝ} {kappa : ℤ} {d : NseDisc} {a : AknsDisc}
    (h : PerArgs D q x T0 T1 kappa d a) : akns_upsampling_factor a ≠ 0 := ((C32_nse_names d).1 a h.hd).2

theorem PerArgs.D_lt {D : ℕ} {q : Buf ℂ} {x : ℕ → ℂ} {T0 T1 : ℝ} {kappa : ℤ} {d : NseDisc} {a : AknsDisc}
    (h : PerArgs D q x T0 T1 kappa d a) : D < 2 * 3 ^ 32 := by
  have := h.hsize
  have h1 := Nat.pos_of_ne_zero h.up_ne
  have : D ≤ 2147483647 := le_trans (by nlinarith) this
  omega

theorem subGrid_full {D Ds s : ℕ} (h : Spec.SubGrid D D Ds s) : Ds = D ∧ s = 1 := h.2.2.2.2.2 le_rfl

theorem gsSpectra_ok {deg : ℕ} {a : AknsDisc} {o : NsepOpts} {h x0 x1 : ℝ} (hh : 0 < h) {PHI : ℝ × ℝ}
    (hPHI : PHI = (Spec.nsepStretch a * h * x0, Spec.nsepStretch a * h * x1)) (hlt : x0 < x1)
    (hbx0 : Spec.nsepEffBox o a h 0 = .num (x0 : EReal)) (hbx1 : Spec.nsepEffBox o a h 1 = .num (x1 : EReal))
    (hg : GsArgs deg PHI { o with box := Spec.nsepEffBox o a h } a) {W : ℤ} {tm : Buf ℂ}
    {y : ℕ → ℂ} (hy : tm.Holds 0 (4 * (deg + 1)) y)
    {Pp Pm Pa : Polynomial ℂ}
    (hPp : Pp = Spec.poly deg fun i => (y i + (starRingEnd ℂ) (y (deg - i))) + if i = deg / 2 then 2 * 2 ^ (-W) else 0)
    (hPm : Pm = Spec.poly deg fun i => (y i + (starRingEnd ℂ) (y (deg - i))) + if i = deg / 2 then (-2) * 2 ^ (-W) else 0)
    (hPa : Pa = Spec.poly deg fun i => y (deg + 1 + i)) (junk offK offM : ℕ) (s : NsepSt) (hso : s.opts = o)
    (hmain : ∀ b, s.main = some b → offK + s.K ≤ b.len) (haux : ∀ b, s.aux = some b → offM + s.M ≤ b.len) :
    (s.main.isSome = true ∧ (deg < (Spec.gsHits a h Pp PHI deg).length ∨ deg < (Spec.gsHits a h Pm PHI deg).length) →
      ∃ m, gsSpectra junk deg W tm h offK offM s = some (EC_OTHER, { s with main := m, opts := { o with box := Spec.nsepEffBox o a h } })) ∧
    (s.main = none ∨ ((Spec.gsHits a h Pp PHI deg).length ≤ deg ∧ (Spec.gsHits a h Pm PHI deg).length ≤ deg) →
      ∃ K m M u, gsSpectra junk deg W tm h offK offM s = some (SUCCESS, ⟨K, m, M, u, { o with box := Spec.nsepEffBox o a h }⟩) ∧
        Spec.ListOut offK s.K (Spec.Kept o.filt (Spec.nsepEffBox o a h) (Spec.gsHits a h Pp PHI deg) ++
          Spec.Kept o.filt (Spec.nsepEffBox o a h) (Spec.gsHits a h Pm PHI deg)) junk s.main K m ∧
        Spec.ListOut offM s.M (Spec.Kept o.filt (Spec.nsepEffBox o a h) (Spec.gsHits a h Pa PHI deg)) 0 s.aux M u) := by
  obtain ⟨K0, main, M0, aux, opts⟩ := s
  dsimp only at hso hmain haux ⊢
  subst hso
  have hbox : nsepBox h opts = { opts with box := Spec.nsepEffBox opts a h } := nsepBox_ok (o := opts) hg.hd h
  obtain ⟨o', ho'⟩ : ∃ o', o' = { opts with box := Spec.nsepEffBox opts a h } := ⟨_, rfl⟩
  rw [← ho'] at hbox hg ⊢
  have hphi : gsPhi h o' = some PHI := by
    rw [hPHI]
    exact gsPhi_ok hg.hd hh (by rw [ho']; exact hbx0) (by rw [ho']; exact hbx1) hlt
  have hkept : ∀ l, Spec.Kept opts.filt (Spec.nsepEffBox opts a h) l = Spec.Kept o'.filt o'.box l := by intro l; rw [ho']
  simp only [hkept]
  have hA : ∀ r : Buf ℂ, r.len = 32 * deg → ∃ M u, gsAuxIf deg tm PHI h o' offM M0 aux r = some (SUCCESS, M, u) ∧
      Spec.ListOut offM M0 (Spec.Kept o'.filt o'.box (Spec.gsHits a h Pa PHI deg)) 0 aux M u := by
    intro r hr
    rcases aux with _ | b
    · exact ⟨0, none, rfl, fun _ => ⟨rfl, rfl⟩, fun c hc => (by cases hc)⟩
    · obtain ⟨m, e1, e2⟩ := gsAux_ok hg (roots := r) (aux := b) (fun i hi => hy i (by omega)) h (by omega) (haux b rfl) hPa rfl
      refine ⟨_, some m, by simp only [gsAuxIf, e1, Option.bind_eq_bind, Option.bind_some]; rfl, fun hc => (by cases hc), fun c hc => ?_⟩
      cases hc
      exact ⟨rfl, m, rfl, e2⟩
  have hroots : (Buf.malloc (α := ℂ) (nsepOver * deg)).len = 32 * deg := by simp [nsepOver]
  unfold gsSpectra
  simp only [hbox, hphi, Option.bind_eq_bind, Option.bind_some]
  rcases main with _ | b
  · refine ⟨fun hc => absurd hc.1 (by simp), fun _ => ?_⟩
    obtain ⟨M, u, f1, f2⟩ := hA _ hroots
    refine ⟨junk, none, M, u, ?_, ⟨fun _ => ⟨rfl, rfl⟩, fun c hc => (by cases hc)⟩, f2⟩
    simp only [gsMainIf, Option.bind_some, ne_eq, not_true_eq_false, if_false, f1]; rfl
  · obtain ⟨a1, a2⟩ := gsMain_ok hg (roots := Buf.malloc (nsepOver * deg)) (main := b) (fun i hi => hy i (by omega)) h (by omega)
      (hmain b rfl) hPp hPm rfl rfl
    constructor
    · rintro ⟨-, hc⟩
      obtain ⟨K, m, r, e1⟩ := a1 hc
      refine ⟨some m, ?_⟩
      simp only [gsMainIf, e1, Option.bind_eq_bind, Option.bind_some, Option.pure_def]
      rw [if_pos (show EC_OTHER ≠ SUCCESS by decide)]
    · intro hc
      obtain ⟨m, r, e1, e2, e3⟩ := a2 (hc.resolve_left (by simp))
      obtain ⟨M, u, f1, f2⟩ := hA r (by rw [e3, hroots])
      refine ⟨((Spec.Kept o'.filt o'.box (Spec.gsHits a h Pp PHI deg) ++ Spec.Kept o'.filt o'.box (Spec.gsHits a h Pm PHI deg)).take
        K0).length, some m, M, u, ?_, ⟨fun hc => (by cases hc), fun c hc => ?_⟩, f2⟩
      · simp only [gsMainIf, e1, Option.bind_eq_bind, Option.bind_some, Option.pure_def, ne_eq, not_true_eq_false, if_false, f1]
      · cases hc
        exact ⟨rfl, m, rfl, e2⟩

theorem akns_degree_le (a : AknsDisc) : akns_degree a ≤ 105 := by
  cases a <;> simp [akns_degree]

/-- What the transfer matrix of one period looks like for the fast methods. -/
theorem per_transfer {D : ℕ} {q : Buf ℂ} {x : ℕ → ℂ} {T0 T1 : ℝ} {kappa : ℤ} {d : NseDisc} {a : AknsDisc}
    (h : PerArgs D q x T0 T1 kappa d a) (hdeg : akns_degree a ≠ 0) {Ds s : ℕ} (hDs2 : 2 ≤ Ds) (hDsev : Ds % 2 = 0)
    (hs : s * Ds = D) {H : ℝ} (hH : H = s * ((T1 - T0) / D)) {qp rp : Buf ℂ} {qf rf : ℕ → ℂ}
    (hqp : qp.Holds 0 (Ds * akns_upsampling_factor a) qf) (hrp : rp.Holds 0 (Ds * akns_upsampling_factor a) rf)
    (hpr : Spec.Processed a kappa D ((T1 - T0) / D) x Ds s qf rf)
    (hmod : a = .D2SPLIT2_MODAL → ∀ j, j < Ds → 0 < 1 + kappa * (H * ‖x (s * j)‖) ^ 2) (nrm : Bool) :
    ∃ W tm U y, nsevTransfer (Ds * akns_upsampling_factor a) (some qp) (some rp) H nrm d =
        some (.ok (Ds * akns_upsampling_factor a * akns_degree a, W, some tm)) ∧
      tm.Holds 0 (4 * (Ds * akns_upsampling_factor a * akns_degree a + 1)) y ∧
      Spec.NseSteps a H qf rf U ∧
      (∀ v l : ℂ, (Spec.poly (Ds * akns_upsampling_factor a * akns_degree a) fun i =>
          (y i + (starRingEnd ℂ) (y (Ds * akns_upsampling_factor a * akns_degree a - i))) +
            if i = Ds * akns_upsampling_factor a * akns_degree a / 2 then v * 2 ^ (-W) else 0).eval (Spec.zOf a H l) =
        2 ^ (-W) * exp (I * l * ((T1 - T0 : ℝ) : ℂ)) * (Spec.floquet (Spec.chain (U l) (Ds * akns_upsampling_factor a)) + v)) ∧
      (∀ l : ℂ, (Spec.poly (Ds * akns_upsampling_factor a * akns_degree a) fun i =>
          y (Ds * akns_upsampling_factor a * akns_degree a + 1 + i)).eval (Spec.zOf a H l) =
        2 ^ (-W) * exp (I * l * ((T1 - T0 : ℝ) : ℂ)) * (exp (I * l * phB d H) * (Spec.chain (U l) (Ds * akns_upsampling_factor a)) 0 1)) := by
  have hup := h.up_ne
  have hD0 : (D : ℝ) ≠ 0 := by have := h.hD; positivity
  have hs0 : 0 < s := Nat.pos_of_ne_zero fun h0 => by rw [h0] at hs; have := h.hD; omega
  have hHpos : 0 < H := by rw [hH]; exact mul_pos (by exact_mod_cast hs0) h.eps_pos
  have hHD : ((H : ℂ)) * Ds = ((T1 - T0 : ℝ) : ℂ) := by
    have : H * Ds = T1 - T0 := by
      rw [hH]
      have : (D : ℝ) = s * Ds := by exact_mod_cast hs.symm
      field_simp
      rw [this]; ring
    exact_mod_cast this
  have hDsD : Ds ≤ D := by rw [← hs]; exact Nat.le_mul_of_pos_left _ hs0
  have hqr := processed_sym hdeg hpr
  have hq1 : a = .D2SPLIT2_MODAL → ∀ n, n < Ds → qf n = x (s * n) := by
    rintro rfl n hn
    unfold Spec.Processed at hpr
    rw [if_pos (show akns_upsampling_factor AknsDisc.D2SPLIT2_MODAL = 1 from rfl)] at hpr
    exact (hpr n hn).1
  have hposn : a = .D2SPLIT2_MODAL → ∀ n, n < Ds → 0 < 1 + (kappa : ℝ) * (H * ‖qf n‖) ^ 2 := by
    intro ha n hn
    rw [hq1 ha n hn]; exact hmod ha n hn
  obtain ⟨deg, W, tm, U, e1, e2⟩ := transfer_ok h.hd (D := Ds * akns_upsampling_factor a) (Dg := Ds) rfl hDs2
    (le_trans (Nat.mul_le_mul_right _ hDsD) h.hsize) hqp hrp hHpos (fun ha n hn => by
      have hn' : n < Ds := by rw [ha] at hn; simpa [akns_upsampling_factor] using hn
      have hp := hposn ha n hn'
      rw [hqr n hn]
      intro hc
      have : ((1 + (kappa : ℝ) * (H * ‖qf n‖) ^ 2 : ℝ) : ℂ) = 0 := by
        push_cast
        linear_combination (kappa * H ^ 2 : ℂ) * (mul_conj' (qf n)).symm - hc + 0 * hc
      rw [ofReal_eq_zero] at this
      linarith) nrm
  have hns : ¬ Spec.slow a := fun hs => hdeg (slow_degree hs)
  obtain ⟨-, rfl, t, y, rfl, hy, hE⟩ := e2.fast hns
  have hcnt : Spec.slowCount a (Ds * akns_upsampling_factor a) = Ds * akns_upsampling_factor a := by
    cases a <;> first | rfl | exact absurd rfl hdeg
  rw [hcnt] at hE
  refine ⟨W, t, U, y, e1, hy, e2.steps, fun v l => ?_, fun l => ?_⟩
  · have := floquet_poly hdeg hup hHpos rfl (by rw [Nat.mul_assoc, Nat.mul_mod, hDsev]; simp) hE (κ := kappa) (fun l => ?_) v l
    · rw [hHD] at this
      exact this
    · refine Sym.chain _ fun n hn => e2.sym hns _ _ _ (hqr n hn) fun ha => ?_
      exact hposn ha n (by rw [ha] at hn; simpa [akns_upsampling_factor] using hn)
  · have := aux_poly (a := a) hE l
    rw [hHD] at this
    exact this

end FNFT

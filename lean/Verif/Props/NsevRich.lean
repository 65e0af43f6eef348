import Verif.Proofs.NsevRich
/-!
# Properties of `fnft_nsev`: Richardson extrapolation of the continuous spectrum
-/
namespace FNFT
open Complex AknsDisc

variable {D : ℕ} {q : Buf ℂ} {x : ℕ → ℂ} {T0 T1 : ℝ} {kappa : ℤ} {o : NsevOpts} {a : AknsDisc}

/-- Richardson extrapolation of two approximations `u` (step `h`) and `v` (step `s h`) with a method of order `p`. -/
noncomputable def Spec.richardson (s p : ℕ) (u v : ℂ) : ℂ := ((s : ℂ) ^ p * u - v) / ((s : ℂ) ^ p - 1)

/-- C46. Continuous spectrum with Richardson extrapolation (no bound states requested, or defocusing). Two approximations are
computed: for the signal, and for the subsampled signal with step `s eps`, `s ≥ 2`. The result contains the extrapolation for all frequencies that the
subsampled signal can resolve (`|ξ| < 0.9 π/(2 s eps)`), and otherwise the approximation for the full signal. The record of the options is unchanged,
although the routine modifies it temporarily. -/
theorem C46_richardson (h : Spec.NsevArgs D q x T0 T1 kappa o a) (hD : 3 ≤ D) {M : ℕ} {XI0 XI1 : ℝ} {c : Buf ℂ}
    (hc : Spec.ContReq D M XI0 XI1 o a c) (hrich : o.rich = 1) (K : Option ℕ) (bs nc : Option (Buf ℂ))
    (hK : bs.isSome → K ≠ none) (hnb : bs = none ∨ kappa = -1) (hres : o.ds = .RESIDUES → K ≠ none)
    (hal : a = .D2SPLIT2_MODAL → kappa = -1 → ∀ s n, s ≤ D → s * n < D → (T1 - T0) / (D - 1) * s * ‖x (s * n)‖ ≠ 1) :
    let eps := (T1 - T0) / (D - 1)
    ∃ qf rf U Ds s qs rs Us, Spec.Processed a kappa D eps x D 1 qf rf ∧ Spec.NseSteps a eps qf rf U ∧
      Spec.SubGrid D (D / 2) Ds s ∧ 2 ≤ s ∧ Spec.Processed a kappa D eps x Ds s qs rs ∧ Spec.NseSteps a (eps * s) qs rs Us ∧
      let av := Spec.gridA a (D * akns_upsampling_factor a) T0 T1 eps XI0 XI1 M U
      let bv := Spec.gridB a (D * akns_upsampling_factor a) T0 T1 eps XI0 XI1 M U
      let T1s := T0 + ((Ds - 1) * s : ℕ) * eps
      let as := Spec.gridA a (Ds * akns_upsampling_factor a) T0 T1s (eps * s) XI0 XI1 M Us
      let bs' := Spec.gridB a (Ds * akns_upsampling_factor a) T0 T1s (eps * s) XI0 XI1 M Us
      ∀ (roots : RootFinder) (g : ℕ → Garbage),
      ((o.cs = .AB ∨ ∀ i, i < M → av i ≠ 0 ∧ as i ≠ 0) →
        ∃ c', fnft_nsev roots D (some q) (some (T0, T1)) M (some (XI0, XI1)) kappa o g ⟨some c, K, bs, nc⟩ =
            some (SUCCESS, ⟨some c', K.map fun _ => 0, bs, nc⟩, o) ∧
          c'.len = c.len ∧ (∀ j, Spec.csLen o.cs * M ≤ j → c'.rd j = c.rd j) ∧
          c'.Holds 0 (Spec.csLen o.cs * M) (fun j =>
            if |Spec.grid XI0 XI1 M (j % M)| < 0.9 * Real.pi / (2 * (eps * s)) then
              Spec.richardson s (akns_method_order a) (Spec.csOut o.cs M av bv j) (Spec.csOut o.cs M as bs' j)
            else Spec.csOut o.cs M av bv j)) ∧
      (o.cs ≠ .AB → (∃ i, i < M ∧ (av i = 0 ∨ as i = 0)) →
        ∃ s' o', fnft_nsev roots D (some q) (some (T0, T1)) M (some (XI0, XI1)) kappa o g ⟨some c, K, bs, nc⟩ =
            some (E_SUBROUTINE EC_DIV_BY_ZERO, s', o')) := by
  intro eps
  have hr : Spec.NsevReq kappa o (some (XI0, XI1)) ⟨some c, K, bs, nc⟩ := by
    refine ⟨fun _ => ⟨_, rfl, hc.hXI⟩, hK, fun h1 h2 => ?_⟩
    rcases hnb with rfl | h3
    · cases h2
    · rw [h1] at h3; cases h3
  -- the options during the call
  obtain ⟨o1, rv, hres1, hd1, hc1, hr1, hl1, ho1⟩ : ∃ (o1 : NsevOpts) (rv : Option (Buf ℂ)),
      nsevReserve ⟨⟨some c, K, bs, nc⟩, o, none⟩ = some ⟨⟨some c, K, bs, nc⟩, o1, rv⟩ ∧ o1.disc = o.disc ∧ o1.cs = o.cs ∧ o1.rich = o.rich ∧
      o1.loc = o.loc ∧ { o1 with ds := o.ds } = o := by
    unfold nsevReserve
    by_cases hds : o.ds = .RESIDUES
    · obtain ⟨K1, rfl⟩ := Option.ne_none_iff_exists'.mp (hres hds)
      refine ⟨{ o with ds := .BOTH }, some (Buf.malloc (K1 * 2)), ?_, rfl, rfl, rfl, rfl, rfl⟩
      rw [if_pos ⟨hrich, hds⟩]
      rfl
    · refine ⟨o, none, ?_, rfl, rfl, rfl, rfl, rfl⟩
      rw [if_neg (by tauto)]
  obtain ⟨qp, rp, qf, rf, h1, h2, h3⟩ := nsev_run_rich h hr hrich hres1
  obtain ⟨deg, W, tm, U, h4, h5⟩ := base_run (h2 o1 hd1)
  obtain ⟨Ds, s, qps, rps, qs, rs, s1, s2, s3, s4⟩ := nsev_pre_sub h (D / 2) hal
  have hs2 : 2 ≤ s := half_step hD s2 s1.2.1 rfl
  obtain ⟨degs, Ws, tms, Us, t1, t2⟩ := base_run (s4 { o1 with loc := .NEWTON } hd1)
  rw [hd1] at h4
  have t1' : TransferData o.disc a (Ds * akns_upsampling_factor a) Ds ((T1 - T0) / (D - 1) * s) qs rs Us degs Ws tms := by
    rw [← hd1]; exact t1
  refine ⟨qf, rf, U, Ds, s, qs, rs, Us, h1, h4.steps, s1, hs2, s3, t1'.steps, ?_⟩
  intro av bv T1s as bs' roots g
  have hup : nse_upsampling_factor o1.disc = akns_upsampling_factor a := by rw [hd1, nse_upsampling_factor, h.hd]
  have hord : nse_method_order o1.disc = akns_method_order a := by rw [hd1, nse_method_order, h.hd]
  have hord0 : akns_method_order a ≠ 0 := ((C32_akns_tables a).1).mp ((C32_nse_names o.disc).1 a h.hd).2
  have hcs : ∃ n, richCs o.cs = some n ∧ n = Spec.csLen o.cs := by
    have := hc.hcs
    cases hh : o.cs with
    | other k => exact absurd hh (this k)
    | _ => exact ⟨_, rfl, rfl⟩
  obtain ⟨n, hn1, rfl⟩ := hcs
  have hM0 : 0 < M := by have := hc.hM; omega
  rw [h3]
  -- first approximation
  obtain ⟨b1, b2⟩ := baseCont_ok (h2 o1 hd1) (by rw [hd1]; exact h4) hc.hM hc.hsz XI0 XI1 (by rw [hc1]; exact hc.hcs)
    (s := ⟨some c, K, bs, nc⟩) rfl (by rw [hc1]; exact hc.hlen)
  rw [hc1] at b1 b2
  have hfirst : ∀ C, baseCont (D * akns_upsampling_factor a) qp rp T0 T1 M (some (XI0, XI1)) kappa o1 deg W tm ⟨some c, K, bs, nc⟩ =
        some C → C.2.bs = bs →
      nsevFirst roots D q (qp, rp) (T0, T1) eps M (some (XI0, XI1)) kappa g ⟨⟨some c, K, bs, nc⟩, o1, rv⟩ =
        some (chk C.1, ⟨if C.1 = SUCCESS then { C.2 with K := C.2.K.map fun _ => 0 } else C.2, o1, rv⟩) := by
    intro C hC hbs
    have hmix : ¬ (kappa = 1 ∧ bs.isSome ∧ o1.loc = .SUBSAMPLE_AND_REFINE) := by
      rintro ⟨c1, c2, -⟩
      rcases hnb with rfl | h3
      · cases c2
      · rw [c1] at h3; cases h3
    unfold nsevFirst
    rw [if_neg hmix]
    unfold nsevCallBase
    dsimp only
    rw [hup, h5 roots M _ (g 1) _ hr.hXI hr.hK, hC]
    simp only [Option.bind_eq_bind, Option.bind_some]
    by_cases hs : C.1 = SUCCESS
    · rw [if_neg (not_not.mpr hs), if_pos hs, baseDisc_none (by rw [hbs]; exact hnb), hs]
      rfl
    · rw [if_pos hs, if_neg hs]
      rfl
  -- second approximation
  have hDs : Ds ≤ D := s1.2.2.1
  have hszs : Ds * akns_upsampling_factor a * akns_degree a + M < 3 ^ 32 :=
    lt_of_le_of_lt (Nat.add_le_add_right (Nat.mul_le_mul_right _ (Nat.mul_le_mul_right _ hDs)) M) hc.hsz
  obtain ⟨d1, d2⟩ := baseCont_ok (s4 { o1 with loc := .NEWTON } hd1) t1 hc.hM hszs XI0 XI1
    (show ∀ n, o1.cs ≠ .other n by rw [hc1]; exact hc.hcs)
    (s := ⟨some (Buf.malloc (Spec.csLen o.cs * M)), some 0, none, none⟩) rfl (show Spec.csLen o1.cs * M ≤ _ by rw [hc1]; exact le_rfl)
  have heps := h.eps_pos
  have hsub : ∀ C, baseCont (Ds * akns_upsampling_factor a) qps rps T0 T1s M (some (XI0, XI1)) kappa { o1 with loc := .NEWTON } degs Ws tms
        ⟨some (Buf.malloc (Spec.csLen o.cs * M)), some 0, none, none⟩ = some C → C.2.bs = none → C.2.K = some 0 →
      nsev_base roots (Ds * akns_upsampling_factor a) qps rps (T0 + ((0 : ℕ) : ℝ) * eps) (T0 + ((Ds - 1) * s : ℕ) * eps) M (some (XI0, XI1)) kappa
        { o1 with loc := .NEWTON } (g 2) ⟨some (Buf.malloc (Spec.csLen o.cs * M)), some 0, none, none⟩ =
      some (if C.1 = SUCCESS then (SUCCESS, C.2) else C) := by
    intro C hC hbs hKs
    have e0 : T0 + ((0 : ℕ) : ℝ) * eps = T0 := by simp
    rw [e0, t2 roots M (some (XI0, XI1)) (g 2) ⟨some (Buf.malloc (Spec.csLen o.cs * M)), some 0, none, none⟩
      (fun _ => ⟨_, rfl, hc.hXI⟩) (fun _ => by simp)]
    rw [show baseCont (Ds * akns_upsampling_factor a) qps rps T0 (T0 + ((Ds - 1) * s : ℕ) * ((T1 - T0) / (D - 1))) M _ kappa _ degs Ws tms _ = _ from hC]
    simp only [Option.bind_eq_bind, Option.bind_some]
    by_cases hs : C.1 = SUCCESS
    · rw [if_neg (not_not.mpr hs), if_pos hs, baseDisc_none (Or.inl hbs)]
      obtain ⟨C1, c1, c2, c3, c4⟩ := C
      cases hKs
      rfl
    · rw [if_pos hs, if_neg hs]
      rfl
  have hrichrun : ∀ c0, nsevRich roots D q (T0, T1) eps M (some (XI0, XI1)) kappa (g 2) o.ds
        ⟨⟨some c0, K.map fun _ => 0, bs, nc⟩, o1, rv⟩ =
      (nsev_base roots (Ds * akns_upsampling_factor a) qps rps (T0 + ((0 : ℕ) : ℝ) * eps) (T0 + ((Ds - 1) * s : ℕ) * eps) M (some (XI0, XI1)) kappa
        { o1 with loc := .NEWTON } (g 2) ⟨some (Buf.malloc (Spec.csLen o.cs * M)), some 0, none, none⟩).bind fun R =>
        if R.1 ≠ SUCCESS then some (chk R.1, ⟨⟨some c0, K.map fun _ => 0, bs, nc⟩, { o1 with loc := .NEWTON }, rv⟩) else
        (richCont M ((s : ℝ) ^ akns_method_order a) (eps * s) (some (XI0, XI1)) R.2.contspec
          ⟨⟨some c0, K.map fun _ => 0, bs, nc⟩, o, rv⟩).bind fun m => R.2.K.bind fun Ksub =>
            (richDisc kappa Ksub ((s : ℝ) ^ akns_method_order a) eps o.ds R.2.bs R.2.nc m).bind fun m => some (SUCCESS, m) := by
    intro c0
    unfold nsevRich
    have e1 : richContBuf M ⟨⟨some c0, K.map fun _ => 0, bs, nc⟩, o1, rv⟩ = .ok (some (Buf.malloc (Spec.csLen o.cs * M))) := by
      unfold richContBuf
      rw [if_pos ⟨rfl, hM0⟩, hc1, hn1]
    have e2 : richDiscBuf kappa ⟨⟨some c0, K.map fun _ => 0, bs, nc⟩, o1, rv⟩ = some (.ok (0, none, none)) := by
      unfold richDiscBuf
      rcases bs with _ | b
      · rfl
      · dsimp only
        rw [if_neg]
        rintro ⟨k1, k2⟩
        rcases hnb with hb | hb
        · cases hb
        · rw [k1] at hb; cases hb
    rw [e1]
    dsimp only
    rw [e2]
    simp only [Option.bind_eq_bind, Option.bind_some, Option.pure_def]
    rw [hord, if_neg hord0, hd1, show nse_preprocess_signal D (some q) eps kappa (D / 2) o.disc = _ from s2]
    simp only [Option.bind_some]
    rw [← hd1, hup]
    have e3 : (T0 + ((Ds - 1) * s : ℕ) * eps - (T0 + ((0 : ℕ) : ℝ) * eps)) / ((Ds : ℝ) - 1) = eps * s := by
      have := (s4 o rfl).heps
      rw [this]
      simp
      rfl
    have e4 : (eps * s / eps : ℝ) = s := by
      rw [mul_div_assoc, mul_comm, div_mul_cancel₀ _ (ne_of_gt heps)]
    rw [e3, e4]
    have e5 : ¬ ((s : ℝ) ^ akns_method_order a = 1) := by
      have hs2' : (1 : ℝ) < s := by exact_mod_cast (by omega : 1 < s)
      exact ne_of_gt (one_lt_pow₀ hs2' hord0)
    simp only [e5, if_false, ho1]
  constructor
  · intro h0
    obtain ⟨c1, e1, e2⟩ := b1 (h0.imp id fun hh i hi => (hh i hi).1)
    obtain ⟨c2, f1, f2⟩ := d1 (h0.imp (fun hh => hc1.trans hh) fun hh i hi => (hh i hi).2)
    rw [hfirst _ e1 rfl]
    simp only [Option.bind_eq_bind, Option.bind_some, if_true]
    rw [if_neg (by decide), hrichrun c1, hsub _ f1 rfl rfl]
    simp only [if_true, Option.bind_some, ne_eq, not_true_eq_false, if_false]
    have f2v : c2.Holds 0 (Spec.csLen o.cs * M) (Spec.csOut o.cs M as bs') := by
      have := f2.vals
      rw [hc1] at this
      exact this
    obtain ⟨c3, g1, g2, g3, g4⟩ := richContBody_ok (scl := (s : ℝ) ^ akns_method_order a) (eps_sub := eps * s) (XI0 := XI0)
      (dxi := (XI1 - XI0) / ((M : ℝ) - 1)) hM0 e2.vals f2v
    have hrc : richCont M ((s : ℝ) ^ akns_method_order a) (eps * s) (some (XI0, XI1)) (some c2)
        ⟨⟨some c1, K.map fun _ => 0, bs, nc⟩, o, rv⟩ = some ⟨⟨some c3, K.map fun _ => 0, bs, nc⟩, o, rv⟩ := by
      unfold richCont
      dsimp only
      rw [if_neg (by omega), if_neg (by have := hc.hM; omega), hn1]
      dsimp only
      rw [g1]
      rfl
    rw [hrc]
    refine ⟨c3, ?_, by rw [g2, e2.len], fun j hj => by rw [g3 j hj, e2.rest j hj], fun j hj => ?_⟩
    · simp only [Option.bind_some]
      unfold richDisc
      rcases bs with _ | b <;> rfl
    · rw [g4 j hj]
      dsimp only
      rw [show Spec.grid XI0 XI1 M (j % M) = XI0 + (XI1 - XI0) / ((M : ℝ) - 1) * (j % M : ℕ) by unfold Spec.grid; ring]
      congr 1
      refine if_congr Iff.rfl ?_ rfl
      unfold richStep Spec.richardson
      push_cast
      rfl
  · intro hAB hz
    by_cases h0 : ∃ i, i < M ∧ av i = 0
    · obtain ⟨c1, e1, -⟩ := b2 hAB h0
      rw [hfirst _ e1 rfl]
      refine ⟨⟨some c1, K, bs, nc⟩, o1, ?_⟩
      simp only [Option.bind_eq_bind, Option.bind_some]
      rw [if_pos (by decide)]
      rfl
    · push Not at h0
      obtain ⟨c1, e1, e2⟩ := b1 (Or.inr h0)
      obtain ⟨i, hi, hz⟩ := hz
      obtain ⟨c2, f1, f2⟩ := d2 (show o1.cs ≠ .AB by rw [hc1]; exact hAB) ⟨i, hi, hz.resolve_left (h0 i hi)⟩
      rw [hfirst _ e1 rfl]
      simp only [Option.bind_eq_bind, Option.bind_some, if_true]
      rw [if_neg (by decide), hrichrun c1, hsub _ f1 rfl rfl]
      refine ⟨⟨some c1, K.map fun _ => 0, bs, nc⟩, { o1 with loc := .NEWTON }, ?_⟩
      rw [if_neg (show ¬ (E_SUBROUTINE EC_DIV_BY_ZERO = SUCCESS) by decide)]
      simp only [Option.bind_some]
      rw [if_pos (by decide)]
      rfl

/-- C46, purpose. If the error of the approximations is exactly `α h^p`, the extrapolation is exact. -/
theorem C46_removes_leading_error {s p : ℕ} (hs : 2 ≤ s) (hp : p ≠ 0) (h v α : ℂ) :
    Spec.richardson s p (v + α * h ^ p) (v + α * (s * h) ^ p) = v := by
  have hne : (s : ℂ) ^ p - 1 ≠ 0 := by
    rw [sub_ne_zero]
    have : 1 < s ^ p := Nat.one_lt_pow hp (by omega)
    exact_mod_cast ne_of_gt this
  unfold Spec.richardson
  rw [div_eq_iff hne]
  ring

/-- The hypotheses are met by the default options with Richardson extrapolation. -/
example (kappa : ℤ) (hk : |kappa| = 1) : let o := { nsev_default_opts with rich := 1 }
    Spec.NsevArgs 4 (Buf.ofList [1, 2, 2 * I, 4]) (fun i => [1, 2, 2 * I, 4].getD i 0) (-1) 1 kappa o .D2SPLIT4B ∧
    Spec.ContReq 4 3 (-2) 2 o .D2SPLIT4B (Buf.malloc 3) ∧ o.rich = 1 ∧ (o.ds = .RESIDUES → (none : Option ℕ) ≠ none) := by
  intro o
  exact ⟨{ hd := rfl, hD := by norm_num, hCF := fun h => (by norm_num), hsize := by decide
           hq := by intro i hi; have : i < 4 := by omega
                    interval_cases i <;> rfl
           hT := by norm_num, hk := hk, hal := fun h => by cases h },
    { hM := by norm_num, hXI := by norm_num, hsz := by unfold Spec.ContSize; decide, hcs := fun n h => (by cases h), hlen := by decide },
    rfl, fun h => by cases h⟩

end FNFT

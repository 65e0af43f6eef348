import Verif.Proofs.NsevRichDisc
import Verif.Props.NsevMixed
import Verif.Proofs.InvSoliton
/-!
# C73: Richardson extrapolation of the discrete spectrum
-/
namespace FNFT
open Complex AknsDisc

variable {D : ℕ} {q : Buf ℂ} {x : ℕ → ℂ} {T0 T1 : ℝ} {o : NsevOpts} {a : AknsDisc}

/-- The second approximation that Richardson extrapolation uses: the signal is subsampled (`Ds` samples with the step `s eps`), and Newton's method for the subsampled signal is started at
the bound states `lam 0, ..., lam (K1-1)` of the first approximation. `hasC`: the continuous spectrum is requested; `withRes`: residues are requested.
`err` is what happens if a derivative of `a(λ)` vanishes (in Newton's method, or at a bound state if residues are requested), and `ok s as bs Ks mu b ap` is what happens otherwise, where
`as`, `bs` are the values of `a(ξ)`, `b(ξ)` on the grid, `mu` the `Ks` bound states, `b` the norming constants and `ap` the values of `a'` for the subsampled signal. -/
def Spec.SecondApprox (D : ℕ) (T0 T1 : ℝ) (M : ℕ) (XI0 XI1 : ℝ) (o : NsevOpts) (a : AknsDisc) (x : ℕ → ℂ) (hasC withRes : Prop) (K1 : ℕ) (lam : ℕ → ℂ) (err : Prop)
    (ok : ℕ → (ℕ → ℂ) → (ℕ → ℂ) → ℕ → (ℕ → ℂ) → (ℕ → ℂ) → (ℕ → ℂ) → Prop) : Prop :=
  let eps := (T1 - T0) / (D - 1)
  let d := Spec.baseOf a
  ∃ Ds s qs rs Us E A', Spec.SubGrid D (D / 2) Ds s ∧ 2 ≤ s ∧ Spec.Processed a 1 D eps x Ds s qs rs ∧ Spec.NseSteps a (eps * s) qs rs Us ∧ Spec.NearExp E ∧
    let D' := Ds * akns_upsampling_factor a
    let T1s := T0 + ((Ds - 1) * s : ℕ) * eps
    let as := Spec.gridA a D' T0 T1s (eps * s) XI0 XI1 M Us
    let bs := Spec.gridB a D' T0 T1s (eps * s) XI0 XI1 M Us
    (∀ l, Spec.DerivA E d D' T0 T1s (eps * s) qs rs l (A' l)) ∧
    ((hasC → o.cs = .AB ∨ ∀ i, i < M → as i ≠ 0) → ∃ w cand fail, (o.nrm = false → ∀ l, w l = 0) ∧
      Spec.NewtonAll (Spec.slowA E d D' T0 T1s (eps * s) qs rs) A' w (Spec.tolOf o.tol) (Spec.bsBoxOf o a D' T0 T1s (eps * s) qs) o.niter K1 lam cand fail ∧
      (fail ≠ none → err) ∧
      (fail = none → ∃ out : List ℂ, Spec.Filtered o (Spec.bsBoxOf o a D' T0 T1s (eps * s) qs) K1 cand out ∧ out.length ≤ K1 ∧
        ((∀ i, i < out.length → ¬ Spec.NoBoundary E d D' Ds T0 T1s (eps * s) qs rs (out.getD i 0)) →
          ∃ b, (∀ i, i < out.length → Spec.NormConst E d D' Ds T0 T1s (eps * s) qs rs (out.getD i 0) none (b i)) ∧
            (withRes → (∃ i, i < out.length ∧ A' (out.getD i 0) = 0) → err) ∧
            ((withRes → ∀ i, i < out.length → A' (out.getD i 0) ≠ 0) →
              ok s as bs out.length (fun i => out.getD i 0) b (fun i => A' (out.getD i 0))))))

theorem Spec.SecondApprox.mono {M : ℕ} {XI0 XI1 : ℝ} {hasC withRes hasC' withRes' : Prop} {K1 : ℕ} {lam : ℕ → ℂ} {err err' : Prop}
    {ok ok' : ℕ → (ℕ → ℂ) → (ℕ → ℂ) → ℕ → (ℕ → ℂ) → (ℕ → ℂ) → (ℕ → ℂ) → Prop}
    (h : Spec.SecondApprox D T0 T1 M XI0 XI1 o a x hasC withRes K1 lam err ok) (hc : hasC ↔ hasC') (hw : withRes ↔ withRes') (he : err → err')
    (hok : ∀ s as bs Ks mu b ap, (withRes → ∀ i, i < Ks → ap i ≠ 0) → ok s as bs Ks mu b ap → ok' s as bs Ks mu b ap) :
    Spec.SecondApprox D T0 T1 M XI0 XI1 o a x hasC' withRes' K1 lam err' ok' := by
  obtain ⟨Ds, s, qs, rs, Us, E, A', h1, h2, h3, h4, h5, h6, h7⟩ := h
  refine ⟨Ds, s, qs, rs, Us, E, A', h1, h2, h3, h4, h5, h6, fun hh => ?_⟩
  obtain ⟨w, cand, fail, e1, e2, e3, e4⟩ := h7 fun hx => hh (hc.mp hx)
  refine ⟨w, cand, fail, e1, e2, fun hf => he (e3 hf), fun hf => ?_⟩
  obtain ⟨out, f1, f2, f3⟩ := e4 hf
  refine ⟨out, f1, f2, fun hn => ?_⟩
  obtain ⟨b, g1, g2, g3⟩ := f3 hn
  exact ⟨b, g1, fun hr hz => he (g2 (hw.mpr hr) hz), fun hr => hok _ _ _ _ _ _ _ (fun hx => hr (hw.mp hx)) (g3 fun hx => hr (hw.mp hx))⟩

/-- `c2` contains the extrapolated continuous spectrum (see C46), if it was requested; `c1` is the one of the first approximation. -/
def Spec.ContRich (s p : ℕ) (eps : ℝ) (M : ℕ) (XI0 XI1 : ℝ) (cs : CsType) (as bs : ℕ → ℂ) (c1 c2 : Option (Buf ℂ)) : Prop :=
  (c1 = none ∨ M = 0 → c2 = c1) ∧ ∀ cb, c1 = some cb → M ≠ 0 → ∃ cb2, c2 = some cb2 ∧ cb2.len = cb.len ∧ (∀ j, Spec.csLen cs * M ≤ j → cb2.rd j = cb.rd j) ∧
    ∀ j v, j < Spec.csLen cs * M → cb.rd j = some v → cb2.rd j = some (if |Spec.grid XI0 XI1 M (j % M)| < 0.9 * Real.pi / (2 * (eps * s)) then
      Spec.richardson s p v (Spec.csOut cs M as bs j) else v)

/-- The array with the continuous spectrum of the first approximation is filled. -/
def Spec.ContFilled (D M : ℕ) (XI0 XI1 : ℝ) (o : NsevOpts) (a : AknsDisc) (c1 : Option (Buf ℂ)) : Prop :=
  ∀ cb, c1 = some cb → M = 0 ∨ (Spec.ContReq D M XI0 XI1 o a cb ∧ ∃ v, cb.Holds 0 (Spec.csLen o.cs * M) v)

theorem second_run (h : Spec.NsevArgs D q x T0 T1 1 o a) (hD : 3 ≤ D) (hf : Spec.FiltOK o) {o1 : NsevOpts} (ho1 : { o1 with ds := o.ds } = o) (hds1 : ∀ n, o1.ds ≠ .other n)
    (hres1 : o1.ds ≠ .RESIDUES) {M : ℕ} {XI0 XI1 : ℝ}
    {c1 : Option (Buf ℂ)} (hc1 : Spec.ContFilled D M XI0 XI1 o a c1) {K1 : ℕ} (hK1 : K1 ≠ 0) {bs1 : Buf ℂ} {lam : ℕ → ℂ} (hlam : bs1.Holds 0 K1 lam) (nc1 rv : Option (Buf ℂ))
    (roots : RootFinder) (g : Garbage) :
    let eps := (T1 - T0) / (D - 1)
    let m : NsevMain := ⟨⟨c1, some K1, some bs1, nc1⟩, o1, rv⟩
    let run := nsevRich roots D q (T0, T1) eps M (some (XI0, XI1)) 1 g o.ds m
    Spec.SecondApprox D T0 T1 M XI0 XI1 o a x (c1.isSome ∧ M ≠ 0) (o1.ds = .BOTH) K1 lam (run = some (E_SUBROUTINE EC_DIV_BY_ZERO, { m with opts := { o1 with loc := .NEWTON } }))
      (fun s as bs Ks mu b ap => ∃ c2 bsub ncsub, bsub.Holds 0 Ks mu ∧ ncsub.Holds 0 (Spec.dsLen o1.ds * Ks) (Spec.dsOut o1.ds Ks b ap) ∧
        Spec.ContRich s (akns_method_order a) eps M XI0 XI1 o.cs as bs c1 c2 ∧
        run = (richDisc 1 Ks ((s : ℝ) ^ akns_method_order a) eps o.ds (some bsub) (some ncsub) ⟨⟨c2, some K1, some bs1, nc1⟩, o, rv⟩).bind fun m => some (SUCCESS, m)) := by
  intro eps m run
  have hd1 : o1.disc = o.disc := by rw [← ho1]
  have hcs1 : o1.cs = o.cs := by rw [← ho1]
  obtain ⟨Ds, s, qps, rps, qs, rs, s1, s2, s3, s4⟩ := nsev_pre_sub h (D / 2) (fun _ hk => by norm_num at hk)
  have hs2 : 2 ≤ s := half_step hD s2 s1.2.1 rfl
  have hB2 := s4 { o1 with loc := .NEWTON } hd1
  obtain ⟨deg, W, tm, Us, u1, u2⟩ := base_run hB2
  have hup : nse_upsampling_factor o1.disc = akns_upsampling_factor a := by rw [hd1, nse_upsampling_factor, h.hd]
  have hord : nse_method_order o1.disc = akns_method_order a := by rw [hd1, nse_method_order, h.hd]
  have hord0 : akns_method_order a ≠ 0 := ((C32_akns_tables a).1).mp ((C32_nse_names o.disc).1 a h.hd).2
  have heps := h.eps_pos
  have hst : Spec.NseSteps a (eps * s) qs rs Us := u1.steps
  refine ⟨Ds, s, qs, rs, Us, expS, slowA' (Spec.baseOf a) (Ds * akns_upsampling_factor a) T0 (T0 + ((Ds - 1) * s : ℕ) * eps) (eps * s) qs rs, s1, hs2, s3, hst, nearExp_expS,
    fun l => slowA'_deriv _ _ _ _ _ _ _ l, ?_⟩
  intro hasC
  -- the arrays
  obtain ⟨csub, hcsub, hcsub2, hcok⟩ : ∃ csub, richContBuf M m = .ok csub ∧ (csub = if c1.isSome ∧ M ≠ 0 then some (Buf.malloc (Spec.csLen o.cs * M)) else none) ∧
      Spec.ContOK Ds T0 (T0 + ((Ds - 1) * s : ℕ) * eps) (eps * s) M (some (XI0, XI1)) { o1 with loc := .NEWTON } a Us csub := by
    by_cases hx : c1.isSome ∧ M ≠ 0
    · obtain ⟨cb, rfl⟩ := Option.isSome_iff_exists.mp hx.1
      obtain ⟨hr, v, hv⟩ := (hc1 cb rfl).resolve_left hx.2
      refine ⟨some (Buf.malloc (Spec.csLen o.cs * M)), ?_, by rw [if_pos hx], ?_⟩
      · have hn : richCs o.cs = some (Spec.csLen o.cs) := by
          have := hr.hcs
          cases hh : o.cs with
          | other k => exact absurd hh (this k)
          | _ => rfl
        unfold richContBuf
        rw [if_pos ⟨rfl, Nat.pos_of_ne_zero hx.2⟩]
        dsimp only [m]
        rw [hcs1, hn]
      · intro cb' hcb'
        cases hcb'
        refine Or.inr ⟨XI0, XI1, rfl, ⟨hr.hM, hr.hXI, ?_, ?_, ?_⟩, ?_⟩
        · exact lt_of_le_of_lt (Nat.add_le_add_right (Nat.mul_le_mul_right _ (Nat.mul_le_mul_right _ s1.2.2.1)) M) hr.hsz
        · show ∀ n, o1.cs ≠ .other n
          rw [hcs1]; exact hr.hcs
        · show Spec.csLen o1.cs * M ≤ _
          rw [hcs1]; exact le_rfl
        · show o1.cs = .AB ∨ _
          rw [hcs1]; exact hasC hx
    · refine ⟨none, ?_, by rw [if_neg hx], fun cb hcb => by cases hcb⟩
      unfold richContBuf
      rw [if_neg]
      rintro ⟨k1, k2⟩
      exact hx ⟨k1, by omega⟩
  obtain ⟨bc, hbc1, hbc2, hbc3⟩ : ∃ bc, bsCopy K1 bs1 (Buf.malloc K1) = some bc ∧ bc.len = K1 ∧ bc.Holds 0 K1 lam := by
    obtain ⟨bc, b1, b2, b3⟩ := fill_spec (off := 0) (cnt := K1) (b := (Buf.malloc K1 : Buf ℂ)) (f := fun i => bs1.rd i) lam
      (fun i _ hi => by simpa using hlam i (by omega)) (Or.inl (by simp))
    exact ⟨bc, b1, by rw [b2]; rfl, fun i hi => by rw [Nat.zero_add, b3, if_pos (by omega)]⟩
  obtain ⟨n, hn, hn2⟩ : ∃ n, richDs o1.ds = some n ∧ n = Spec.dsLen o1.ds := by
    cases hh : o1.ds with
    | other k => exact absurd hh (hds1 k)
    | RESIDUES => exact absurd hh hres1
    | _ => exact ⟨_, rfl, rfl⟩
  subst hn2
  have hT1s : T0 + ((0 : ℕ) : ℝ) * eps = T0 := by simp
  have hrun : run = (nsev_base roots (Ds * akns_upsampling_factor a) qps rps T0 (T0 + ((Ds - 1) * s : ℕ) * eps) M (some (XI0, XI1)) 1
        { o1 with loc := .NEWTON } g ⟨csub, some K1, some bc, some (Buf.malloc (Spec.dsLen o1.ds * K1))⟩).bind fun R =>
        if R.1 ≠ SUCCESS then some (chk R.1, { m with opts := { o1 with loc := .NEWTON } }) else
        (richCont M ((s : ℝ) ^ akns_method_order a) (eps * s) (some (XI0, XI1)) R.2.contspec ⟨⟨c1, some K1, some bs1, nc1⟩, o, rv⟩).bind fun m => R.2.K.bind fun Ksub =>
            (richDisc 1 Ksub ((s : ℝ) ^ akns_method_order a) eps o.ds R.2.bs R.2.nc m).bind fun m => some (SUCCESS, m) := by
    show nsevRich _ _ _ _ _ _ _ _ _ _ _ = _
    unfold nsevRich
    have e2 : richDiscBuf 1 m = some (.ok (K1, some bc, some (Buf.malloc (Spec.dsLen o1.ds * K1)))) := by
      unfold richDiscBuf
      dsimp only [m]
      rw [if_pos ⟨rfl, by simpa using hK1⟩]
      simp only [hn, hbc1, Option.bind_eq_bind, Option.bind_some, Option.pure_def]
    rw [hcsub]
    dsimp only
    rw [e2]
    simp only [Option.bind_eq_bind, Option.bind_some, Option.pure_def]
    dsimp only [m]
    rw [hord, if_neg hord0, hd1, show nse_preprocess_signal D (some q) eps 1 (D / 2) o.disc = _ from s2]
    simp only [Option.bind_some]
    rw [← hd1, hup]
    have e3 : (T0 + ((Ds - 1) * s : ℕ) * eps - (T0 + ((0 : ℕ) : ℝ) * eps)) / ((Ds : ℝ) - 1) = eps * s := by
      have := (s4 o rfl).heps
      rw [this]
      simp
      rfl
    have e4 : (eps * s / eps : ℝ) = s := by
      rw [mul_div_assoc, mul_comm, div_mul_cancel₀ _ (ne_of_gt heps)]
    rw [e3, e4, hT1s]
    have e5 : ¬ ((s : ℝ) ^ akns_method_order a = 1) := by
      have hs2' : (1 : ℝ) < s := by exact_mod_cast (by omega : 1 < s)
      exact ne_of_gt (one_lt_pow₀ hs2' hord0)
    simp only [e5, if_false, ho1]
  have hXI : csub.isSome → ∃ X, some (XI0, XI1) = some X ∧ X.1 < X.2 := by
    intro hx
    obtain ⟨cb, rfl⟩ := Option.isSome_iff_exists.mp hx
    rcases hcok cb rfl with h0 | ⟨X0, X1, e1, hr, -⟩
    · rw [if_neg (by tauto)] at hcsub2
      cases hcsub2
    · exact ⟨_, e1, hr.hXI⟩
  obtain ⟨c', e1, e2⟩ := baseCont_any (s := ⟨csub, some K1, some bc, some (Buf.malloc (Spec.dsLen o1.ds * K1))⟩) hB2 u1 hcok
  obtain ⟨w, cand, fail, code, K', bs', f1, f2, f3, f4, f5, f6⟩ :=
    boundstates_newton hB2 (show Spec.FiltOK { o1 with loc := .NEWTON } by rw [← ho1] at hf; exact hf) rfl roots deg tm g hbc3
  have hbase : nsev_base roots (Ds * akns_upsampling_factor a) qps rps T0 (T0 + ((Ds - 1) * s : ℕ) * eps) M (some (XI0, XI1)) 1
        { o1 with loc := .NEWTON } g ⟨csub, some K1, some bc, some (Buf.malloc (Spec.dsLen o1.ds * K1))⟩ =
      baseDisc roots (Ds * akns_upsampling_factor a) qps rps T0 (T0 + ((Ds - 1) * s : ℕ) * eps) (eps * s) 1 { o1 with loc := .NEWTON } g deg tm
        ⟨c', some K1, some bc, some (Buf.malloc (Spec.dsLen o1.ds * K1))⟩ := by
    rw [u2 roots M (some (XI0, XI1)) g ⟨csub, some K1, some bc, some (Buf.malloc (Spec.dsLen o1.ds * K1))⟩ hXI (fun _ => by simp)]
    rw [show baseCont (Ds * akns_upsampling_factor a) qps rps T0 (T0 + ((Ds - 1) * s : ℕ) * ((T1 - T0) / (D - 1))) M _ 1 _ deg W tm _ = _ from e1]
    simp only [Option.bind_eq_bind, Option.bind_some, ne_eq, not_true_eq_false, if_false]
    rfl
  have hoo : ∀ {P : NsevOpts → Prop}, P { o1 with ds := o.ds } → P o := fun hp => by rw [ho1] at hp; exact hp
  have hbox : Spec.bsBoxOf o a (Ds * akns_upsampling_factor a) T0 (T0 + ((Ds - 1) * s : ℕ) * eps) (eps * s) qs =
      Spec.bsBoxOf { o1 with loc := .NEWTON } a (Ds * akns_upsampling_factor a) T0 (T0 + ((Ds - 1) * s : ℕ) * eps) (eps * s) qs := by
    rw [← ho1]; rfl
  have htol : o.tol = o1.tol := by rw [← ho1]
  have hnit : o.niter = o1.niter := by rw [← ho1]
  have hnrm : o.nrm = o1.nrm := by rw [← ho1]
  have hfilt : o.filt = o1.filt := by rw [← ho1]
  rw [hbox, htol, hnit, hnrm]
  refine ⟨w, cand, fail, f1, f2, fun hfail => ?_, fun hfail => ?_⟩
  · obtain ⟨k1, k2, k3⟩ := f6 hfail
    rw [k1, k2] at f3
    rw [hrun, hbase]
    unfold baseDisc
    simp only [if_true, Option.bind_eq_bind, Option.bind_some]
    rw [f3]
    simp only [Option.bind_some]
    rw [if_pos (by decide)]
    simp only [Option.pure_def, Option.bind_some]
    rw [if_pos (by decide)]
    rfl
  · obtain ⟨k1, out, k2, k3⟩ := f5 hfail
    have hlen : out.length ≤ K1 := by
      by_cases hN : o1.filt = .NONE
      · rw [k2.1 hN]; simp
      · obtain ⟨S, g1, g2, g3, g4, rfl⟩ := k2.2 hN
        rw [List.length_map]
        have hnd : S.Nodup := g1.imp (fun h => ne_of_lt h)
        have : S.toFinset ⊆ Finset.range K1 := fun j hj => Finset.mem_range.mpr (g2 j (List.mem_toFinset.mp hj)).1
        have := Finset.card_le_card this
        rwa [List.toFinset_card_of_nodup hnd, Finset.card_range] at this
    refine ⟨out, ?_, hlen, fun hnb => ?_⟩
    · unfold Spec.Filtered at k2 ⊢
      rw [hfilt]; exact k2
    · rw [k1] at f3
      have hK' : K' = out.length := by rw [k3.1]; omega
      subst hK'
      obtain ⟨K', bsub, d1, d2, d3⟩ := baseDisc_finish hB2 g (s := ⟨c', some K1, some bc, some (Buf.malloc (Spec.dsLen o1.ds * K1))⟩) rfl rfl
        (fun n hn => by cases hn; exact ⟨by simp, hds1⟩) f3 k3
      have hK' : K' = out.length := by rw [d1.1]; omega
      subst hK'
      obtain ⟨code, ncsub, b, g1, g2, g3, g4, g5, g6⟩ := d3 _ rfl fun i hi hno => absurd hno (hnb i hi)
      have hnone : ∀ i, (Buf.malloc (Spec.dsLen o1.ds * K1) : Buf ℂ).rd i = none := fun i => by
        unfold Buf.rd Buf.malloc; split_ifs <;> rfl
      refine ⟨b, fun i hi => by have := g4 i hi; rwa [hnone] at this, fun hw hz => ?_, fun hz => ?_⟩
      · have hcode := g6 (show o1.ds ≠ .NORMING_CONSTANTS by rw [hw]; decide) hz
        dsimp only at g1
        rw [hrun, hbase, g1, hcode]
        simp only [Option.bind_some]
        rw [if_pos (by decide)]
        rfl
      · obtain ⟨hcode, hvals⟩ := g5 (by
          by_cases hb : o1.ds = .BOTH
          · exact Or.inr (hz hb)
          · left
            show o1.ds = _
            cases hh : o1.ds with
            | other k => exact absurd hh (hds1 k)
            | RESIDUES => exact absurd hh hres1
            | BOTH => exact absurd hh hb
            | NORMING_CONSTANTS => rfl)
        dsimp only at g1
        rw [hcode] at g1
        -- the continuous spectrum
        obtain ⟨c2, hc2, hrc⟩ : ∃ c2, richCont M ((s : ℝ) ^ akns_method_order a) (eps * s) (some (XI0, XI1)) c' ⟨⟨c1, some K1, some bs1, nc1⟩, o, rv⟩ =
            some ⟨⟨c2, some K1, some bs1, nc1⟩, o, rv⟩ ∧ Spec.ContRich s (akns_method_order a) eps M XI0 XI1 o.cs
              (Spec.gridA a (Ds * akns_upsampling_factor a) T0 (T0 + ((Ds - 1) * s : ℕ) * eps) (eps * s) XI0 XI1 M Us)
              (Spec.gridB a (Ds * akns_upsampling_factor a) T0 (T0 + ((Ds - 1) * s : ℕ) * eps) (eps * s) XI0 XI1 M Us) c1 c2 := by
          by_cases hx : c1.isSome ∧ M ≠ 0
          · obtain ⟨cb, rfl⟩ := Option.isSome_iff_exists.mp hx.1
            obtain ⟨hr, v, hv⟩ := (hc1 cb rfl).resolve_left hx.2
            rw [if_pos hx] at hcsub2
            obtain ⟨X0, X1, cb', y1, y2, y3⟩ := e2.2 _ hcsub2 hx.2
            injection y1 with y1
            injection y1 with y1 y4
            subst y1 y4 y2
            have y5 := y3.vals
            rw [show ({ o1 with loc := .NEWTON } : NsevOpts).cs = o.cs from hcs1] at y5
            have hM0 : 0 < M := Nat.pos_of_ne_zero hx.2
            obtain ⟨c3, g1, g2, g3, g4⟩ := richContBody_ok (scl := (s : ℝ) ^ akns_method_order a) (eps_sub := eps * s) (XI0 := XI0)
              (dxi := (XI1 - XI0) / ((M : ℝ) - 1)) hM0 hv y5
            refine ⟨some c3, ?_, fun hh => ?_, fun cb' hcb _ => ?_⟩
            · have hn : richCs o.cs = some (Spec.csLen o.cs) := by
                have := hr.hcs
                cases hh : o.cs with
                | other k => exact absurd hh (this k)
                | _ => rfl
              unfold richCont
              dsimp only
              rw [if_neg hx.2, if_neg (by have := hr.hM; omega), hn]
              dsimp only
              rw [g1]
              rfl
            · rcases hh with hh | hh
              · cases hh
              · exact absurd hh hx.2
            · cases hcb
              refine ⟨c3, rfl, g2, g3, fun j u hj hu => ?_⟩
              have := g4 j hj
              rw [Nat.zero_add] at this
              rw [this]
              have hvu : v j = u := by
                have := hv j hj
                rw [Nat.zero_add, hu] at this
                injection this with this
                exact this.symm
              rw [show Spec.grid XI0 XI1 M (j % M) = XI0 + (XI1 - XI0) / ((M : ℝ) - 1) * (j % M : ℕ) by unfold Spec.grid; ring, ← hvu]
              congr 1
              refine if_congr Iff.rfl ?_ rfl
              rw [richStep_eq]
          · refine ⟨c1, ?_, fun _ => rfl, fun cb hcb hM => absurd ⟨by rw [hcb]; rfl, hM⟩ hx⟩
            rw [if_neg hx] at hcsub2
            have := e2.1 (Or.inl hcsub2)
            dsimp only at this
            rw [this, hcsub2]
            unfold richCont
            cases c1 <;> rfl
        refine ⟨c2, bsub, ncsub, take_holds d1, hvals, hrc, ?_⟩
        rw [hrun, hbase, g1]
        simp only [Option.bind_some, ne_eq, not_true_eq_false, if_false, hc2]


theorem nsev_base_rich (roots : RootFinder) (D : ℕ) (q r : Buf ℂ) (T0 T1 : ℝ) (M : ℕ) (XI : Option (ℝ × ℝ)) (kappa : ℤ) (o : NsevOpts) (g : Garbage) (s : NsevSt) (n : ℤ)
    (l : BsLoc) : nsev_base roots D q r T0 T1 M XI kappa { o with rich := n, loc := l } g s = nsev_base roots D q r T0 T1 M XI kappa { o with loc := l } g s := rfl

/-- The call of the base routine with the array `normconsts_or_residues`. -/
theorem callBase_none {roots : RootFinder} {D : ℕ} {qr : Buf ℂ × Buf ℂ} {T : ℝ × ℝ} {M : ℕ} {XI : Option (ℝ × ℝ)} {kappa : ℤ} {g : Garbage} {u : Bool} {s : NsevSt} {o : NsevOpts} :
    nsevCallBase roots D qr T M XI kappa g u ⟨s, o, none⟩ = (nsev_base roots D qr.1 qr.2 T.1 T.2 M XI kappa o g s).bind fun R => some (chk R.1, ⟨R.2, o, none⟩) := by
  unfold nsevCallBase
  cases u <;> rfl

/-- The first approximation does not depend on the flag for the extrapolation. -/
theorem first_rich {roots : RootFinder} {D : ℕ} {q : Buf ℂ} {qr : Buf ℂ × Buf ℂ} {T : ℝ × ℝ} {eps : ℝ} {M : ℕ} {XI : Option (ℝ × ℝ)} {kappa : ℤ} {g : ℕ → Garbage} {s : NsevSt}
    {o : NsevOpts} {F : ℤ × NsevMain} (h : nsevFirst roots D q qr T eps M XI kappa g ⟨s, { o with rich := 0 }, none⟩ = some F) (hF : F.1 = SUCCESS)
    (hP : ∀ n P, nse_preprocess_signal D (some q) eps kappa n o.disc = some P → ∃ a b, P.out = some a ∧ P.first_last = some b) :
    nsevFirst roots D q qr T eps M XI kappa g ⟨s, o, none⟩ = some (SUCCESS, ⟨F.2.st, o, none⟩) := by
  unfold nsevFirst at h ⊢
  dsimp only at h ⊢
  by_cases hm : kappa = 1 ∧ s.bs.isSome ∧ o.loc = .SUBSAMPLE_AND_REFINE
  · rw [if_pos hm] at h ⊢
    unfold nsevMixed at h ⊢
    dsimp only at h ⊢
    simp only [Option.bind_eq_bind, Option.bind_eq_some_iff] at h
    obtain ⟨Ds, h1, P, h2, h3⟩ := h
    simp only [h1, h2, Option.bind_eq_bind, Option.bind_some]
    split at h3
    · rename_i qrs fl e1 e2
      obtain ⟨R, h4, h5⟩ := Option.bind_eq_some_iff.mp h3
      rw [nsev_base_rich] at h4
      simp only [h4, Option.bind_some]
      by_cases hR : R.1 = SUCCESS
      · rw [if_neg (not_not.mpr hR)] at h5 ⊢
        obtain ⟨S, h6, h7⟩ := Option.bind_eq_some_iff.mp h5
        rw [callBase_none] at h6 ⊢
        obtain ⟨R2, h8, h9⟩ := Option.bind_eq_some_iff.mp h6
        rw [nsev_base_rich] at h8
        simp only [h8, Option.bind_some]
        injection h9 with h9
        subst h9
        dsimp only at h7
        by_cases hS : chk R2.1 = SUCCESS
        · rw [if_neg (not_not.mpr hS)] at h7
          injection h7 with h7
          subst h7
          rw [if_neg (not_not.mpr hS), ← hm.2.2]
          rfl
        · rw [if_pos hS] at h7
          injection h7 with h7
          subst h7
          exact absurd hF hS
      · rw [if_pos hR] at h5
        injection h5 with h5
        subst h5
        unfold chk at hF
        rw [if_neg hR] at hF
        exact absurd hF (E_SUBROUTINE_ne hR)
    · rename_i hno
      obtain ⟨a, b, e1, e2⟩ := hP _ _ h2
      exact absurd e2 (hno a b e1)
  · rw [if_neg hm] at h ⊢
    rw [callBase_none] at h ⊢
    obtain ⟨R, h8, h9⟩ := Option.bind_eq_some_iff.mp h
    rw [show nsev_base roots (D * nse_upsampling_factor o.disc) qr.1 qr.2 T.1 T.2 M XI kappa { o with rich := 0 } (g 1) s =
      nsev_base roots (D * nse_upsampling_factor o.disc) qr.1 qr.2 T.1 T.2 M XI kappa o (g 1) s from rfl] at h8
    rw [h8]
    injection h9 with h9
    subst h9
    simp only [Option.bind_some]
    rw [show chk R.1 = SUCCESS from hF]

/-- The first approximation with the array `normconsts_or_residues_reserve`. -/
theorem first_resv {roots : RootFinder} {D : ℕ} {q : Buf ℂ} {qr : Buf ℂ × Buf ℂ} {T : ℝ × ℝ} {eps : ℝ} {M : ℕ} {XI : Option (ℝ × ℝ)} {kappa : ℤ} {g : ℕ → Garbage}
    {c bs nc : Option (Buf ℂ)} {K : Option ℕ} {rv : Buf ℂ} {o : NsevOpts} (hm : kappa = 1 ∧ bs.isSome ∧ o.loc = .SUBSAMPLE_AND_REFINE)
    {F : ℤ × NsevMain} (h : nsevFirst roots D q qr T eps M XI kappa g ⟨⟨c, K, bs, some rv⟩, { o with rich := 0 }, none⟩ = some F) (hF : F.1 = SUCCESS)
    (hP : ∀ n P, nse_preprocess_signal D (some q) eps kappa n o.disc = some P → ∃ a b, P.out = some a ∧ P.first_last = some b) :
    nsevFirst roots D q qr T eps M XI kappa g ⟨⟨c, K, bs, nc⟩, o, some rv⟩ = some (SUCCESS, ⟨{ F.2.st with nc := nc }, o, F.2.st.nc⟩) := by
  unfold nsevFirst at h ⊢
  dsimp only at h ⊢
  rw [if_pos hm] at h ⊢
  unfold nsevMixed at h ⊢
  dsimp only at h ⊢
  simp only [Option.bind_eq_bind, Option.bind_eq_some_iff] at h
  obtain ⟨Ds, h1, P, h2, h3⟩ := h
  simp only [h1, h2, Option.bind_eq_bind, Option.bind_some]
  split at h3
  · rename_i qrs fl e1 e2
    obtain ⟨R, h4, h5⟩ := Option.bind_eq_some_iff.mp h3
    rw [nsev_base_rich] at h4
    simp only [h4, Option.bind_some]
    by_cases hR : R.1 = SUCCESS
    · rw [if_neg (not_not.mpr hR)] at h5 ⊢
      obtain ⟨S, h6, h7⟩ := Option.bind_eq_some_iff.mp h5
      rw [callBase_none] at h6
      obtain ⟨R2, h8, h9⟩ := Option.bind_eq_some_iff.mp h6
      rw [nsev_base_rich] at h8
      unfold nsevCallBase
      dsimp only
      simp only [h8, Option.bind_eq_bind, Option.bind_some, Option.pure_def]
      injection h9 with h9
      subst h9
      dsimp only at h7
      by_cases hS : chk R2.1 = SUCCESS
      · rw [if_neg (not_not.mpr hS)] at h7
        injection h7 with h7
        subst h7
        rw [if_neg (not_not.mpr hS), ← hm.2.2]
      · rw [if_pos hS] at h7
        injection h7 with h7
        subst h7
        exact absurd hF hS
    · rw [if_pos hR] at h5
      injection h5 with h5
      subst h5
      unfold chk at hF
      rw [if_neg hR] at hF
      exact absurd hF (E_SUBROUTINE_ne hR)
  · rename_i hno
    obtain ⟨a, b, e1, e2⟩ := hP _ _ h2
    exact absurd e2 (hno a b e1)

theorem pre_some (h : Spec.NsevArgs D q x T0 T1 1 o a) (n : ℕ) (P : PreRes) (hP : nse_preprocess_signal D (some q) ((T1 - T0) / (D - 1)) 1 n o.disc = some P) :
    ∃ a b, P.out = some a ∧ P.first_last = some b := by
  obtain ⟨Ds, s, qps, rps, qs, rs, s1, s2, s3, s4⟩ := nsev_pre_sub h n (fun _ hk => by norm_num at hk)
  rw [s2] at hP
  cases hP
  exact ⟨_, _, rfl, rfl⟩

/-- From the call without extrapolation to the one with extrapolation. -/
theorem run_of_first (h : Spec.NsevArgs D q x T0 T1 1 o a) (hrich : o.rich = 1) (hds : o.ds ≠ .RESIDUES) {XI : Option (ℝ × ℝ)} {st s1 : NsevSt} {o' : NsevOpts}
    (hr : Spec.NsevReq 1 o XI st) {roots : RootFinder} {g : ℕ → Garbage} {M : ℕ}
    (h1 : fnft_nsev roots D (some q) (some (T0, T1)) M XI 1 { o with rich := 0 } g st = some (SUCCESS, s1, o')) :
    fnft_nsev roots D (some q) (some (T0, T1)) M XI 1 o g st =
      (nsevRich roots D q (T0, T1) ((T1 - T0) / (D - 1)) M XI 1 (g 2) o.ds ⟨s1, o, none⟩).bind fun R => some (R.1, R.2.st, R.2.opts) := by
  have h0 : Spec.NsevArgs D q x T0 T1 1 { o with rich := 0 } a := ⟨h.hd, h.hD, h.hCF, h.hsize, h.hq, h.hT, h.hk, h.hal⟩
  have hr0 : Spec.NsevReq 1 { o with rich := 0 } XI st := ⟨hr.hXI, hr.hK, hr.hloc⟩
  have hpre : nse_preprocess_signal D (some q) ((T1 - T0) / (D - 1)) 1 D o.disc ≠ none := by
    obtain ⟨Ds, s, qps, rps, qs, rs, s1, s2, s3, s4⟩ := nsev_pre_sub h D (fun _ hk => by norm_num at hk)
    rw [s2]; simp
  obtain ⟨P, hP⟩ := Option.ne_none_iff_exists'.mp hpre
  obtain ⟨qr, fl, hP1, -⟩ := pre_some h D P hP
  have hup0 : nse_upsampling_factor o.disc ≠ 0 := by
    rw [nse_upsampling_factor, h.hd]; exact ((C32_nse_names o.disc).1 a h.hd).2
  unfold fnft_nsev at h1 ⊢
  rw [if_neg (nsev_not_reject h0 hr0), if_neg hup0] at h1
  rw [if_neg (nsev_not_reject h hr), if_neg hup0]
  have e1 : nsevReserve ⟨st, { o with rich := 0 }, none⟩ = some ⟨st, { o with rich := 0 }, none⟩ := by
    unfold nsevReserve
    rw [if_neg]
    rintro ⟨hc, -⟩
    exact absurd hc (by norm_num)
  have e2 : nsevReserve ⟨st, o, none⟩ = some ⟨st, o, none⟩ := by
    unfold nsevReserve
    rw [if_neg (by tauto)]
  simp only [Option.bind_eq_bind, Option.bind_some, e1, e2, hP, hP1] at h1 ⊢
  obtain ⟨F, hF, hF2⟩ := Option.bind_eq_some_iff.mp h1
  have hFs : F.1 = SUCCESS := by
    by_contra hne
    rw [if_pos hne] at hF2
    injection hF2 with hF2
    injection hF2 with hF2
    exact hne hF2
  rw [if_neg (not_not.mpr hFs)] at hF2
  rw [first_rich hF hFs (fun n P hp => pre_some h n P hp)]
  have hst : F.2.st = s1 := by
    have hro : F.2.opts.rich ≠ 1 := by
      rw [nsevFirst_opts hF hFs]
      norm_num
    unfold nsevRichIf at hF2
    rw [if_neg hro] at hF2
    injection hF2 with hF2
    injection hF2 with _ hF2
    injection hF2 with hF2
  rw [hst]
  simp only [Option.bind_some, ne_eq, not_true_eq_false, if_false]
  unfold nsevRichIf
  rw [if_pos hrich]
  rfl

/-- The extrapolation with residues: the calls that it makes. -/
theorem run_of_first_res (h : Spec.NsevArgs D q x T0 T1 1 o a) (hrich : o.rich = 1) (hds : o.ds = .RESIDUES) {XI : Option (ℝ × ℝ)} {c bs nc : Option (Buf ℂ)} {K0 : ℕ}
    (hr : Spec.NsevReq 1 o XI ⟨c, some K0, bs, nc⟩) {roots : RootFinder} {g : ℕ → Garbage} {M : ℕ} :
    ∃ qr, nse_preprocess_signal D (some q) ((T1 - T0) / (D - 1)) 1 D o.disc = some qr ∧ ∃ P, qr.out = some P ∧
    (∀ st, Spec.NsevReq 1 o XI st → fnft_nsev roots D (some q) (some (T0, T1)) M XI 1 { o with ds := .BOTH, rich := 0 } g st =
      (nsevFirst roots D q P (T0, T1) ((T1 - T0) / (D - 1)) M XI 1 g ⟨st, { o with ds := .BOTH, rich := 0 }, none⟩).bind fun F => some (F.1, F.2.st, F.2.opts)) ∧
    fnft_nsev roots D (some q) (some (T0, T1)) M XI 1 o g ⟨c, some K0, bs, nc⟩ =
      (nsevFirst roots D q P (T0, T1) ((T1 - T0) / (D - 1)) M XI 1 g ⟨⟨c, some K0, bs, nc⟩, { o with ds := .BOTH }, some (Buf.malloc (K0 * 2))⟩).bind fun F =>
        if F.1 ≠ SUCCESS then some (F.1, F.2.st, F.2.opts) else
        (nsevRich roots D q (T0, T1) ((T1 - T0) / (D - 1)) M XI 1 (g 2) o.ds F.2).bind fun R => some (R.1, R.2.st, R.2.opts) := by
  have h0 : Spec.NsevArgs D q x T0 T1 1 { o with ds := .BOTH, rich := 0 } a := ⟨h.hd, h.hD, h.hCF, h.hsize, h.hq, h.hT, h.hk, h.hal⟩
  have hpre : nse_preprocess_signal D (some q) ((T1 - T0) / (D - 1)) 1 D o.disc ≠ none := by
    obtain ⟨Ds, s, qps, rps, qs, rs, s1, s2, s3, s4⟩ := nsev_pre_sub h D (fun _ hk => by norm_num at hk)
    rw [s2]; simp
  obtain ⟨P, hP⟩ := Option.ne_none_iff_exists'.mp hpre
  obtain ⟨qr, fl, hP1, -⟩ := pre_some h D P hP
  have hup0 : nse_upsampling_factor o.disc ≠ 0 := by
    rw [nse_upsampling_factor, h.hd]; exact ((C32_nse_names o.disc).1 a h.hd).2
  refine ⟨P, hP, qr, hP1, fun st hst => ?_, ?_⟩
  · have hr0 : Spec.NsevReq 1 { o with ds := .BOTH, rich := 0 } XI st := ⟨hst.hXI, hst.hK, hst.hloc⟩
    unfold fnft_nsev
    rw [if_neg (nsev_not_reject h0 hr0), if_neg hup0]
    have e1 : nsevReserve ⟨st, { o with ds := .BOTH, rich := 0 }, none⟩ = some ⟨st, { o with ds := .BOTH, rich := 0 }, none⟩ := by
      unfold nsevReserve
      rw [if_neg]
      rintro ⟨hc, -⟩
      exact absurd hc (by norm_num)
    simp only [Option.bind_eq_bind, Option.bind_some, e1, hP, hP1]
    rcases hF : nsevFirst roots D q qr (T0, T1) ((T1 - T0) / (D - 1)) M XI 1 g ⟨st, { o with ds := .BOTH, rich := 0 }, none⟩ with _ | F
    · rfl
    · simp only [Option.bind_some]
      split_ifs with hs
      · rfl
      · unfold nsevRichIf
        rw [if_neg (by rw [nsevFirst_opts hF (not_not.mp hs)]; norm_num)]
        have : F.1 = SUCCESS := not_not.mp hs
        simp [this]
  · unfold fnft_nsev
    rw [if_neg (nsev_not_reject h hr), if_neg hup0]
    have e2 : nsevReserve ⟨⟨c, some K0, bs, nc⟩, o, none⟩ = some ⟨⟨c, some K0, bs, nc⟩, { o with ds := .BOTH }, some (Buf.malloc (K0 * 2))⟩ := by
      unfold nsevReserve
      rw [if_pos ⟨hrich, hds⟩]
      rfl
    simp only [Option.bind_eq_bind, Option.bind_some, e2, hP, hP1]
    rcases hF : nsevFirst roots D q qr (T0, T1) ((T1 - T0) / (D - 1)) M XI 1 g ⟨⟨c, some K0, bs, nc⟩, { o with ds := .BOTH }, some (Buf.malloc (K0 * 2))⟩ with _ | F
    · rfl
    · simp only [Option.bind_some]
      split_ifs with hs
      · rfl
      · unfold nsevRichIf
        rw [if_pos (by rw [nsevFirst_opts hF (not_not.mp hs)]; exact hrich)]
        rfl

/-! ### The theorems -/

/-- Norming constants: the bound states are extrapolated. -/
theorem C73_norming_constants (h : Spec.NsevArgs D q x T0 T1 1 o a) (hD : 3 ≤ D) (hf : Spec.FiltOK o) (hrich : o.rich = 1) (hds : o.ds = .NORMING_CONSTANTS) {M : ℕ} {XI0 XI1 : ℝ}
    {st : NsevSt} (hr : Spec.NsevReq 1 o (some (XI0, XI1)) st) {roots : RootFinder} {g : ℕ → Garbage} {c1 : Option (Buf ℂ)} {K1 : ℕ} {bs1 : Buf ℂ} {nc1 : Option (Buf ℂ)} {o' : NsevOpts}
    (h1 : fnft_nsev roots D (some q) (some (T0, T1)) M (some (XI0, XI1)) 1 { o with rich := 0 } g st = some (SUCCESS, ⟨c1, some K1, some bs1, nc1⟩, o'))
    (hc1 : Spec.ContFilled D M XI0 XI1 o a c1) (hK1 : K1 ≠ 0) {lam : ℕ → ℂ} (hlam : bs1.Holds 0 K1 lam) :
    let run := fnft_nsev roots D (some q) (some (T0, T1)) M (some (XI0, XI1)) 1 o g st
    let eps := (T1 - T0) / (D - 1)
    Spec.SecondApprox D T0 T1 M XI0 XI1 o a x (c1.isSome ∧ M ≠ 0) False K1 lam
      (run = some (E_SUBROUTINE EC_DIV_BY_ZERO, ⟨c1, some K1, some bs1, nc1⟩, { o with loc := .NEWTON }))
      fun s as bs Ks mu _ _ => ∃ loc c2 bs2, (∀ i, i < K1 → Spec.Matched eps (lam i) Ks mu (loc i)) ∧ Spec.ContRich s (akns_method_order a) eps M XI0 XI1 o.cs as bs c1 c2 ∧
        bs2.len = bs1.len ∧ bs2.Holds 0 K1 (Spec.extrapolated s (akns_method_order a) lam mu loc) ∧ run = some (SUCCESS, ⟨c2, some K1, some bs2, nc1⟩, o) := by
  intro run eps
  have hrun : run = _ := run_of_first h hrich (by rw [hds]; decide) hr h1
  have key := second_run h hD hf (o1 := o) rfl (fun n => by rw [hds]; simp) (by rw [hds]; decide) hc1 hK1 hlam nc1 none roots (g 2)
  refine Spec.SecondApprox.mono key Iff.rfl (by rw [hds]; simp) (fun he => ?_) ?_
  · rw [hrun, he]; rfl
  · rintro s as bs Ks mu b ap - ⟨c2, bsub, ncsub, k1, k2, k3, k4⟩
    obtain ⟨loc, hloc⟩ := rich_locs k1 eps lam
    have hnot : ¬ (o.ds = .RESIDUES ∨ o.ds = .BOTH) := by rw [hds]; simp
    by_cases hKs : Ks = 0
    · subst hKs
      refine ⟨loc, c2, bs1, fun i _ => (hloc i).1, k3, rfl, fun i hi => ?_, ?_⟩
      · have hn : loc i = none := by
          have := (hloc i).1
          cases hl : loc i with
          | none => rfl
          | some m => rw [hl] at this; exact absurd this.1 (by omega)
        unfold Spec.extrapolated
        rw [hn]
        exact hlam i hi
      · rw [hrun, k4]
        unfold richDisc
        dsimp only
        rw [if_neg (by simp)]
        rfl
    · obtain ⟨bs2, e1, e2, e3, e4⟩ := richLoop_bs (s := s) (p := akns_method_order a) (rv := nc1) (sub := ncsub) hnot hlam k1 hloc
      refine ⟨loc, c2, bs2, fun i _ => (hloc i).1, k3, e2, e4, ?_⟩
      rw [hrun, k4]
      unfold richDisc
      dsimp only
      rw [if_pos ⟨rfl, by simpa using hK1, hKs⟩]
      simp only [Option.isSome_none, Bool.false_eq_true, if_false, Option.bind_eq_bind, Option.bind_some]
      rw [show forLoop K1 (richBody K1 Ks ((s : ℝ) ^ akns_method_order a) ((T1 - T0) / (D - 1)) o.ds bsub) ⟨bs1, nc1, ncsub⟩ = _ from e1]
      simp only [Option.bind_some]
      rw [if_neg (by tauto), if_neg (by tauto)]
      rfl

/-- There is no division by zero. `ap i m`: value of `a'` at the partner `m` of bound state `i`. -/
def Spec.ResiduesOK (s p K : ℕ) (b r b2 : ℕ → ℂ) (ap : ℕ → ℕ → ℂ) (loc : ℕ → Option ℕ) : Prop :=
  ∀ i m, i < K → loc i = some m → r i ≠ 0 ∧ b2 m ≠ 0 ∧ Spec.richardson s p (b i / r i) (ap i m) ≠ 0

/-- No two bound states have the same partner. -/
def Spec.OwnPartner (K : ℕ) (loc : ℕ → Option ℕ) : Prop := ∀ i j m, i < K → j < K → loc i = some m → loc j = some m → i = j

theorem used_own {K : ℕ} {loc : ℕ → Option ℕ} (h : Spec.OwnPartner K loc) (b2 ap : ℕ → ℂ) {i m : ℕ} (hi : i < K) (hl : loc i = some m) : Spec.usedDeriv b2 ap loc i m = ap m := by
  unfold Spec.usedDeriv
  rw [oddBefore_inj fun i' hi' hc => absurd (h i' i m (by omega) hi hc hl) (by omega)]
  simp

theorem residuesOK_own {s p K : ℕ} {b r b2 ap : ℕ → ℂ} {loc : ℕ → Option ℕ} (h : Spec.OwnPartner K loc) (hr : Spec.ResiduesOK s p K b r b2 (fun _ => ap) loc) :
    Spec.ResiduesOK s p K b r b2 (Spec.usedDeriv b2 ap loc) loc := fun i m hi hl => by
  rw [used_own h b2 ap hi hl]
  exact hr i m hi hl

theorem extrapolatedResidue_own {s p K : ℕ} {b r b2 ap : ℕ → ℂ} {loc : ℕ → Option ℕ} (h : Spec.OwnPartner K loc) {i : ℕ} (hi : i < K) :
    Spec.extrapolatedResidue s p b r (Spec.usedDeriv b2 ap loc) loc i = Spec.extrapolatedResidue s p b r (fun _ => ap) loc i := by
  unfold Spec.extrapolatedResidue
  cases hl : loc i with
  | none => rfl
  | some m =>
    dsimp only
    rw [used_own h b2 ap hi hl]

/-- Norming constants and residues: the bound states and the residues are extrapolated, the norming constants are those of the first approximation. Finding: if several bound states have the
same partner, then the program uses the residue of the partner instead of `a'` for every second one (`usedDeriv`). -/
theorem C73_both_used (h : Spec.NsevArgs D q x T0 T1 1 o a) (hD : 3 ≤ D) (hf : Spec.FiltOK o) (hrich : o.rich = 1) (hds : o.ds = .BOTH) {M : ℕ} {XI0 XI1 : ℝ}
    {st : NsevSt} (hr : Spec.NsevReq 1 o (some (XI0, XI1)) st) {roots : RootFinder} {g : ℕ → Garbage} {c1 : Option (Buf ℂ)} {K1 : ℕ} {bs1 nc1 : Buf ℂ} {o' : NsevOpts}
    (h1 : fnft_nsev roots D (some q) (some (T0, T1)) M (some (XI0, XI1)) 1 { o with rich := 0 } g st = some (SUCCESS, ⟨c1, some K1, some bs1, some nc1⟩, o'))
    (hc1 : Spec.ContFilled D M XI0 XI1 o a c1) (hK1 : K1 ≠ 0) {lam b1 r1 : ℕ → ℂ} (hlam : bs1.Holds 0 K1 lam) (hb1 : nc1.Holds 0 K1 b1) (hr1 : nc1.Holds K1 K1 r1) :
    let run := fnft_nsev roots D (some q) (some (T0, T1)) M (some (XI0, XI1)) 1 o g st
    let eps := (T1 - T0) / (D - 1)
    Spec.SecondApprox D T0 T1 M XI0 XI1 o a x (c1.isSome ∧ M ≠ 0) True K1 lam
      (run = some (E_SUBROUTINE EC_DIV_BY_ZERO, ⟨c1, some K1, some bs1, some nc1⟩, { o with loc := .NEWTON }))
      fun s as bs Ks mu b ap => ∃ loc c2, (∀ i, i < K1 → Spec.Matched eps (lam i) Ks mu (loc i)) ∧ Spec.ContRich s (akns_method_order a) eps M XI0 XI1 o.cs as bs c1 c2 ∧
        (Spec.ResiduesOK s (akns_method_order a) K1 b1 r1 b (Spec.usedDeriv b ap loc) loc → ∃ bs2 nc2, bs2.len = bs1.len ∧ nc2.len = nc1.len ∧
          bs2.Holds 0 K1 (Spec.extrapolated s (akns_method_order a) lam mu loc) ∧ nc2.Holds 0 K1 b1 ∧ nc2.Holds K1 K1 (Spec.extrapolatedResidue s (akns_method_order a) b1 r1 (Spec.usedDeriv b ap loc) loc) ∧
          run = some (SUCCESS, ⟨c2, some K1, some bs2, some nc2⟩, o)) := by
  intro run eps
  have hrun : run = _ := run_of_first h hrich (by rw [hds]; decide) hr h1
  have key := second_run h hD hf (o1 := o) rfl (fun n => by rw [hds]; simp) (by rw [hds]; decide) hc1 hK1 hlam (some nc1) none roots (g 2)
  refine Spec.SecondApprox.mono key Iff.rfl (by rw [hds]; simp) (fun he => ?_) ?_
  · rw [hrun, he]; rfl
  · rintro s as bs Ks mu b ap hap ⟨c2, bsub, ncsub, k1, k2, k3, k4⟩
    obtain ⟨loc, hloc⟩ := rich_locs k1 eps lam
    refine ⟨loc, c2, fun i _ => (hloc i).1, k3, fun hres => ?_⟩
    by_cases hKs : Ks = 0
    · subst hKs
      have hn : ∀ i, loc i = none := fun i => by
        have := (hloc i).1
        cases hl : loc i with
        | none => rfl
        | some m => rw [hl] at this; exact absurd this.1 (by omega)
      refine ⟨bs1, nc1, rfl, rfl, fun i hi => ?_, hb1, fun i hi => ?_, ?_⟩
      · unfold Spec.extrapolated
        rw [hn]
        exact hlam i hi
      · unfold Spec.extrapolatedResidue
        rw [hn]
        exact hr1 i hi
      · rw [hrun, k4]
        unfold richDisc
        dsimp only
        rw [if_neg (by simp)]
        rfl
    · rw [hds] at k2
      obtain ⟨bs2, nc2, sub2, e1, e2, e3, e4, e5, e6, e7⟩ := richLoop_res (s := s) (p := akns_method_order a) (ds := o.ds) (Or.inr hds) hlam k1 (rv := nc1) (sub := ncsub) (b := b1) (r := r1) (b2 := b) (ap := ap)
        (fun i hi => ⟨by simpa using hb1 i hi, hr1 i hi⟩)
        (fun i hi => ⟨by
          have := k2 i (by simp only [Spec.dsLen]; omega)
          rw [Nat.zero_add] at this
          rw [this]
          simp only [Spec.dsOut, if_pos hi], by
          have := k2 (Ks + i) (by simp only [Spec.dsLen]; omega)
          rw [Nat.zero_add] at this
          rw [this]
          simp only [Spec.dsOut, if_neg (show ¬ Ks + i < Ks by omega), Nat.add_sub_cancel_left]⟩)
        hloc (fun i m hi hl => by
          obtain ⟨q1, q2, q3⟩ := hres i m hi hl
          have := (hloc i).1
          rw [hl] at this
          exact ⟨q1, q2, hap hds m this.1, q3⟩)
      refine ⟨bs2, nc2, e2, e5, e4, fun i hi => ?_, e7, ?_⟩
      · rw [e6 _ (by omega)]
        exact hb1 i hi
      · rw [hrun, k4]
        unfold richDisc
        dsimp only
        rw [if_pos ⟨rfl, by simpa using hK1, hKs⟩]
        simp only [Option.isSome_none, Bool.false_eq_true, if_false, Option.bind_eq_bind, Option.bind_some]
        rw [show forLoop K1 (richBody K1 Ks ((s : ℝ) ^ akns_method_order a) ((T1 - T0) / (D - 1)) o.ds bsub) ⟨bs1, some nc1, ncsub⟩ = _ from e1]
        simp only [Option.bind_some]
        rw [if_neg (by rw [hds]; decide), if_pos hds]
        rfl

/-- Norming constants and residues: the bound states and the residues are extrapolated, the norming constants are those of the first approximation. -/
theorem C73_both (h : Spec.NsevArgs D q x T0 T1 1 o a) (hD : 3 ≤ D) (hf : Spec.FiltOK o) (hrich : o.rich = 1) (hds : o.ds = .BOTH) {M : ℕ} {XI0 XI1 : ℝ}
    {st : NsevSt} (hr : Spec.NsevReq 1 o (some (XI0, XI1)) st) {roots : RootFinder} {g : ℕ → Garbage} {c1 : Option (Buf ℂ)} {K1 : ℕ} {bs1 nc1 : Buf ℂ} {o' : NsevOpts}
    (h1 : fnft_nsev roots D (some q) (some (T0, T1)) M (some (XI0, XI1)) 1 { o with rich := 0 } g st = some (SUCCESS, ⟨c1, some K1, some bs1, some nc1⟩, o'))
    (hc1 : Spec.ContFilled D M XI0 XI1 o a c1) (hK1 : K1 ≠ 0) {lam b1 r1 : ℕ → ℂ} (hlam : bs1.Holds 0 K1 lam) (hb1 : nc1.Holds 0 K1 b1) (hr1 : nc1.Holds K1 K1 r1) :
    let run := fnft_nsev roots D (some q) (some (T0, T1)) M (some (XI0, XI1)) 1 o g st
    let eps := (T1 - T0) / (D - 1)
    Spec.SecondApprox D T0 T1 M XI0 XI1 o a x (c1.isSome ∧ M ≠ 0) True K1 lam
      (run = some (E_SUBROUTINE EC_DIV_BY_ZERO, ⟨c1, some K1, some bs1, some nc1⟩, { o with loc := .NEWTON }))
      fun s as bs Ks mu b ap => ∃ loc c2, (∀ i, i < K1 → Spec.Matched eps (lam i) Ks mu (loc i)) ∧ Spec.ContRich s (akns_method_order a) eps M XI0 XI1 o.cs as bs c1 c2 ∧
        (Spec.OwnPartner K1 loc → Spec.ResiduesOK s (akns_method_order a) K1 b1 r1 b (fun _ => ap) loc → ∃ bs2 nc2, bs2.len = bs1.len ∧ nc2.len = nc1.len ∧
          bs2.Holds 0 K1 (Spec.extrapolated s (akns_method_order a) lam mu loc) ∧ nc2.Holds 0 K1 b1 ∧ nc2.Holds K1 K1 (Spec.extrapolatedResidue s (akns_method_order a) b1 r1 (fun _ => ap) loc) ∧
          run = some (SUCCESS, ⟨c2, some K1, some bs2, some nc2⟩, o)) := by
  intro run eps
  refine Spec.SecondApprox.mono (C73_both_used h hD hf hrich hds hr h1 hc1 hK1 hlam hb1 hr1) Iff.rfl Iff.rfl id ?_
  rintro s as bs Ks mu b ap - ⟨loc, c2, k1, k2, k3⟩
  refine ⟨loc, c2, k1, k2, fun hown hres => ?_⟩
  obtain ⟨bs2, nc2, e1, e2, e3, e4, e5, e6⟩ := k3 (residuesOK_own hown hres)
  exact ⟨bs2, nc2, e1, e2, e3, e4, fun i hi => by rw [e5 i hi, extrapolatedResidue_own hown hi], e6⟩

/-- Residues only, with the localization method SUBSAMPLE_AND_REFINE: the bound states and the residues are extrapolated. The first approximation is the one that `fnft_nsev` computes with the
discrete spectrum type BOTH in an array for `2 K0` values. If the second approximation has no bound states (`Ks = 0`), then the array of the user is left as it was. -/
theorem C73_residues (h : Spec.NsevArgs D q x T0 T1 1 o a) (hD : 3 ≤ D) (hf : Spec.FiltOK o) (hrich : o.rich = 1) (hds : o.ds = .RESIDUES) (hsr : o.loc = .SUBSAMPLE_AND_REFINE)
    {M : ℕ} {XI0 XI1 : ℝ} {c : Option (Buf ℂ)} {K0 : ℕ} {bs nc : Buf ℂ} (hr : Spec.NsevReq 1 o (some (XI0, XI1)) ⟨c, some K0, some bs, some nc⟩)
    {roots : RootFinder} {g : ℕ → Garbage} {c1 : Option (Buf ℂ)} {K1 : ℕ} {bs1 nc1 : Buf ℂ} {o' : NsevOpts}
    (h1 : fnft_nsev roots D (some q) (some (T0, T1)) M (some (XI0, XI1)) 1 { o with ds := .BOTH, rich := 0 } g ⟨c, some K0, some bs, some (Buf.malloc (K0 * 2))⟩ =
      some (SUCCESS, ⟨c1, some K1, some bs1, some nc1⟩, o'))
    (hc1 : Spec.ContFilled D M XI0 XI1 o a c1) (hK1 : K1 ≠ 0) {lam b1 r1 : ℕ → ℂ} (hlam : bs1.Holds 0 K1 lam) (hb1 : nc1.Holds 0 K1 b1) (hr1 : nc1.Holds K1 K1 r1)
    (hnc : K1 ≤ nc.len) :
    let run := fnft_nsev roots D (some q) (some (T0, T1)) M (some (XI0, XI1)) 1 o g ⟨c, some K0, some bs, some nc⟩
    let eps := (T1 - T0) / (D - 1)
    Spec.SecondApprox D T0 T1 M XI0 XI1 o a x (c1.isSome ∧ M ≠ 0) True K1 lam
      (run = some (E_SUBROUTINE EC_DIV_BY_ZERO, ⟨c1, some K1, some bs1, some nc⟩, { o with ds := .BOTH, loc := .NEWTON }))
      fun s as bs Ks mu b ap => ∃ loc c2, (∀ i, i < K1 → Spec.Matched eps (lam i) Ks mu (loc i)) ∧ Spec.ContRich s (akns_method_order a) eps M XI0 XI1 o.cs as bs c1 c2 ∧
        (Ks = 0 → run = some (SUCCESS, ⟨c2, some K1, some bs1, some nc⟩, o)) ∧
        (Ks ≠ 0 → Spec.OwnPartner K1 loc → Spec.ResiduesOK s (akns_method_order a) K1 b1 r1 b (fun _ => ap) loc → ∃ bs2 nc2, bs2.len = bs1.len ∧ nc2.len = nc.len ∧
          bs2.Holds 0 K1 (Spec.extrapolated s (akns_method_order a) lam mu loc) ∧ nc2.Holds 0 K1 (Spec.extrapolatedResidue s (akns_method_order a) b1 r1 (fun _ => ap) loc) ∧
          (∀ j, K1 ≤ j → nc2.rd j = nc.rd j) ∧ run = some (SUCCESS, ⟨c2, some K1, some bs2, some nc2⟩, o)) := by
  intro run eps
  obtain ⟨P, hP, qr, hqr, hfirst, hrun⟩ := run_of_first_res h hrich hds hr (roots := roots) (g := g) (M := M)
  have hr' : Spec.NsevReq 1 o (some (XI0, XI1)) ⟨c, some K0, some bs, some (Buf.malloc (K0 * 2))⟩ := ⟨hr.hXI, hr.hK, hr.hloc⟩
  rw [hfirst _ hr'] at h1
  obtain ⟨F, hF, hF2⟩ := Option.bind_eq_some_iff.mp h1
  injection hF2 with hF2
  injection hF2 with hF2 hF3
  injection hF3 with hF3 hF4
  have hres := first_resv (o := { o with ds := .BOTH }) (nc := some nc) ⟨rfl, rfl, hsr⟩ hF hF2 (fun n P hp => pre_some h n P hp)
  rw [hF3] at hres
  have hrun' : run = (nsevRich roots D q (T0, T1) eps M (some (XI0, XI1)) 1 (g 2) o.ds ⟨⟨c1, some K1, some bs1, some nc⟩, { o with ds := .BOTH }, some nc1⟩).bind fun R =>
      some (R.1, R.2.st, R.2.opts) := by
    show fnft_nsev _ _ _ _ _ _ _ _ _ _ = _
    rw [hrun, hres]
    simp only [Option.bind_some, ne_eq, not_true_eq_false, if_false]
    rfl
  have key := second_run h hD hf (o1 := { o with ds := .BOTH }) rfl (fun n => by simp) (by simp) hc1 hK1 hlam (some nc) (some nc1) roots (g 2)
  refine Spec.SecondApprox.mono key Iff.rfl (by simp) (fun he => ?_) ?_
  · rw [hrun', he]; rfl
  · rintro s as bs Ks mu b ap hap ⟨c2, bsub, ncsub, k1, k2, k3, k4⟩
    obtain ⟨loc, hloc⟩ := rich_locs k1 eps lam
    refine ⟨loc, c2, fun i _ => (hloc i).1, k3, fun hKs => ?_, fun hKs hown hres => ?_⟩
    · subst hKs
      rw [hrun', k4]
      unfold richDisc
      dsimp only
      rw [if_neg (by simp)]
      rfl
    · obtain ⟨bs2, rv2, sub2, e1, e2, e3, e4, e5, e6, e7⟩ := richLoop_res (s := s) (p := akns_method_order a) (ds := o.ds) (Or.inl hds) hlam k1 (rv := nc1) (sub := ncsub) (b := b1) (r := r1) (b2 := b) (ap := ap)
        (fun i hi => ⟨by simpa using hb1 i hi, hr1 i hi⟩)
        (fun i hi => ⟨by
          have := k2 i (by simp only [Spec.dsLen]; omega)
          rw [Nat.zero_add] at this
          rw [this]
          simp only [Spec.dsOut, if_pos hi], by
          have := k2 (Ks + i) (by simp only [Spec.dsLen]; omega)
          rw [Nat.zero_add] at this
          rw [this]
          simp only [Spec.dsOut, if_neg (show ¬ Ks + i < Ks by omega), Nat.add_sub_cancel_left]⟩)
        hloc (fun i m hi hl => by
          obtain ⟨q1, q2, q3⟩ := residuesOK_own hown hres i m hi hl
          have := (hloc i).1
          rw [hl] at this
          exact ⟨q1, q2, hap rfl m this.1, q3⟩)
      obtain ⟨nc2, n1, n2, n3⟩ := fill_spec (off := 0) (cnt := K1) (b := nc) (f := fun i => rv2.rd (K1 + i)) (Spec.extrapolatedResidue s (akns_method_order a) b1 r1 (fun _ => ap) loc)
        (fun i _ hi => by rw [e7 i (by omega), extrapolatedResidue_own hown (by omega)]) (Or.inl (by omega))
      refine ⟨bs2, nc2, e2, n2, e4, fun i hi => ?_, fun j hj => ?_, ?_⟩
      · rw [Nat.zero_add, n3, if_pos (by omega)]
      · rw [n3, if_neg (by omega)]
      · rw [hrun', k4]
        unfold richDisc
        dsimp only
        rw [if_pos ⟨rfl, by simpa using hK1, hKs⟩]
        simp only [Option.isSome_some, if_true, Option.bind_eq_bind, Option.bind_some]
        rw [show forLoop K1 (richBody K1 Ks ((s : ℝ) ^ akns_method_order a) ((T1 - T0) / (D - 1)) o.ds bsub) ⟨bs1, some nc1, ncsub⟩ = _ from e1]
        simp only [Option.bind_some]
        rw [if_pos hds]
        simp only [n1, Option.bind_some, Option.pure_def]

/-- The first approximation with another method: it uses the array of the user. -/
theorem first_other {roots : RootFinder} {D : ℕ} {q : Buf ℂ} {qr : Buf ℂ × Buf ℂ} {T : ℝ × ℝ} {eps : ℝ} {M : ℕ} {XI : Option (ℝ × ℝ)} {kappa : ℤ} {g : ℕ → Garbage}
    {st : NsevSt} {rv : Buf ℂ} {o : NsevOpts} (hm : o.loc ≠ .SUBSAMPLE_AND_REFINE) :
    nsevFirst roots D q qr T eps M XI kappa g ⟨st, o, some rv⟩ =
      (nsevFirst roots D q qr T eps M XI kappa g ⟨st, { o with rich := 0 }, none⟩).bind fun F => some (F.1, ⟨F.2.st, o, some rv⟩) := by
  unfold nsevFirst
  dsimp only
  rw [if_neg (by tauto), if_neg (by tauto)]
  unfold nsevCallBase
  dsimp only
  rw [show nsev_base roots (D * nse_upsampling_factor o.disc) qr.1 qr.2 T.1 T.2 M XI kappa { o with rich := 0 } (g 1) st =
      nsev_base roots (D * nse_upsampling_factor o.disc) qr.1 qr.2 T.1 T.2 M XI kappa o (g 1) st from rfl]
  simp only [Option.bind_eq_bind, Option.bind_assoc, Option.pure_def, Option.bind_some]

/-- Finding: residues with another localization method. First, the program then executes the call with the discrete spectrum type BOTH on the array of the user: if that one leaves the array
(it writes two values for each bound state), then so does this one. -/
theorem C73_residues_overflow (h : Spec.NsevArgs D q x T0 T1 1 o a) (hrich : o.rich = 1) (hds : o.ds = .RESIDUES) (hloc : o.loc ≠ .SUBSAMPLE_AND_REFINE)
    {M : ℕ} {XI : Option (ℝ × ℝ)} {c bs nc : Option (Buf ℂ)} {K0 : ℕ} (hr : Spec.NsevReq 1 o XI ⟨c, some K0, bs, nc⟩) {roots : RootFinder} {g : ℕ → Garbage}
    (h1 : fnft_nsev roots D (some q) (some (T0, T1)) M XI 1 { o with ds := .BOTH, rich := 0 } g ⟨c, some K0, bs, nc⟩ = none) :
    fnft_nsev roots D (some q) (some (T0, T1)) M XI 1 o g ⟨c, some K0, bs, nc⟩ = none := by
  obtain ⟨P, hP, qr, hqr, hfirst, hrun⟩ := run_of_first_res h hrich hds hr (roots := roots) (g := g) (M := M)
  rw [hfirst _ hr] at h1
  rw [hrun, first_other (o := { o with ds := .BOTH }) hloc]
  rcases hF : nsevFirst roots D q qr (T0, T1) ((T1 - T0) / (D - 1)) M XI 1 g ⟨⟨c, some K0, bs, nc⟩, { o with ds := .BOTH, rich := 0 }, none⟩ with _ | F
  · rfl
  · rw [hF] at h1
    cases h1

/-- Second, even if the array of the user has enough space: if there is a bound state in both approximations, then the program reads values that nobody has written (the array
`normconsts_or_residues_reserve`). -/
theorem C73_residues_uninitialised (h : Spec.NsevArgs D q x T0 T1 1 o a) (hD : 3 ≤ D) (hf : Spec.FiltOK o) (hrich : o.rich = 1) (hds : o.ds = .RESIDUES) (hnsr : o.loc ≠ .SUBSAMPLE_AND_REFINE)
    {M : ℕ} {XI0 XI1 : ℝ} {c : Option (Buf ℂ)} {K0 : ℕ} {bs nc : Option (Buf ℂ)} (hr : Spec.NsevReq 1 o (some (XI0, XI1)) ⟨c, some K0, bs, nc⟩)
    {roots : RootFinder} {g : ℕ → Garbage} {c1 : Option (Buf ℂ)} {K1 : ℕ} {bs1 nc1 : Buf ℂ} {o' : NsevOpts}
    (h1 : fnft_nsev roots D (some q) (some (T0, T1)) M (some (XI0, XI1)) 1 { o with ds := .BOTH, rich := 0 } g ⟨c, some K0, bs, nc⟩ =
      some (SUCCESS, ⟨c1, some K1, some bs1, some nc1⟩, o'))
    (hc1 : Spec.ContFilled D M XI0 XI1 o a c1) (hK1 : K1 ≠ 0) {lam : ℕ → ℂ} (hlam : bs1.Holds 0 K1 lam) :
    let run := fnft_nsev roots D (some q) (some (T0, T1)) M (some (XI0, XI1)) 1 o g ⟨c, some K0, bs, nc⟩
    Spec.SecondApprox D T0 T1 M XI0 XI1 o a x (c1.isSome ∧ M ≠ 0) True K1 lam
      (run = some (E_SUBROUTINE EC_DIV_BY_ZERO, ⟨c1, some K1, some bs1, some nc1⟩, { o with ds := .BOTH, loc := .NEWTON }))
      fun _ _ _ Ks _ _ _ => Ks ≠ 0 → run = none := by
  intro run
  obtain ⟨P, hP, qr, hqr, hfirst, hrun⟩ := run_of_first_res h hrich hds hr (roots := roots) (g := g) (M := M)
  rw [hfirst _ hr] at h1
  obtain ⟨F, hF, hF2⟩ := Option.bind_eq_some_iff.mp h1
  injection hF2 with hF2
  injection hF2 with hF2 hF3
  injection hF3 with hF3 hF4
  have hrun' : run = (nsevRich roots D q (T0, T1) ((T1 - T0) / (D - 1)) M (some (XI0, XI1)) 1 (g 2) o.ds
      ⟨⟨c1, some K1, some bs1, some nc1⟩, { o with ds := .BOTH }, some (Buf.malloc (K0 * 2))⟩).bind fun R => some (R.1, R.2.st, R.2.opts) := by
    show fnft_nsev _ _ _ _ _ _ _ _ _ _ = _
    rw [hrun, first_other (o := { o with ds := .BOTH }) hnsr]
    rw [show nsevFirst roots D q qr (T0, T1) ((T1 - T0) / (D - 1)) M (some (XI0, XI1)) 1 g ⟨⟨c, some K0, bs, nc⟩, { o with ds := .BOTH, rich := 0 }, none⟩ = some F from hF]
    simp only [Option.bind_some, hF2, hF3, ne_eq, not_true_eq_false, if_false]
  have key := second_run h hD hf (o1 := { o with ds := .BOTH }) rfl (fun n => by simp) (by simp) hc1 hK1 hlam (some nc1) (some (Buf.malloc (K0 * 2))) roots (g 2)
  refine Spec.SecondApprox.mono key Iff.rfl (by simp) (fun he => ?_) ?_
  · rw [hrun', he]; rfl
  · rintro s as bs Ks mu b ap hap ⟨c2, bsub, ncsub, k1, k2, k3, k4⟩ hKs
    have hnone : ∀ n i, (Buf.malloc n : Buf ℂ).rd i = none := fun n i => by
      unfold Buf.rd Buf.malloc; split_ifs <;> rfl
    rw [hrun', k4]
    unfold richDisc
    dsimp only
    rw [if_pos ⟨rfl, by simpa using hK1, hKs⟩]
    simp only [Option.isSome_some, if_true, Option.bind_eq_bind, Option.bind_some]
    rcases hL : forLoop K1 (richBody K1 Ks ((s : ℝ) ^ akns_method_order a) ((T1 - T0) / (D - 1)) o.ds bsub) ⟨bs1, some (Buf.malloc (K0 * 2)), ncsub⟩ with _ | S
    · rfl
    · have hS : S.rv = some (Buf.malloc (K0 * 2)) := by
        refine forLoop_some (fun _ (S : RichSt) => S.rv = some (Buf.malloc (K0 * 2))) hL rfl ?_
        intro i S S' hi hS hb
        unfold richBody at hb
        simp only [Option.bind_eq_bind, Option.bind_eq_some_iff] at hb
        obtain ⟨l, -, f, -, hb⟩ := hb
        split at hb
        · cases hb; exact hS
        · simp only [Option.bind_eq_some_iff] at hb
          obtain ⟨y, -, b', -, hb⟩ := hb
          rw [if_pos (Or.inl hds), hS] at hb
          simp only [Option.bind_eq_some_iff] at hb
          obtain ⟨rv, hrv, R, hR, -⟩ := hb
          cases hrv
          unfold richResidue at hR
          simp only [hnone, Option.bind_eq_bind, Option.bind_none] at hR
          cases hR
      simp only [Option.bind_some]
      rw [if_pos hds, hS]
      simp only [Option.bind_some]
      rw [show fill 0 K1 (fun i => (Buf.malloc (K0 * 2) : Buf ℂ).rd (K1 + i)) nc1 = none from ?_]
      · rfl
      · obtain ⟨k, rfl⟩ := Nat.exists_eq_succ_of_ne_zero hK1
        rcases hfl : fill 0 (k + 1) (fun i => (Buf.malloc (K0 * 2) : Buf ℂ).rd (k + 1 + i)) nc1 with _ | z
        · rfl
        · exfalso
          have := (fill_some hfl).2 0
          rw [if_pos (by omega)] at this
          obtain ⟨y, hy, -⟩ := this
          rw [hnone] at hy
          cases hy

/-- Finding: BOTH with `normconsts_or_residues == NULL`. If there is a bound state in both approximations, then the program uses the null pointer. -/
theorem C73_both_null (h : Spec.NsevArgs D q x T0 T1 1 o a) (hD : 3 ≤ D) (hf : Spec.FiltOK o) (hrich : o.rich = 1) (hds : o.ds = .BOTH) {M : ℕ} {XI0 XI1 : ℝ}
    {st : NsevSt} (hr : Spec.NsevReq 1 o (some (XI0, XI1)) st) {roots : RootFinder} {g : ℕ → Garbage} {c1 : Option (Buf ℂ)} {K1 : ℕ} {bs1 : Buf ℂ} {o' : NsevOpts}
    (h1 : fnft_nsev roots D (some q) (some (T0, T1)) M (some (XI0, XI1)) 1 { o with rich := 0 } g st = some (SUCCESS, ⟨c1, some K1, some bs1, none⟩, o'))
    (hc1 : Spec.ContFilled D M XI0 XI1 o a c1) (hK1 : K1 ≠ 0) {lam : ℕ → ℂ} (hlam : bs1.Holds 0 K1 lam) :
    let run := fnft_nsev roots D (some q) (some (T0, T1)) M (some (XI0, XI1)) 1 o g st
    Spec.SecondApprox D T0 T1 M XI0 XI1 o a x (c1.isSome ∧ M ≠ 0) True K1 lam
      (run = some (E_SUBROUTINE EC_DIV_BY_ZERO, ⟨c1, some K1, some bs1, none⟩, { o with loc := .NEWTON }))
      fun _ _ _ Ks _ _ _ => Ks ≠ 0 → run = none := by
  intro run
  have hrun : run = _ := run_of_first h hrich (by rw [hds]; decide) hr h1
  have key := second_run h hD hf (o1 := o) rfl (fun n => by rw [hds]; simp) (by rw [hds]; decide) hc1 hK1 hlam none none roots (g 2)
  refine Spec.SecondApprox.mono key Iff.rfl (by rw [hds]; simp) (fun he => ?_) ?_
  · rw [hrun, he]; rfl
  · rintro s as bs Ks mu b ap hap ⟨c2, bsub, ncsub, k1, k2, k3, k4⟩ hKs
    rw [hrun, k4]
    unfold richDisc
    dsimp only
    rw [if_pos ⟨rfl, by simpa using hK1, hKs⟩]
    simp only [Option.isSome_none, Bool.false_eq_true, if_false, Option.bind_eq_bind, Option.bind_some]
    rcases hL : forLoop K1 (richBody K1 Ks ((s : ℝ) ^ akns_method_order a) ((T1 - T0) / (D - 1)) o.ds bsub) ⟨bs1, none, ncsub⟩ with _ | S
    · rfl
    · have hS : S.rv = none := by
        refine forLoop_some (fun _ (S : RichSt) => S.rv = none) hL rfl ?_
        intro i S S' hi hS hb
        unfold richBody at hb
        simp only [Option.bind_eq_bind, Option.bind_eq_some_iff] at hb
        obtain ⟨l, -, f, -, hb⟩ := hb
        split at hb
        · cases hb; exact hS
        · simp only [Option.bind_eq_some_iff] at hb
          obtain ⟨y, -, b', -, hb⟩ := hb
          rw [if_pos (Or.inr hds), hS] at hb
          cases hb
      simp only [Option.bind_some]
      rw [if_neg (by rw [hds]; decide), if_pos hds, hS]
      rfl

/-- A case: two guesses that Newton's method accepts (no iterations), a signal with four samples; neither the continuous spectrum nor norming constants are requested. -/
example : let o := { nsev_default_opts with disc := .BO, loc := .NEWTON, niter := 0, filt := .NONE, rich := 1 }
    Spec.NsevArgs 4 (Buf.ofList [1, 2, 2 * I, 4]) (fun i => [1, 2, 2 * I, 4].getD i 0) (-1) 1 1 o .BO ∧ Spec.FiltOK o ∧ o.ds = .NORMING_CONSTANTS ∧
      Spec.NsevReq 1 o (some (-1, 1)) ⟨none, some 2, some (Buf.ofList [I, 2 * I]), none⟩ ∧ Spec.ContFilled 4 0 (-1) 1 o .BO none ∧
      ∀ roots g, ∃ bs1 o', fnft_nsev roots 4 (some (Buf.ofList [1, 2, 2 * I, 4])) (some (-1, 1)) 0 (some (-1, 1)) 1 { o with rich := 0 } g
        ⟨none, some 2, some (Buf.ofList [I, 2 * I]), none⟩ = some (SUCCESS, ⟨none, some 2, some bs1, none⟩, o') ∧ bs1.Holds 0 2 (fun i => [I, 2 * I].getD i 0) := by
  intro o
  have hargs : ∀ r : ℤ, Spec.NsevArgs 4 (Buf.ofList [1, 2, 2 * I, 4]) (fun i => [1, 2, 2 * I, 4].getD i 0) (-1) 1 1 { o with rich := r } .BO := fun r =>
    { hd := rfl, hD := by norm_num, hCF := fun h => (by norm_num), hsize := by decide
      hq := by intro i hi; have : i < 4 := by omega
               interval_cases i <;> rfl
      hT := by norm_num, hk := rfl, hal := fun h => by cases h }
  have hb : (Buf.ofList [I, 2 * I] : Buf ℂ).Holds 0 2 (fun i => [I, 2 * I].getD i 0) := by
    intro i hi
    interval_cases i <;> rfl
  refine ⟨hargs 1, trivial, rfl, ⟨(fun h => by simp at h), (fun _ => by simp), fun _ _ _ => rfl⟩, (fun cb h => by cases h), fun roots g => ?_⟩
  obtain ⟨qf, rf, U, E, A', -, -, -, -, k⟩ := C42_newton (hargs 0) (o := { o with rich := 0 }) trivial rfl (by decide) (M := 0) (XI := some (-1, 1)) (c := none) (fun h => by simp at h) hb
    (nc := none) (fun n hn => by cases hn)
  obtain ⟨w, cand, fail, c', -, k2, k3, -, k5⟩ := k roots g (fun cb h => by cases h)
  have hrun : ∀ z k stop, Spec.NewtonRun (Spec.slowA E (Spec.baseOf .BO) (4 * akns_upsampling_factor .BO) (-1) 1 ((1 - -1) / ((4 : ℕ) - 1)) qf rf) A' w
      (Spec.tolOf { o with rich := 0 }.tol) (Spec.bsBoxOf { o with rich := 0 } .BO (4 * akns_upsampling_factor .BO) (-1) 1 ((1 - -1) / ((4 : ℕ) - 1)) qf) 0 z k stop → k = 0 ∧ stop ≠ .failed := by
    intro z k stop hr
    refine ⟨?_, fun hs => ?_⟩
    · by_contra hk
      have := hr.budget 0 (by omega)
      omega
    · subst hs
      have := hr.reason
      exact absurd this.1 (by omega)
  have hfail : fail = none := by
    cases hfl : fail with
    | none => rfl
    | some f =>
      obtain ⟨-, ⟨z, k, -, hr, -⟩, -⟩ := k2.failed f hfl
      exact absurd rfl (hrun z k _ hr).2
  have hcand : ∀ i, i < 2 → cand i = [I, 2 * I].getD i 0 := by
    intro i hi
    obtain ⟨z, k, stop, hz, hr, -, hc⟩ := k2.run i hi (fun f hf => by rw [hfail] at hf; cases hf)
    rw [hc, (hrun z k stop hr).1, hz]
  obtain ⟨out, hout, K', bs', hw, hret, -⟩ := k5 hfail
  have ho := hout.1 rfl
  have hc' : c' = none := k3.1 (Or.inl rfl)
  have hK' : K' = 2 := by rw [hw.1, ho]; rfl
  subst hK' hc'
  refine ⟨bs', _, hret rfl, fun i hi => ?_⟩
  rw [take_holds hw i hi, ho]
  congr 1
  show ((List.range 2).map cand).getD i 0 = [I, 2 * I].getD i 0
  rw [show ((List.range 2).map cand).getD i 0 = cand i by interval_cases i <;> rfl]
  exact hcand i hi

end FNFT

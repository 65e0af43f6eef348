import Verif.Proofs.NsevMixed
import Verif.Props.NsevBound
/-!
# Properties of `fnft_nsev`: the default localisation method (subsample and refine)
-/
namespace FNFT
open Complex AknsDisc

variable {D : ℕ} {q : Buf ℂ} {x : ℕ → ℂ} {T0 T1 : ℝ} {o : NsevOpts} {a : AknsDisc}

/-- The second stage of the mixed method: Newton's method for the full signal, starting from the bound states `init` of the first stage.
`ret code c K b n o'` says that the call ends with this code, these values of the output arguments and these options. -/
def Spec.RefineStage (D : ℕ) (T0 T1 : ℝ) (M : ℕ) (XI : Option (ℝ × ℝ)) (o : NsevOpts) (a : AknsDisc) (x : ℕ → ℂ)
    (c : Option (Buf ℂ)) (nc : Option (Buf ℂ)) (K1 : ℕ) (init : ℕ → ℂ) (bs1 : Buf ℂ)
    (ret : ℤ → Option (Buf ℂ) → ℕ → Buf ℂ → Option (Buf ℂ) → NsevOpts → Prop) : Prop :=
  let eps := (T1 - T0) / (D - 1)
  let D' := D * akns_upsampling_factor a
  let d := Spec.baseOf a
  ∃ qf rf U E A', Spec.Processed a 1 D eps x D 1 qf rf ∧ Spec.NseSteps a eps qf rf U ∧ Spec.NearExp E ∧
    (∀ l, Spec.DerivA E d D' T0 T1 eps qf rf l (A' l)) ∧
    (Spec.ContOK D T0 T1 eps M XI o a U c → ∃ w cand fail c', (o.nrm = false → ∀ l, w l = 0) ∧
      Spec.NewtonAll (Spec.slowA E d D' T0 T1 eps qf rf) A' w (Spec.tolOf o.tol) (Spec.bsBoxOf o a D' T0 T1 eps qf) o.niter K1 init cand fail ∧
      Spec.ContDone D T0 T1 eps M XI o a U c c' ∧
      (fail ≠ none → ∃ bs', bs'.len = bs1.len ∧ ret (E_SUBROUTINE EC_DIV_BY_ZERO) c' K1 bs' nc { o with loc := .NEWTON }) ∧
      (fail = none → ∃ out, Spec.Filtered o (Spec.bsBoxOf o a D' T0 T1 eps qf) K1 cand out ∧
        Spec.DiscDone E A' o d D' D T0 T1 eps qf rf out K1 bs1 nc (fun code K b n =>
          ret code c' K b n (if code = SUCCESS then o else { o with loc := .NEWTON }))))

theorem contOK_opts {U : ℂ → ℕ → Spec.M2} {o' : NsevOpts} {eps : ℝ} {M : ℕ} {XI : Option (ℝ × ℝ)} {c : Option (Buf ℂ)} (ho : o'.cs = o.cs)
    (h : Spec.ContOK D T0 T1 eps M XI o a U c) : Spec.ContOK D T0 T1 eps M XI o' a U c := by
  intro cb hcb
  rcases h cb hcb with h | ⟨X0, X1, h1, h2, h3⟩
  · exact Or.inl h
  · refine Or.inr ⟨X0, X1, h1, ⟨h2.hM, h2.hXI, h2.hsz, by rw [ho]; exact h2.hcs, by rw [ho]; exact h2.hlen⟩, by rw [ho]; exact h3⟩

theorem discDone_opts {E : Spec.M2 → Spec.M2} {A' : ℂ → ℂ} {d : AknsDisc} {D' : ℕ} {eps : ℝ} {qf rf : ℕ → ℂ} {out : List ℂ} {K0 : ℕ} {bs : Buf ℂ} {nc : Option (Buf ℂ)}
    {ret : ℤ → ℕ → Buf ℂ → Option (Buf ℂ) → Prop} {o' : NsevOpts} (ho : o'.ds = o.ds) (h : Spec.DiscDone E A' o d D' D T0 T1 eps qf rf out K0 bs nc ret) :
    Spec.DiscDone E A' o' d D' D T0 T1 eps qf rf out K0 bs nc ret := by
  unfold Spec.DiscDone at *
  rw [ho]
  exact h

/-- C45. Bound states with the default method. First, a part of the samples with larger step (`Ds` samples with distance `s`) is taken; candidates are the values `λ_k` that
correspond to the roots of the polynomial of `a(λ)` for these samples. They are filtered, merged, and written to the array (if there is room). Then they are
refined with Newton's method for the full signal, filtered and merged again. The record of the options is restored after a successful call;
after a failure it contains the method of the failed stage. -/
theorem C45_subsample_and_refine (h : Spec.NsevArgs D q x T0 T1 1 o a) (hf : Spec.FiltOK o) (hloc : o.loc = .SUBSAMPLE_AND_REFINE)
    (hrich : o.rich ≠ 1) (hdeg : akns_degree a ≠ 0) (hDsub : o.Dsub ≤ 2 * D)
    {roots : RootFinder} {P : ℕ → (ℕ → ℂ) → (ℕ → ℂ) → Prop} (hroots : Spec.RootsOK roots P)
    {M : ℕ} {XI : Option (ℝ × ℝ)} {c : Option (Buf ℂ)} (hXI : c.isSome → ∃ X, XI = some X ∧ X.1 < X.2)
    {K0 : ℕ} {bs : Buf ℂ} (hb : K0 ≤ bs.len) {nc : Option (Buf ℂ)} (hnc : Spec.NcReq o K0 nc) (g : ℕ → Garbage) :
    let eps := (T1 - T0) / (D - 1)
    let run := fnft_nsev roots D (some q) (some (T0, T1)) M XI 1 o g ⟨c, some K0, some bs, nc⟩
    ∃ Ds s, Spec.SubGrid D o.Dsub Ds s ∧
      let Ds' := Ds * akns_upsampling_factor a
      let T1s := T0 + ((Ds - 1) * s : ℕ) * eps
      let deg := Ds' * akns_degree a
      ∃ (qs rs : ℕ → ℂ) (Us : ℂ → ℕ → Spec.M2) (y : ℕ → ℂ),
        Spec.Processed a 1 D eps x Ds s qs rs ∧ Spec.NseSteps a (eps * s) qs rs Us ∧ Spec.IsAPoly a Ds' T0 T1s (eps * s) Us deg y ∧
        ((∃ code bs', Spec.RootsFail roots deg y code ∧ bs'.len = bs.len ∧
            run = some (E_SUBROUTINE code, ⟨c, some K0, some bs', nc⟩, { o with loc := .FAST_EIGENVALUE })) ∨
          ∃ z, P deg y z ∧ ((∀ k, k < deg → z k ≠ 0) →
            ∃ out1 K1 bs1, Spec.Filtered o (Spec.bsBoxOf o a Ds' T0 T1s (eps * s) qs) deg
                (fun k => log (z k) / (2 * I * (eps * s : ℝ) / Spec.degree1step a)) out1 ∧
              Spec.BsWritten out1 K0 K1 bs bs1 ∧
              Spec.RefineStage D T0 T1 M XI o a x c nc K1 (fun i => out1.getD i 0) bs1 (fun code c' K b n o' =>
                run = some (code, ⟨c', some K, some b, n⟩, o')))) := by
  intro eps run
  obtain ⟨n0, hn0, hsub⟩ := dsub_ok h.hD hDsub
  have hr : Spec.NsevReq 1 o XI ⟨c, some K0, some bs, nc⟩ := by
    refine ⟨hXI, fun _ => by simp, fun _ _ h0 => ?_⟩
    rw [nse_degree, h.hd] at h0
    exact absurd h0 hdeg
  obtain ⟨qp, rp, qf, rf, h1, h2, h3⟩ := nsev_run h hr hrich
  obtain ⟨Ds, s, qps, rps, qs, rs, s1, s2, s3, s4⟩ := nsev_pre_sub h n0 (fun _ hk => by norm_num at hk)
  have hup : nse_upsampling_factor o.disc = akns_upsampling_factor a := by rw [nse_upsampling_factor, h.hd]
  have hB1 := s4 { o with loc := .FAST_EIGENVALUE } rfl
  obtain ⟨degs, Ws, tms, Us, t1, t2⟩ := base_run hB1
  obtain ⟨rfl, t, y, rfl, hy, hA⟩ := isAPoly hB1 hdeg t1
  refine ⟨Ds, s, hsub Ds s s1, qs, rs, Us, y, s3, t1.steps, hA, ?_⟩
  have hmix : run = (nsevMixed roots D q (qp, rp) (T0, T1) eps M XI 1 g ⟨⟨c, some K0, some bs, nc⟩, o, none⟩).bind fun F =>
      some (F.1, F.2.st, F.2.opts) := by
    show fnft_nsev _ _ _ _ _ _ _ _ _ _ = _
    rw [h3]
    unfold nsevFirst
    rw [if_pos ⟨rfl, rfl, hloc⟩]
    rfl
  have hst : nsev_base roots (Ds * akns_upsampling_factor a) qps rps (T0 + ((0 : ℕ) : ℝ) * eps) (T0 + ((Ds - 1) * s : ℕ) * eps) 0 XI 1
      { o with loc := .FAST_EIGENVALUE } (g 0) ⟨none, some K0, some bs, none⟩ =
      baseDisc roots (Ds * akns_upsampling_factor a) qps rps T0 (T0 + ((Ds - 1) * s : ℕ) * eps) (eps * s) 1 { o with loc := .FAST_EIGENVALUE } (g 0)
        (Ds * akns_upsampling_factor a * akns_degree a) (some t) ⟨none, some K0, some bs, none⟩ := by
    have e0 : T0 + ((0 : ℕ) : ℝ) * eps = T0 := by simp
    rw [e0, t2 roots 0 XI (g 0) ⟨none, some K0, some bs, none⟩ (fun hh => by cases hh) (fun _ => by simp), baseCont_none (Or.inl rfl)]
    simp only [Option.bind_eq_bind, Option.bind_some, ne_eq, not_true_eq_false, if_false]
    rfl
  have hrun : run = (nsev_base roots (Ds * akns_upsampling_factor a) qps rps (T0 + ((0 : ℕ) : ℝ) * eps) (T0 + ((Ds - 1) * s : ℕ) * eps) 0 XI 1
      { o with loc := .FAST_EIGENVALUE } (g 0) ⟨none, some K0, some bs, none⟩).bind fun R =>
        (if R.1 ≠ SUCCESS then
          some (chk R.1, (⟨⟨c, R.2.K, R.2.bs, nc⟩, { o with loc := .FAST_EIGENVALUE }, none⟩ : NsevMain))
        else (nsevCallBase roots (D * nse_upsampling_factor o.disc) (qp, rp) (T0, T1) M XI 1 (g 1) true
            ⟨⟨c, R.2.K, R.2.bs, nc⟩, { o with loc := .NEWTON }, none⟩).bind fun S =>
          if S.1 ≠ SUCCESS then some S
          else some (SUCCESS, { S.2 with opts := { S.2.opts with loc := .SUBSAMPLE_AND_REFINE } })).bind fun F =>
      some (F.1, F.2.st, F.2.opts) := by
    rw [hmix]
    unfold nsevMixed
    simp only [hn0, Option.bind_eq_bind, Option.bind_some, Option.pure_def]
    rw [show nse_preprocess_signal D (some q) eps 1 n0 o.disc = _ from s2]
    simp only [Option.bind_some, hup]
    rw [Option.bind_assoc]
  rw [hrun, hst]
  clear hrun hst hmix
  have hbox : Spec.bsBoxOf { o with loc := .FAST_EIGENVALUE } a (Ds * akns_upsampling_factor a) T0 (T0 + ((Ds - 1) * s : ℕ) * eps) (eps * s) qs =
      Spec.bsBoxOf o a (Ds * akns_upsampling_factor a) T0 (T0 + ((Ds - 1) * s : ℕ) * eps) (eps * s) qs := rfl
  rcases boundstates_fast hB1 (show Spec.FiltOK { o with loc := .FAST_EIGENVALUE } from hf) rfl hdeg hroots hy (g 0) hb with
    ⟨code, K', bs', f1, f2, f3, rfl⟩ | ⟨z, hz, -, f⟩
  · refine Or.inl ⟨code, bs', f1, f3, ?_⟩
    unfold baseDisc
    simp only [if_true, Option.bind_eq_bind, Option.bind_some]
    rw [f2]
    simp only [Option.bind_some, ne_eq, E_SUBROUTINE_ne f1.1, not_false_eq_true, if_true, Option.pure_def]
    rw [if_pos (E_SUBROUTINE_ne (E_SUBROUTINE_ne f1.1))]
    simp only [Option.bind_some, chk_sub]
    congr 2
    unfold E_SUBROUTINE; simp
  · refine Or.inr ⟨z, hz, fun h0 => ?_⟩
    obtain ⟨out1, K1, bs1, g1, g2, g3⟩ := f h0
    refine ⟨out1, K1, bs1, g2, g3, ?_⟩
    have hstage : baseDisc roots (Ds * akns_upsampling_factor a) qps rps T0 (T0 + ((Ds - 1) * s : ℕ) * eps) (eps * s) 1
        { o with loc := .FAST_EIGENVALUE } (g 0)
        (Ds * akns_upsampling_factor a * akns_degree a) (some t) ⟨none, some K0, some bs, none⟩ =
        some (SUCCESS, ⟨none, some K1, some bs1, none⟩) := by
      unfold baseDisc
      simp only [if_true, Option.bind_eq_bind, Option.bind_some]
      rw [g1]
      rfl
    rw [hstage]
    simp only [Option.bind_some, ne_eq, not_true_eq_false, if_false]
    have hB2 := h2 { o with loc := .NEWTON } rfl
    obtain ⟨deg, W, tm, U, u1, u2⟩ := base_run hB2
    refine ⟨qf, rf, U, expS, slowA' (Spec.baseOf a) (D * akns_upsampling_factor a) T0 T1 eps qf rf, h1, u1.steps, nearExp_expS,
      fun l => slowA'_deriv _ _ _ _ _ _ _ l, ?_⟩
    intro hc
    obtain ⟨c', e1, e2⟩ := baseCont_any (s := ⟨c, some K1, some bs1, nc⟩) hB2 u1
      (contOK_opts (o := o) rfl hc)
    obtain ⟨w, cand, fail, code, K', bs', f1, f2, f3, f4, f5, f6⟩ :=
      boundstates_newton hB2 (show Spec.FiltOK { o with loc := .NEWTON } from hf) rfl roots deg tm (g 1) (take_holds g3)
    have hcall : nsevCallBase roots (D * nse_upsampling_factor o.disc) (qp, rp) (T0, T1) M XI 1 (g 1) true
        ⟨⟨c, some K1, some bs1, nc⟩, { o with loc := .NEWTON }, none⟩ =
        (baseDisc roots (D * akns_upsampling_factor a) qp rp T0 T1 eps 1 { o with loc := .NEWTON } (g 1) deg tm ⟨c', some K1, some bs1, nc⟩).bind
          fun R => some (chk R.1, (⟨R.2, { o with loc := .NEWTON }, none⟩ : NsevMain)) := by
      unfold nsevCallBase
      dsimp only
      rw [hup, u2 roots M XI (g 1) ⟨c, some K1, some bs1, nc⟩ hXI (fun _ => by simp), e1]
      simp only [Option.bind_eq_bind, Option.bind_some, ne_eq, not_true_eq_false, if_false, Option.pure_def]
      rfl
    rw [hcall]
    refine ⟨w, cand, fail, c', f1, f2, e2, fun hfail => ?_, fun hfail => ?_⟩
    · obtain ⟨k1, k2, k3⟩ := f6 hfail
      refine ⟨bs', f4, ?_⟩
      rw [k1, k2] at f3
      unfold baseDisc
      simp only [if_true, Option.bind_eq_bind, Option.bind_some]
      rw [f3]
      rfl
    · obtain ⟨k1, out, k2, k3⟩ := f5 hfail
      refine ⟨out, k2, ?_⟩
      rw [k1] at f3
      have hK1 : K1 ≤ K0 := by rw [g3.1]; exact min_le_left _ _
      refine discDone_opts (o := { o with loc := .NEWTON }) rfl ((baseDisc_finish hB2 (g 1) (s := ⟨c', some K1, some bs1, nc⟩) rfl rfl
        (fun n hn => ⟨le_trans (Nat.mul_le_mul_left _ hK1) (hnc n hn).1, (hnc n hn).2⟩) f3 k3).mono ?_)
      intro code K b n hcode hret
      dsimp only
      rw [hret]
      simp only [Option.bind_some, chk_idem hcode]
      rcases hcode with rfl | rfl
      · simp only [not_true_eq_false, if_false, Option.bind_some, if_true]
        congr 3
        cases o; cases hloc; rfl
      · rfl

/-- The default options meet the hypotheses. -/
example : Spec.NsevArgs 4 (Buf.ofList [1, 2, 2 * I, 4]) (fun i => [1, 2, 2 * I, 4].getD i 0) (-1) 1 1 nsev_default_opts .D2SPLIT4B ∧
    Spec.FiltOK nsev_default_opts ∧ nsev_default_opts.loc = .SUBSAMPLE_AND_REFINE ∧ nsev_default_opts.rich ≠ 1 ∧
    akns_degree .D2SPLIT4B ≠ 0 ∧ nsev_default_opts.Dsub ≤ 2 * 4 ∧ Spec.NcReq nsev_default_opts 16 (some (Buf.malloc 16)) ∧
      ∃ roots, Spec.RootsOK roots Spec.ExactRoots := by
  refine ⟨{ hd := rfl, hD := by norm_num, hCF := fun h => (by norm_num), hsize := by decide
            hq := by intro i hi; have : i < 4 := by omega
                     interval_cases i <;> rfl
            hT := by norm_num, hk := rfl, hal := fun h => by cases h }, trivial, rfl, by decide, by decide, by decide, ?_, ?_⟩
  · rintro n ⟨rfl⟩
    exact ⟨by decide, fun k => by show DsType.NORMING_CONSTANTS ≠ _; intro h; cases h⟩
  · obtain ⟨r, h, -⟩ := exactRoots_finder
    exact ⟨r, h⟩

end FNFT

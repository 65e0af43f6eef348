import Verif.Proofs.KdvRich
import Verif.Props.KdvBound
import Mathlib.Tactic.IntervalCases
/-!
# C74: Richardson extrapolation in `fnft_kdvv`
-/
namespace FNFT
open Complex AknsDisc

variable {D : ℕ} {q : Buf ℂ} {x : ℕ → ℝ} {T0 T1 : ℝ} {o : KdvvOpts} {a : AknsDisc} {v : ℕ}

/-- The Ablowitz-Ladik method can be applied to all subsampled signals. -/
def Spec.KdvSubModal (D : ℕ) (T0 T1 : ℝ) (a : AknsDisc) (x : ℕ → ℝ) : Prop :=
  a = .D2SPLIT2_MODAL → ∀ s n, s ≤ D → s * n < D → ((T1 - T0) / (D - 1) * s) ^ 2 * x (s * n) ≠ -1

/-- The second approximation that Richardson extrapolation uses: the signal is subsampled (`Ds` samples with the step `s eps`), and Newton's method for the subsampled signal is started at the
bound states `i·lam 0, ..., i·lam (K1-1)` of the first approximation (unless the bound on the bound states is zero). `hasC`: the continuous spectrum is requested; `withRes`: residues are
requested. `err` is what happens if an iterate is zero or the derivative of `Re a(iκ)` vanishes (in Newton's method, or at a bound state if residues are requested), and `ok s as bs Ks mu b ap` is
what happens otherwise, where `as`, `bs` are the values of `a(ξ)`, `b(ξ)` on the grid, `mu` the `Ks` bound states, `b` the norming constants and `ap` the values of `a'` for the subsampled signal. -/
def Spec.KdvSecond (D : ℕ) (T0 T1 : ℝ) (M : ℕ) (XI0 XI1 : ℝ) (o : KdvvOpts) (a : AknsDisc) (v : ℕ) (x : ℕ → ℝ) (hasC withRes : Prop) (K1 : ℕ) (lam : ℕ → ℝ) (err : Prop)
    (ok : ℕ → (ℕ → ℂ) → (ℕ → ℂ) → ℕ → (ℕ → ℂ) → (ℕ → ℂ) → (ℕ → ℂ) → Prop) : Prop :=
  let eps := (T1 - T0) / (D - 1)
  ∃ Ds s qs rs Us E A' m, Spec.SubGrid D (D / 2) Ds s ∧ 2 ≤ s ∧ Spec.KdvProcessed a D eps (fun i => (x i : ℂ)) Ds s qs rs ∧
    (if v ≠ 0 then Spec.NseSteps a (eps * s) qs rs Us else Spec.NseSteps a (eps * s) rs qs Us) ∧ Spec.NearExp E ∧
    let D' := Ds * akns_upsampling_factor a
    let T1s := T0 + ((Ds - 1) * s : ℕ) * eps
    let as := Spec.kdvGridA a v D' T0 T1s (eps * s) XI0 XI1 M Us
    let bs := Spec.kdvGridB a v D' T0 T1s (eps * s) XI0 XI1 M Us
    Spec.KdvF' E a v D' T0 T1s (eps * s) qs rs A' ∧ Spec.KdvBoundSq a D' qs m ∧ 0 ≤ m ∧
    ((hasC → o.cs = .AB ∨ ∀ i, i < M → as i ≠ 0) →
      (m = 0 → ok s as bs 0 (fun _ => 0) (fun _ => 0) (fun _ => 0)) ∧
      (0 < m → ∃ out fail, Spec.RealNewtonAll (Spec.kdvF E a v D' T0 T1s (eps * s) qs rs) A' (EPSILON * 100) (Real.sqrt m) o.niter K1 lam out fail ∧
        (fail ≠ none → err) ∧
        (fail = none → (∀ i, i < K1 → out i ≠ 0 ∧
            ¬ Spec.KdvNoBoundary E (Spec.baseOf a) (v ≠ 0) D' Ds T0 T1s (eps * s) (swapIf v qs rs) (swapIf v rs qs) (out i)) →
          ∃ b, (∀ i, i < K1 → Spec.KdvNC E a v D' Ds T0 T1s (eps * s) qs rs (out i) none (b i)) ∧
            (withRes → (∃ i, i < K1 ∧ A' (out i) = 0) → err) ∧
            ((withRes → ∀ i, i < K1 → A' (out i) ≠ 0) → ok s as bs K1 (fun i => I * (out i : ℂ)) b (fun i => -I * (A' (out i) : ℂ))))))

theorem Spec.KdvSecond.mono {M : ℕ} {XI0 XI1 : ℝ} {hasC withRes hasC' withRes' : Prop} {K1 : ℕ} {lam : ℕ → ℝ} {err err' : Prop}
    {ok ok' : ℕ → (ℕ → ℂ) → (ℕ → ℂ) → ℕ → (ℕ → ℂ) → (ℕ → ℂ) → (ℕ → ℂ) → Prop}
    (h : Spec.KdvSecond D T0 T1 M XI0 XI1 o a v x hasC withRes K1 lam err ok) (hc : hasC ↔ hasC') (hw : withRes ↔ withRes') (he : err → err')
    (hok : ∀ s as bs Ks mu b ap, (withRes → ∀ i, i < Ks → ap i ≠ 0) → ok s as bs Ks mu b ap → ok' s as bs Ks mu b ap) :
    Spec.KdvSecond D T0 T1 M XI0 XI1 o a v x hasC' withRes' K1 lam err' ok' := by
  obtain ⟨Ds, s, qs, rs, Us, E, A', m, h1, h2, h3, h4, h5, h6, h7, h8, h9⟩ := h
  refine ⟨Ds, s, qs, rs, Us, E, A', m, h1, h2, h3, h4, h5, h6, h7, h8, fun hh => ?_⟩
  obtain ⟨e1, e2⟩ := h9 fun hx => hh (hc.mp hx)
  refine ⟨fun hm => hok _ _ _ _ _ _ _ (fun _ i hi => by omega) (e1 hm), fun hm => ?_⟩
  obtain ⟨out, fail, f1, f2, f3⟩ := e2 hm
  refine ⟨out, fail, f1, fun hf => he (f2 hf), fun hf hn => ?_⟩
  obtain ⟨b, g1, g2, g3⟩ := f3 hf hn
  refine ⟨b, g1, fun hr hz => he (g2 (hw.mpr hr) hz), fun hr => hok _ _ _ _ _ _ _ (fun hx i hi => ?_) (g3 fun hx => hr (hw.mp hx))⟩
  have := hr (hw.mp hx) i hi
  simp [this]

theorem kdv_second_run (h : Spec.KdvvArgs D q x T0 T1 o a v) (hD : 3 ≤ D) (hal : Spec.KdvSubModal D T0 T1 a x) {o1 : KdvvOpts} (ho1 : { o1 with ds := o.ds } = o)
    (hds1 : ∀ n, o1.ds ≠ .other n) (hres1 : o1.ds ≠ .RESIDUES) {M : ℕ} {XI0 XI1 : ℝ} {c1 : Option (Buf ℂ)} (hc1 : Spec.KdvContFilled D M XI0 XI1 o a c1)
    {K1 : ℕ} (hK1 : K1 ≠ 0) {bs1 : Buf ℂ} {lam : ℕ → ℝ} (hlam : bs1.Holds 0 K1 (fun i => I * (lam i : ℂ))) (nc1 rv : Option (Buf ℂ)) (next : NextToward) (g : Garbage) :
    let eps := (T1 - T0) / (D - 1)
    let m : KdvMain := ⟨⟨c1, some K1, some bs1, nc1⟩, o1, rv⟩
    let run := kdvRich next D q (T0, T1) eps M (some (XI0, XI1)) g o.ds m
    Spec.KdvSecond D T0 T1 M XI0 XI1 o a v x (c1.isSome ∧ M ≠ 0) (o1.ds = .BOTH) K1 lam (run = some (E_SUBROUTINE EC_DIV_BY_ZERO, { m with opts := { o1 with loc := .NEWTON } }))
      (fun s as bs Ks mu b ap => ∃ c2 bsub ncsub, bsub.Holds 0 Ks mu ∧ (Ks ≠ 0 → ncsub.Holds 0 (Spec.dsLen o1.ds * Ks) (Spec.dsOut o1.ds Ks b ap)) ∧
        Spec.ContRich s (akns_method_order a) eps M XI0 XI1 o.cs as bs c1 c2 ∧
        run = (richDisc 1 Ks ((s : ℝ) ^ akns_method_order a) eps o.ds (some bsub) (some ncsub)
          ⟨⟨c2, some K1, some bs1, nc1⟩, { nsev_default_opts with ds := o.ds, cs := o.cs }, rv⟩).bind fun n => some (SUCCESS, ⟨n.st, o, n.resv⟩)) := by
  intro eps m run
  obtain ⟨bc, hbc1, hbc2, hbc3⟩ : ∃ bc, bsCopy K1 bs1 (Buf.malloc K1) = some bc ∧ bc.len = K1 ∧ bc.Holds 0 K1 (fun i => I * (lam i : ℂ)) := by
    obtain ⟨bc, b1, b2, b3⟩ := fill_spec (off := 0) (cnt := K1) (b := (Buf.malloc K1 : Buf ℂ)) (f := fun i => bs1.rd i) (fun i => I * (lam i : ℂ))
      (fun i _ hi => by simpa using hlam i (by omega)) (Or.inl (by simp))
    exact ⟨bc, b1, by rw [b2]; rfl, fun i hi => by rw [Nat.zero_add, b3, if_pos (by omega)]⟩
  obtain ⟨n, hn, hn2⟩ : ∃ n, richDs o1.ds = some n ∧ n = Spec.dsLen o1.ds := by
    cases hh : o1.ds with
    | other k => exact absurd hh (hds1 k)
    | RESIDUES => exact absurd hh hres1
    | _ => exact ⟨_, rfl, rfl⟩
  subst hn2
  have hdb : richDiscBuf 1 m.toN = some (.ok (K1, some bc, some (Buf.malloc (Spec.dsLen o1.ds * K1)))) := by
    rw [show m.toN = ⟨⟨c1, some K1, some bs1, nc1⟩, { nsev_default_opts with ds := o1.ds, cs := o1.cs }, rv⟩ from rfl]
    unfold richDiscBuf
    dsimp only
    rw [if_pos ⟨rfl, by simpa using hK1⟩]
    simp only [hn, hbc1, Option.bind_eq_bind, Option.bind_some, Option.pure_def]
  obtain ⟨Ds, s, qps, rps, qs, rs, Us, s1, s2, s3, s4, hB, hrun⟩ := kdvRich_run h hD hal ho1 hc1 hdb
  obtain ⟨d', -, -, -, hsl, -⟩ := kdvSlow_ok h.hd h.hv
  obtain ⟨mm, -, hm, hm0⟩ := kdvBoundSq_ok h.hd hB.hq
  refine ⟨Ds, s, qs, rs, Us, expS, kdvReA' (Spec.baseOf a) (v ≠ 0) (Ds * akns_upsampling_factor a) T0 (T0 + ((Ds - 1) * s : ℕ) * eps) (eps * s) (swapIf v qs rs) (swapIf v rs qs),
    mm, s1, s2, s3, s4, nearExp_expS, fun k hk => kdvReA'_spec hsl _ _ _ _ _ _ _ hk, hm, hm0, fun hasC => ?_⟩
  obtain ⟨c2, c', hrc, hrun⟩ := (hrun next g).1 hasC
  have hrun : run = _ := hrun
  have hnit : o.niter = o1.niter := by rw [← ho1]
  obtain ⟨R, r1, r2⟩ := kdv_boundstates_ok hB g (next := next) hm (fun _ c => by cases c) (fun n c => by cases c) (bs := bc) (K0 := K1) hbc2.ge
    (fun _ _ => ⟨lam, hbc3⟩)
  refine ⟨fun h0 => ?_, fun hp => ?_⟩
  · rw [r2.zero h0] at r1
    refine ⟨c2, bc, Buf.malloc (Spec.dsLen o1.ds * K1), fun i hi => by omega, fun h => absurd rfl h, hrc, ?_⟩
    rw [hrun, kdvBaseDisc_empty rfl rfl hK1 r1]
    simp only [Option.bind_some, ne_eq, not_true_eq_false, if_false]
    rfl
  · obtain ⟨out, fail, w1, w2, w3, w4⟩ := r2.newton hp rfl lam hbc3
    rw [hnit]
    refine ⟨out, fail, w1, fun hf => ?_, fun hf hi => ?_⟩
    · rw [if_neg hf] at w2
      rw [hrun, kdvBaseDisc_fail rfl rfl hK1 r1 (by rw [w2]; decide), w2]
      simp only [Option.bind_some]
      rw [if_pos (by decide)]
      rfl
    · rw [if_pos hf] at w2
      have hR : R = (SUCCESS, K1, R.2.2) := by rw [← w2, ← w3]
      rw [hR] at r1
      obtain ⟨code, nc', k1, k2⟩ := kdvBaseDisc_finish hB g (s := ⟨c', some K1, some bc, some (Buf.malloc (Spec.dsLen o1.ds * K1))⟩) rfl rfl hK1
        (fun n hn => by cases hn; exact ⟨le_rfl, hds1⟩) le_rfl (out := out) r1 w4 (fun _ i hi' => (hi i hi').1) (fun n0 hn0 i hi' hno => absurd hno (hi i hi').2)
      obtain ⟨n1, b, rfl, g2, g3, g4, g5, g6⟩ := k2.some _ rfl
      have hnone : ∀ i, (Buf.malloc (Spec.dsLen o1.ds * K1) : Buf ℂ).rd i = none := fun i => by
        unfold Buf.rd Buf.malloc; split_ifs <;> rfl
      refine ⟨b, fun i hi' => by have := g4 i hi'; rwa [hnone] at this, fun hw hz => ?_, fun hz => ?_⟩
      · have hcode := g6 (show o1.ds ≠ .NORMING_CONSTANTS by rw [hw]; decide) hz
        rw [hrun, k1, hcode]
        simp only [Option.bind_some]
        rw [if_pos (by decide)]
        rfl
      · obtain ⟨hcode, hvals⟩ := g5 (by
          by_cases hb : o1.ds = .BOTH
          · exact Or.inr (hz hb)
          · left
            show o1.ds = _
            cases hh : o1.ds with
            | other k => exact absurd hh (hds1 k)
            | RESIDUES => exact absurd hh hres1
            | BOTH => exact absurd hh hb
            | NORMING_CONSTANTS => rfl)
        refine ⟨c2, R.2.2, n1, w4, fun _ => hvals, hrc, ?_⟩
        rw [hrun, k1, hcode]
        simp only [Option.bind_some, ne_eq, not_true_eq_false, if_false]
        rfl

/-! ### The theorems -/

/-- The continuous spectrum: `c1` is the array that the call without extrapolation returns (without bound states: none were requested, or none were found). The result contains the
extrapolation for all frequencies that the subsampled signal can resolve (`|ξ| < 0.9 π/(2 s eps)`), and otherwise the first approximation. The record of the options is unchanged. -/
theorem C74_continuous (h : Spec.KdvvArgs D q x T0 T1 o a v) (hD : 3 ≤ D) (hal : Spec.KdvSubModal D T0 T1 a x) (hrich : o.rich = 1) {M : ℕ} {XI0 XI1 : ℝ}
    {st : NsevSt} (hr : Spec.KdvvReq o M (some (XI0, XI1)) st) (hds : o.ds ≠ .RESIDUES) {next : NextToward} {g : ℕ → Garbage} {c1 : Option (Buf ℂ)} {K1 : Option ℕ}
    {bs1 nc1 : Option (Buf ℂ)} {o' : KdvvOpts}
    (h1 : fnft_kdvv next D (some q) (some (T0, T1)) M (some (XI0, XI1)) { o with rich := 0 } g st = some (SUCCESS, ⟨c1, K1, bs1, nc1⟩, o'))
    (hc1 : Spec.KdvContFilled D M XI0 XI1 o a c1) (hnb : bs1 = none ∨ K1 = some 0) :
    let run := fnft_kdvv next D (some q) (some (T0, T1)) M (some (XI0, XI1)) o g st
    let eps := (T1 - T0) / (D - 1)
    ∃ Ds s qs rs Us, Spec.SubGrid D (D / 2) Ds s ∧ 2 ≤ s ∧ Spec.KdvProcessed a D eps (fun i => (x i : ℂ)) Ds s qs rs ∧
      (if v ≠ 0 then Spec.NseSteps a (eps * s) qs rs Us else Spec.NseSteps a (eps * s) rs qs Us) ∧
      let D' := Ds * akns_upsampling_factor a
      let T1s := T0 + ((Ds - 1) * s : ℕ) * eps
      let as := Spec.kdvGridA a v D' T0 T1s (eps * s) XI0 XI1 M Us
      let bs := Spec.kdvGridB a v D' T0 T1s (eps * s) XI0 XI1 M Us
      ((c1.isSome ∧ M ≠ 0 → o.cs = .AB ∨ ∀ i, i < M → as i ≠ 0) →
        ∃ c2, Spec.ContRich s (akns_method_order a) eps M XI0 XI1 o.cs as bs c1 c2 ∧ run = some (SUCCESS, ⟨c2, K1, bs1, nc1⟩, o)) ∧
      (c1.isSome → M ≠ 0 → o.cs ≠ .AB → (∃ i, i < M ∧ as i = 0) →
        run = some (E_SUBROUTINE EC_DIV_BY_ZERO, ⟨c1, K1, bs1, nc1⟩, { o with loc := .NEWTON })) := by
  intro run eps
  have hres : kdvReserve ⟨st, o, none⟩ = some ⟨st, o, none⟩ := by
    unfold kdvReserve
    rw [if_neg (by tauto)]
  have hrun : run = _ := kdv_run_of_first h hrich hr hres h1
  have hdb : richDiscBuf 1 (KdvMain.mk ⟨c1, K1, bs1, nc1⟩ o none).toN = some (.ok (0, none, none)) := by
    unfold richDiscBuf
    dsimp only [KdvMain.toN]
    rcases hnb with rfl | rfl
    · rfl
    · cases bs1 <;> simp
  obtain ⟨Ds, s, qps, rps, qs, rs, Us, s1, s2, s3, s4, hB, key⟩ := kdvRich_run h hD hal rfl hc1 hdb
  refine ⟨Ds, s, qs, rs, Us, s1, s2, s3, s4, fun hasC => ?_, fun k1 k2 k3 k4 => ?_⟩
  · obtain ⟨c2, c', hrc, hrun2⟩ := (key next (g 1)).1 hasC
    refine ⟨c2, hrc, ?_⟩
    rw [hrun, hrun2, kdvBaseDisc_none (Or.inl rfl)]
    simp only [Option.bind_some, Option.map_some, ne_eq, not_true_eq_false, if_false]
    unfold richDisc
    cases bs1 <;> rfl
  · rw [hrun, (key next (g 1)).2 k1 k2 k3 k4]
    rfl

/-- Norming constants: the bound states are extrapolated. `c1`, `K1`, `bs1`, `nc1` are the results of the call without extrapolation. -/
theorem C74_norming_constants (h : Spec.KdvvArgs D q x T0 T1 o a v) (hD : 3 ≤ D) (hal : Spec.KdvSubModal D T0 T1 a x) (hrich : o.rich = 1) (hds : o.ds = .NORMING_CONSTANTS)
    {M : ℕ} {XI0 XI1 : ℝ} {st : NsevSt} (hr : Spec.KdvvReq o M (some (XI0, XI1)) st) {next : NextToward} {g : ℕ → Garbage} {c1 : Option (Buf ℂ)} {K1 : ℕ} {bs1 : Buf ℂ}
    {nc1 : Option (Buf ℂ)} {o' : KdvvOpts}
    (h1 : fnft_kdvv next D (some q) (some (T0, T1)) M (some (XI0, XI1)) { o with rich := 0 } g st = some (SUCCESS, ⟨c1, some K1, some bs1, nc1⟩, o'))
    (hc1 : Spec.KdvContFilled D M XI0 XI1 o a c1) (hK1 : K1 ≠ 0) {lam : ℕ → ℝ} (hlam : bs1.Holds 0 K1 (fun i => I * (lam i : ℂ))) :
    let run := fnft_kdvv next D (some q) (some (T0, T1)) M (some (XI0, XI1)) o g st
    let eps := (T1 - T0) / (D - 1)
    Spec.KdvSecond D T0 T1 M XI0 XI1 o a v x (c1.isSome ∧ M ≠ 0) False K1 lam
      (run = some (E_SUBROUTINE EC_DIV_BY_ZERO, ⟨c1, some K1, some bs1, nc1⟩, { o with loc := .NEWTON }))
      fun s as bs Ks mu _ _ => ∃ loc c2 bs2, (∀ i, i < K1 → Spec.Matched eps (I * (lam i : ℂ)) Ks mu (loc i)) ∧ Spec.ContRich s (akns_method_order a) eps M XI0 XI1 o.cs as bs c1 c2 ∧
        bs2.len = bs1.len ∧ bs2.Holds 0 K1 (Spec.extrapolated s (akns_method_order a) (fun i => I * (lam i : ℂ)) mu loc) ∧ run = some (SUCCESS, ⟨c2, some K1, some bs2, nc1⟩, o) := by
  intro run eps
  have hres : kdvReserve ⟨st, o, none⟩ = some ⟨st, o, none⟩ := by
    unfold kdvReserve
    rw [if_neg (by rw [hds]; simp)]
  have hrun : run = _ := kdv_run_of_first h hrich hr hres h1
  have key := kdv_second_run h hD hal (o1 := o) rfl (fun n => by rw [hds]; simp) (by rw [hds]; decide) hc1 hK1 hlam nc1 none next (g 1)
  refine Spec.KdvSecond.mono key Iff.rfl (by rw [hds]; simp) (fun he => ?_) ?_
  · rw [hrun, he]; rfl
  · rintro s as bs Ks mu b ap - ⟨c2, bsub, ncsub, k1, k2, k3, k4⟩
    obtain ⟨loc, hloc⟩ := rich_locs k1 eps (fun i => I * (lam i : ℂ))
    have hnot : ¬ (o.ds = .RESIDUES ∨ o.ds = .BOTH) := by rw [hds]; simp
    by_cases hKs : Ks = 0
    · subst hKs
      refine ⟨loc, c2, bs1, fun i _ => (hloc i).1, k3, rfl, fun i hi => ?_, ?_⟩
      · have hn : loc i = none := by
          have := (hloc i).1
          cases hl : loc i with
          | none => rfl
          | some m => rw [hl] at this; exact absurd this.1 (by omega)
        unfold Spec.extrapolated
        rw [hn]
        exact hlam i hi
      · rw [hrun, k4]
        unfold richDisc
        dsimp only
        rw [if_neg (by simp)]
        rfl
    · obtain ⟨bs2, e1, e2, e3, e4⟩ := richLoop_bs (s := s) (p := akns_method_order a) (rv := nc1) (sub := ncsub) hnot hlam k1 hloc
      refine ⟨loc, c2, bs2, fun i _ => (hloc i).1, k3, e2, e4, ?_⟩
      rw [hrun, k4]
      unfold richDisc
      dsimp only
      rw [if_pos ⟨rfl, by simpa using hK1, hKs⟩]
      simp only [Option.isSome_none, Bool.false_eq_true, if_false, Option.bind_eq_bind, Option.bind_some]
      rw [show forLoop K1 (richBody K1 Ks ((s : ℝ) ^ akns_method_order a) ((T1 - T0) / (D - 1)) o.ds bsub) ⟨bs1, nc1, ncsub⟩ = _ from e1]
      simp only [Option.bind_some]
      rw [if_neg (by tauto), if_neg (by tauto)]
      rfl

/-- Norming constants and residues: the bound states and the residues are extrapolated, the norming constants are those of the first approximation. As in C73, if several bound states have the
same partner, then the program uses the residue of the partner instead of `a'` for every second one (`usedDeriv`). -/
theorem C74_both_used (h : Spec.KdvvArgs D q x T0 T1 o a v) (hD : 3 ≤ D) (hal : Spec.KdvSubModal D T0 T1 a x) (hrich : o.rich = 1) (hds : o.ds = .BOTH)
    {M : ℕ} {XI0 XI1 : ℝ} {st : NsevSt} (hr : Spec.KdvvReq o M (some (XI0, XI1)) st) {next : NextToward} {g : ℕ → Garbage} {c1 : Option (Buf ℂ)} {K1 : ℕ} {bs1 nc1 : Buf ℂ}
    {o' : KdvvOpts}
    (h1 : fnft_kdvv next D (some q) (some (T0, T1)) M (some (XI0, XI1)) { o with rich := 0 } g st = some (SUCCESS, ⟨c1, some K1, some bs1, some nc1⟩, o'))
    (hc1 : Spec.KdvContFilled D M XI0 XI1 o a c1) (hK1 : K1 ≠ 0) {lam : ℕ → ℝ} {b1 r1 : ℕ → ℂ} (hlam : bs1.Holds 0 K1 (fun i => I * (lam i : ℂ)))
    (hb1 : nc1.Holds 0 K1 b1) (hr1 : nc1.Holds K1 K1 r1) :
    let run := fnft_kdvv next D (some q) (some (T0, T1)) M (some (XI0, XI1)) o g st
    let eps := (T1 - T0) / (D - 1)
    Spec.KdvSecond D T0 T1 M XI0 XI1 o a v x (c1.isSome ∧ M ≠ 0) True K1 lam
      (run = some (E_SUBROUTINE EC_DIV_BY_ZERO, ⟨c1, some K1, some bs1, some nc1⟩, { o with loc := .NEWTON }))
      fun s as bs Ks mu b ap => ∃ loc c2, (∀ i, i < K1 → Spec.Matched eps (I * (lam i : ℂ)) Ks mu (loc i)) ∧ Spec.ContRich s (akns_method_order a) eps M XI0 XI1 o.cs as bs c1 c2 ∧
        (Spec.ResiduesOK s (akns_method_order a) K1 b1 r1 b (Spec.usedDeriv b ap loc) loc → ∃ bs2 nc2, bs2.len = bs1.len ∧ nc2.len = nc1.len ∧
          bs2.Holds 0 K1 (Spec.extrapolated s (akns_method_order a) (fun i => I * (lam i : ℂ)) mu loc) ∧ nc2.Holds 0 K1 b1 ∧
          nc2.Holds K1 K1 (Spec.extrapolatedResidue s (akns_method_order a) b1 r1 (Spec.usedDeriv b ap loc) loc) ∧
          run = some (SUCCESS, ⟨c2, some K1, some bs2, some nc2⟩, o)) := by
  intro run eps
  have hres : kdvReserve ⟨st, o, none⟩ = some ⟨st, o, none⟩ := by
    unfold kdvReserve
    rw [if_neg (by rw [hds]; simp)]
  have hrun : run = _ := kdv_run_of_first h hrich hr hres h1
  have key := kdv_second_run h hD hal (o1 := o) rfl (fun n => by rw [hds]; simp) (by rw [hds]; decide) hc1 hK1 hlam (some nc1) none next (g 1)
  refine Spec.KdvSecond.mono key Iff.rfl (by rw [hds]; simp) (fun he => ?_) ?_
  · rw [hrun, he]; rfl
  · rintro s as bs Ks mu b ap hap ⟨c2, bsub, ncsub, k1, k2, k3, k4⟩
    obtain ⟨loc, hloc⟩ := rich_locs k1 eps (fun i => I * (lam i : ℂ))
    refine ⟨loc, c2, fun i _ => (hloc i).1, k3, fun hres => ?_⟩
    by_cases hKs : Ks = 0
    · subst hKs
      have hn : ∀ i, loc i = none := fun i => by
        have := (hloc i).1
        cases hl : loc i with
        | none => rfl
        | some m => rw [hl] at this; exact absurd this.1 (by omega)
      refine ⟨bs1, nc1, rfl, rfl, fun i hi => ?_, hb1, fun i hi => ?_, ?_⟩
      · unfold Spec.extrapolated
        rw [hn]
        exact hlam i hi
      · unfold Spec.extrapolatedResidue
        rw [hn]
        exact hr1 i hi
      · rw [hrun, k4]
        unfold richDisc
        dsimp only
        rw [if_neg (by simp)]
        rfl
    · have k2 := k2 hKs
      rw [hds] at k2
      obtain ⟨bs2, nc2, sub2, e1, e2, e3, e4, e5, e6, e7⟩ := richLoop_res (s := s) (p := akns_method_order a) (ds := o.ds) (Or.inr hds) hlam k1 (rv := nc1) (sub := ncsub) (b := b1) (r := r1) (b2 := b) (ap := ap)
        (fun i hi => ⟨by simpa using hb1 i hi, hr1 i hi⟩)
        (fun i hi => ⟨by
          have := k2 i (by simp only [Spec.dsLen]; omega)
          rw [Nat.zero_add] at this
          rw [this]
          simp only [Spec.dsOut, if_pos hi], by
          have := k2 (Ks + i) (by simp only [Spec.dsLen]; omega)
          rw [Nat.zero_add] at this
          rw [this]
          simp only [Spec.dsOut, if_neg (show ¬ Ks + i < Ks by omega), Nat.add_sub_cancel_left]⟩)
        hloc (fun i m hi hl => by
          obtain ⟨q1, q2, q3⟩ := hres i m hi hl
          have := (hloc i).1
          rw [hl] at this
          exact ⟨q1, q2, hap hds m this.1, q3⟩)
      refine ⟨bs2, nc2, e2, e5, e4, fun i hi => ?_, e7, ?_⟩
      · rw [e6 _ (by omega)]
        exact hb1 i hi
      · rw [hrun, k4]
        unfold richDisc
        dsimp only
        rw [if_pos ⟨rfl, by simpa using hK1, hKs⟩]
        simp only [Option.isSome_none, Bool.false_eq_true, if_false, Option.bind_eq_bind, Option.bind_some]
        rw [show forLoop K1 (richBody K1 Ks ((s : ℝ) ^ akns_method_order a) ((T1 - T0) / (D - 1)) o.ds bsub) ⟨bs1, some nc1, ncsub⟩ = _ from e1]
        simp only [Option.bind_some]
        rw [if_neg (by rw [hds]; decide), if_pos hds]
        rfl

/-- The same, if no two bound states have the same partner. -/
theorem C74_both (h : Spec.KdvvArgs D q x T0 T1 o a v) (hD : 3 ≤ D) (hal : Spec.KdvSubModal D T0 T1 a x) (hrich : o.rich = 1) (hds : o.ds = .BOTH)
    {M : ℕ} {XI0 XI1 : ℝ} {st : NsevSt} (hr : Spec.KdvvReq o M (some (XI0, XI1)) st) {next : NextToward} {g : ℕ → Garbage} {c1 : Option (Buf ℂ)} {K1 : ℕ} {bs1 nc1 : Buf ℂ}
    {o' : KdvvOpts}
    (h1 : fnft_kdvv next D (some q) (some (T0, T1)) M (some (XI0, XI1)) { o with rich := 0 } g st = some (SUCCESS, ⟨c1, some K1, some bs1, some nc1⟩, o'))
    (hc1 : Spec.KdvContFilled D M XI0 XI1 o a c1) (hK1 : K1 ≠ 0) {lam : ℕ → ℝ} {b1 r1 : ℕ → ℂ} (hlam : bs1.Holds 0 K1 (fun i => I * (lam i : ℂ)))
    (hb1 : nc1.Holds 0 K1 b1) (hr1 : nc1.Holds K1 K1 r1) :
    let run := fnft_kdvv next D (some q) (some (T0, T1)) M (some (XI0, XI1)) o g st
    let eps := (T1 - T0) / (D - 1)
    Spec.KdvSecond D T0 T1 M XI0 XI1 o a v x (c1.isSome ∧ M ≠ 0) True K1 lam
      (run = some (E_SUBROUTINE EC_DIV_BY_ZERO, ⟨c1, some K1, some bs1, some nc1⟩, { o with loc := .NEWTON }))
      fun s as bs Ks mu b ap => ∃ loc c2, (∀ i, i < K1 → Spec.Matched eps (I * (lam i : ℂ)) Ks mu (loc i)) ∧ Spec.ContRich s (akns_method_order a) eps M XI0 XI1 o.cs as bs c1 c2 ∧
        (Spec.OwnPartner K1 loc → Spec.ResiduesOK s (akns_method_order a) K1 b1 r1 b (fun _ => ap) loc → ∃ bs2 nc2, bs2.len = bs1.len ∧ nc2.len = nc1.len ∧
          bs2.Holds 0 K1 (Spec.extrapolated s (akns_method_order a) (fun i => I * (lam i : ℂ)) mu loc) ∧ nc2.Holds 0 K1 b1 ∧
          nc2.Holds K1 K1 (Spec.extrapolatedResidue s (akns_method_order a) b1 r1 (fun _ => ap) loc) ∧
          run = some (SUCCESS, ⟨c2, some K1, some bs2, some nc2⟩, o)) := by
  intro run eps
  refine Spec.KdvSecond.mono (C74_both_used h hD hal hrich hds hr h1 hc1 hK1 hlam hb1 hr1) Iff.rfl Iff.rfl id ?_
  rintro s as bs Ks mu b ap - ⟨loc, c2, k1, k2, k3⟩
  refine ⟨loc, c2, k1, k2, fun hown hres => ?_⟩
  obtain ⟨bs2, nc2, e1, e2, e3, e4, e5, e6⟩ := k3 (residuesOK_own hown hres)
  exact ⟨bs2, nc2, e1, e2, e3, e4, fun i hi => by rw [e5 i hi, extrapolatedResidue_own hown hi], e6⟩

theorem kdvReserve_res (hrich : o.rich = 1) (hds : o.ds = .RESIDUES) {c bs nc : Option (Buf ℂ)} {K0 : ℕ} :
    kdvReserve ⟨⟨c, some K0, bs, nc⟩, o, none⟩ = some ⟨⟨c, some K0, bs, nc⟩, { o with ds := .BOTH }, some (Buf.malloc (K0 * 2))⟩ := by
  unfold kdvReserve
  rw [if_pos ⟨hrich, hds⟩]
  rfl

/-- Finding: residues. First, the program executes the call with the discrete spectrum type BOTH on the array of the user: if that one leaves the array (it writes two values for each bound
state, while the array is documented to have space for one), then so does this one. -/
theorem C74_residues_overflow (h : Spec.KdvvArgs D q x T0 T1 o a v) (hrich : o.rich = 1) (hds : o.ds = .RESIDUES)
    {M : ℕ} {XI : Option (ℝ × ℝ)} {c bs nc : Option (Buf ℂ)} {K0 : ℕ} (hr : Spec.KdvvReq o M XI ⟨c, some K0, bs, nc⟩) {next : NextToward} {g : ℕ → Garbage}
    (h1 : fnft_kdvv next D (some q) (some (T0, T1)) M XI { o with ds := .BOTH, rich := 0 } g ⟨c, some K0, bs, nc⟩ = none) :
    fnft_kdvv next D (some q) (some (T0, T1)) M XI o g ⟨c, some K0, bs, nc⟩ = none := by
  have h0 : Spec.KdvvArgs D q x T0 T1 { o with ds := .BOTH, rich := 0 } a v := ⟨h.hd, h.hv, h.hD, h.hCF, h.hsize, h.hq, h.hT, h.hal⟩
  have hr0 : Spec.KdvvReq { o with ds := .BOTH, rich := 0 } M XI ⟨c, some K0, bs, nc⟩ := ⟨hr.hXI, hr.hM, hr.hgrid, hr.hM1, hr.hK, hr.hguess⟩
  obtain ⟨qp, rp, qf, rf, p1, p2, p3⟩ := kdvv_pre h
  have hup : kdv_upsampling_factor o.disc = akns_upsampling_factor a := by rw [kdv_upsampling_factor, h.hd]
  have hup0 : akns_upsampling_factor a ≠ 0 := (kdv_known h.hd).1
  obtain ⟨r1, r2, r3, r4⟩ := kdvv_not_reject h hr
  obtain ⟨r1', r2', r3', r4'⟩ := kdvv_not_reject h0 hr0
  unfold fnft_kdvv at h1 ⊢
  rw [if_neg r1, if_neg r2, if_neg r3, if_neg r4]
  rw [if_neg r1', if_neg r2', if_neg r3', if_neg r4'] at h1
  simp only [Option.bind_eq_bind, Option.bind_some] at h1 ⊢
  unfold kdvvRun at h1 ⊢
  have e0 : kdvReserve ⟨⟨c, some K0, bs, nc⟩, { o with ds := .BOTH, rich := 0 }, none⟩ = some ⟨⟨c, some K0, bs, nc⟩, { o with ds := .BOTH, rich := 0 }, none⟩ := by
    unfold kdvReserve
    rw [if_neg]
    rintro ⟨hc, -⟩
    exact absurd hc (by norm_num)
  dsimp only at h1
  rw [hup, if_neg hup0] at h1 ⊢
  simp only [Option.bind_eq_bind, Option.bind_some, kdvReserve_res hrich hds, e0, p1] at h1 ⊢
  rcases hF : kdvv_base next (D * akns_upsampling_factor a) qp rp T0 T1 M XI { o with ds := .BOTH } (g 0) ⟨c, some K0, bs, nc⟩ with _ | F
  · rfl
  · have hF' : kdvv_base next (D * akns_upsampling_factor a) qp rp T0 T1 M XI { o with ds := .BOTH, rich := 0 } (g 0) ⟨c, some K0, bs, nc⟩ = some F := hF
    rw [hF'] at h1
    simp only [Option.bind_some] at h1
    split_ifs at h1
    · unfold kdvRichIf at h1
      rw [if_neg (by norm_num)] at h1
      cases h1

/-- Second, even if the array of the user has enough space: if there is a bound state in both approximations, then the program reads values that nobody has written (the array
`normconsts_or_residues_reserve`). So there is no case in which extrapolated residues can be obtained. -/
theorem C74_residues_uninitialised (h : Spec.KdvvArgs D q x T0 T1 o a v) (hD : 3 ≤ D) (hal : Spec.KdvSubModal D T0 T1 a x) (hrich : o.rich = 1) (hds : o.ds = .RESIDUES)
    {M : ℕ} {XI0 XI1 : ℝ} {c : Option (Buf ℂ)} {K0 : ℕ} {bs nc : Option (Buf ℂ)} (hr : Spec.KdvvReq o M (some (XI0, XI1)) ⟨c, some K0, bs, nc⟩)
    {next : NextToward} {g : ℕ → Garbage} {c1 nc1 : Option (Buf ℂ)} {K1 : ℕ} {bs1 : Buf ℂ} {o' : KdvvOpts}
    (h1 : fnft_kdvv next D (some q) (some (T0, T1)) M (some (XI0, XI1)) { o with ds := .BOTH, rich := 0 } g ⟨c, some K0, bs, nc⟩ =
      some (SUCCESS, ⟨c1, some K1, some bs1, nc1⟩, o'))
    (hc1 : Spec.KdvContFilled D M XI0 XI1 o a c1) (hK1 : K1 ≠ 0) {lam : ℕ → ℝ} (hlam : bs1.Holds 0 K1 (fun i => I * (lam i : ℂ))) :
    let run := fnft_kdvv next D (some q) (some (T0, T1)) M (some (XI0, XI1)) o g ⟨c, some K0, bs, nc⟩
    Spec.KdvSecond D T0 T1 M XI0 XI1 o a v x (c1.isSome ∧ M ≠ 0) True K1 lam
      (run = some (E_SUBROUTINE EC_DIV_BY_ZERO, ⟨c1, some K1, some bs1, nc1⟩, { o with ds := .BOTH, loc := .NEWTON }))
      fun _ _ _ Ks _ _ _ => Ks ≠ 0 → run = none := by
  intro run
  have hrun : run = _ := kdv_run_of_first h hrich hr (kdvReserve_res hrich hds) h1
  have key := kdv_second_run h hD hal (o1 := { o with ds := .BOTH }) rfl (fun n => by simp) (by simp) hc1 hK1 hlam nc1 (some (Buf.malloc (K0 * 2))) next (g 1)
  refine Spec.KdvSecond.mono key Iff.rfl (by simp) (fun he => ?_) ?_
  · rw [hrun, he]
    rfl
  · rintro s as bs Ks mu b ap hap ⟨c2, bsub, ncsub, k1, k2, k3, k4⟩ hKs
    have hnone : ∀ n i, (Buf.malloc n : Buf ℂ).rd i = none := fun n i => by
      unfold Buf.rd Buf.malloc; split_ifs <;> rfl
    rw [hrun, k4]
    unfold richDisc
    dsimp only
    rw [if_pos ⟨rfl, by simpa using hK1, hKs⟩]
    simp only [Option.isSome_some, if_true, Option.bind_eq_bind, Option.bind_some]
    rcases hL : forLoop K1 (richBody K1 Ks ((s : ℝ) ^ akns_method_order a) ((T1 - T0) / (D - 1)) o.ds bsub) ⟨bs1, some (Buf.malloc (K0 * 2)), ncsub⟩ with _ | S
    · rfl
    · have hS : S.rv = some (Buf.malloc (K0 * 2)) := by
        refine forLoop_some (fun _ (S : RichSt) => S.rv = some (Buf.malloc (K0 * 2))) hL rfl ?_
        intro i S S' hi hS hb
        unfold richBody at hb
        simp only [Option.bind_eq_bind, Option.bind_eq_some_iff] at hb
        obtain ⟨l, -, f, -, hb⟩ := hb
        split at hb
        · cases hb; exact hS
        · simp only [Option.bind_eq_some_iff] at hb
          obtain ⟨y, -, b', -, hb⟩ := hb
          rw [if_pos (Or.inl hds), hS] at hb
          simp only [Option.bind_eq_some_iff] at hb
          obtain ⟨rv, hrv, R, hR, -⟩ := hb
          cases hrv
          unfold richResidue at hR
          simp only [hnone, Option.bind_eq_bind, Option.bind_none] at hR
          cases hR
      simp only [Option.bind_some]
      rw [if_pos hds, hS]
      cases nc1 with
      | none => rfl
      | some nc1 =>
        simp only [Option.bind_some]
        rw [show fill 0 K1 (fun i => (Buf.malloc (K0 * 2) : Buf ℂ).rd (K1 + i)) nc1 = none from ?_]
        · rfl
        · obtain ⟨k, rfl⟩ := Nat.exists_eq_succ_of_ne_zero hK1
          rcases hfl : fill 0 (k + 1) (fun i => (Buf.malloc (K0 * 2) : Buf ℂ).rd (k + 1 + i)) nc1 with _ | z
          · rfl
          · exfalso
            have := (fill_some hfl).2 0
            rw [if_pos (by omega)] at this
            obtain ⟨y, hy, -⟩ := this
            rw [hnone] at hy
            cases hy

/-- Finding: BOTH with `normconsts_or_residues == NULL`. If there is a bound state in both approximations, then the program uses the null pointer. -/
theorem C74_both_null (h : Spec.KdvvArgs D q x T0 T1 o a v) (hD : 3 ≤ D) (hal : Spec.KdvSubModal D T0 T1 a x) (hrich : o.rich = 1) (hds : o.ds = .BOTH)
    {M : ℕ} {XI0 XI1 : ℝ} {st : NsevSt} (hr : Spec.KdvvReq o M (some (XI0, XI1)) st) {next : NextToward} {g : ℕ → Garbage} {c1 : Option (Buf ℂ)} {K1 : ℕ} {bs1 : Buf ℂ}
    {o' : KdvvOpts}
    (h1 : fnft_kdvv next D (some q) (some (T0, T1)) M (some (XI0, XI1)) { o with rich := 0 } g st = some (SUCCESS, ⟨c1, some K1, some bs1, none⟩, o'))
    (hc1 : Spec.KdvContFilled D M XI0 XI1 o a c1) (hK1 : K1 ≠ 0) {lam : ℕ → ℝ} (hlam : bs1.Holds 0 K1 (fun i => I * (lam i : ℂ))) :
    let run := fnft_kdvv next D (some q) (some (T0, T1)) M (some (XI0, XI1)) o g st
    Spec.KdvSecond D T0 T1 M XI0 XI1 o a v x (c1.isSome ∧ M ≠ 0) True K1 lam
      (run = some (E_SUBROUTINE EC_DIV_BY_ZERO, ⟨c1, some K1, some bs1, none⟩, { o with loc := .NEWTON }))
      fun _ _ _ Ks _ _ _ => Ks ≠ 0 → run = none := by
  intro run
  have hres : kdvReserve ⟨st, o, none⟩ = some ⟨st, o, none⟩ := by
    unfold kdvReserve
    rw [if_neg (by rw [hds]; simp)]
  have hrun : run = _ := kdv_run_of_first h hrich hr hres h1
  have key := kdv_second_run h hD hal (o1 := o) rfl (fun n => by rw [hds]; simp) (by rw [hds]; decide) hc1 hK1 hlam none none next (g 1)
  refine Spec.KdvSecond.mono key Iff.rfl (by rw [hds]; simp) (fun he => ?_) ?_
  · rw [hrun, he]; rfl
  · rintro s as bs Ks mu b ap hap ⟨c2, bsub, ncsub, k1, k2, k3, k4⟩ hKs
    rw [hrun, k4]
    unfold richDisc
    dsimp only
    rw [if_pos ⟨rfl, by simpa using hK1, hKs⟩]
    simp only [Option.isSome_none, Bool.false_eq_true, if_false, Option.bind_eq_bind, Option.bind_some]
    rcases hL : forLoop K1 (richBody K1 Ks ((s : ℝ) ^ akns_method_order a) ((T1 - T0) / (D - 1)) o.ds bsub) ⟨bs1, none, ncsub⟩ with _ | S
    · rfl
    · have hS : S.rv = none := by
        refine forLoop_some (fun _ (S : RichSt) => S.rv = none) hL rfl ?_
        intro i S S' hi hS hb
        unfold richBody at hb
        simp only [Option.bind_eq_bind, Option.bind_eq_some_iff] at hb
        obtain ⟨l, -, f, -, hb⟩ := hb
        split at hb
        · cases hb; exact hS
        · simp only [Option.bind_eq_some_iff] at hb
          obtain ⟨y, -, b', -, hb⟩ := hb
          rw [if_pos (Or.inr hds), hS] at hb
          cases hb
      simp only [Option.bind_some]
      rw [if_neg (by rw [hds]; decide), if_pos hds, hS]
      rfl

/-- A case: two guesses that Newton's method accepts (no iterations), a signal with four samples; neither the continuous spectrum nor norming constants are requested. -/
example : let o := { kdvv_default_opts with loc := .NEWTON, niter := 0, rich := 1 }
    Spec.KdvvArgs 4 (Buf.ofList [1, 2, -3, 4]) (fun i => [1, 2, -3, 4].getD i 0) (-1) 1 o .D2SPLIT4B 0 ∧
      Spec.KdvSubModal 4 (-1) 1 .D2SPLIT4B (fun i => [1, 2, -3, 4].getD i 0) ∧ o.ds = .NORMING_CONSTANTS ∧
      Spec.KdvvReq o 0 (some (-1, 1)) ⟨none, some 2, some (Buf.ofList [I * (1 : ℝ), I * (2 : ℝ)]), none⟩ ∧ Spec.KdvContFilled 4 0 (-1) 1 o .D2SPLIT4B none ∧
      ∀ next g, ∃ bs1 o', fnft_kdvv next 4 (some (Buf.ofList [1, 2, -3, 4])) (some (-1, 1)) 0 (some (-1, 1)) { o with rich := 0 } g
        ⟨none, some 2, some (Buf.ofList [I * (1 : ℝ), I * (2 : ℝ)]), none⟩ = some (SUCCESS, ⟨none, some 2, some bs1, none⟩, o') ∧
        bs1.Holds 0 2 (fun i => I * (([1, 2].getD i 0 : ℝ) : ℂ)) := by
  intro o
  have hargs : ∀ r : ℤ, Spec.KdvvArgs 4 (Buf.ofList [1, 2, -3, 4]) (fun i => [1, 2, -3, 4].getD i 0) (-1) 1 { o with rich := r } .D2SPLIT4B 0 := fun r =>
    { hd := rfl, hv := rfl, hD := by norm_num, hCF := fun h => (by norm_num), hsize := by decide
      hq := by intro i hi; have : i < 4 := by omega
               interval_cases i <;> simp [Buf.ofList, Buf.rd]
      hT := by norm_num, hal := fun h => by cases h }
  have hb : (Buf.ofList [I * (1 : ℝ), I * (2 : ℝ)] : Buf ℂ).Holds 0 2 (fun i => I * (([1, 2].getD i 0 : ℝ) : ℂ)) := by
    intro i hi
    interval_cases i <;> rfl
  have hreq : ∀ r : ℤ, Spec.KdvvReq { o with rich := r } 0 (some (-1, 1)) ⟨none, some 2, some (Buf.ofList [I * (1 : ℝ), I * (2 : ℝ)]), none⟩ := fun r => by
    refine ⟨(fun h => by simp at h), Or.inl rfl, (fun _ _ h => by omega), by norm_num, (fun _ => by simp), ?_⟩
    intro _ bs K i u h1 h2 h3 h4
    simp only [Option.some.injEq] at h1 h2
    subst h1 h2
    have := hb i h3
    rw [Nat.zero_add, h4] at this
    injection this with this
    rw [this]
    interval_cases i <;> simp
  refine ⟨hargs 1, (fun h => by cases h), rfl, hreq 1, (fun cb h => by cases h), fun next g => ?_⟩
  obtain ⟨qf, rf, U, E, A', m, k1, -, -, -, km, hm0, k⟩ := C49_newton (hargs 0) (o := { o with rich := 0 }) rfl (by decide) (by norm_num) (hreq 0) hb
    (nc := none) (fun n hn => by cases hn)
  obtain ⟨c', hc', -, k2⟩ := k next g (fun cb h => by cases h)
  have hc' : c' = none := hc'.1 (Or.inl rfl)
  subst hc'
  have hpos : 0 < m := by
    have e : qf 1 = 2 := by
      rw [Spec.KdvProcessed, if_pos (show akns_upsampling_factor .D2SPLIT4B = 1 from rfl)] at k1
      have := (k1 1 (by norm_num)).1
      rw [this]; simp
    unfold Spec.KdvBoundSq at km
    rw [if_pos (by decide)] at km
    have : (2 : ℝ) ≤ m := km.2 (Or.inr ⟨1, by decide, (fun h => by rcases h with h | h <;> cases h), by rw [e]; simp⟩)
    linarith
  obtain ⟨out, fail, bs', w1, w2, w3, w4, w5, w6⟩ := k2 hpos
  have hrun : ∀ {A A' : ℝ → ℝ} {tol b : ℝ} {z k stop}, Spec.RealNewton A A' tol b 0 z k stop → k = 0 ∧ stop ≠ .failed := by
    intro A A' tol b z k stop hr
    refine ⟨by have := hr.budget; omega, fun hs => ?_⟩
    subst hs
    have := hr.reason
    exact absurd this.1 (by omega)
  have hfail : fail = none := by
    cases hfl : fail with
    | none => rfl
    | some f =>
      obtain ⟨-, ⟨z, k, -, hr, -⟩, -⟩ := w1.failed f hfl
      exact absurd rfl (hrun hr).2
  obtain ⟨code, nc', k3, k4⟩ := w6 hfail (fun n0 h0 => by cases h0)
  obtain ⟨rfl, rfl⟩ := k4.none rfl
  refine ⟨bs', _, k3, fun i hi => ?_⟩
  rw [w3 i hi]
  obtain ⟨z, k, stop, hz, hr, -, hc⟩ := w1.run i hi (fun f hf => by rw [hfail] at hf; cases hf)
  dsimp only
  rw [hc, (hrun hr).1, hz]

end FNFT

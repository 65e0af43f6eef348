import Verif.Proofs.KdvNormc
import Verif.Proofs.KdvDeriv
import Verif.Props.NsevRichDisc
/-!
# Proofs: Richardson extrapolation in `fnft_kdvv`
-/
namespace FNFT
open Complex AknsDisc

variable {D : ℕ} {q : Buf ℂ} {x : ℕ → ℝ} {T0 T1 : ℝ} {o : KdvvOpts} {a : AknsDisc} {v : ℕ}

/-- The subsampled signal and the arguments of `fnft_kdvv_base`. -/
theorem kdvv_pre_sub (h : Spec.KdvvArgs D q x T0 T1 o a v) (Dsub0 : ℕ)
    (hal : a = .D2SPLIT2_MODAL → ∀ s n, s ≤ D → s * n < D → ((T1 - T0) / (D - 1) * s) ^ 2 * x (s * n) ≠ -1) :
    ∃ Ds s qp rp qf rf, Spec.SubGrid D Dsub0 Ds s ∧
      kdv_preprocess_signal D (some q) ((T1 - T0) / (D - 1)) Dsub0 o.disc =
        some ⟨SUCCESS, Ds, some (qp, rp), some (0, (Ds - 1) * s)⟩ ∧
      Spec.KdvProcessed a D ((T1 - T0) / (D - 1)) (fun i => (x i : ℂ)) Ds s qf rf ∧
      ∀ o' : KdvvOpts, o'.disc = o.disc →
        KdvBaseArgs (Ds * akns_upsampling_factor a) Ds qp rp qf rf T0 (T0 + ((Ds - 1) * s : ℕ) * ((T1 - T0) / (D - 1)))
          ((T1 - T0) / (D - 1) * s) o' a v := by
  have heps := h.eps_pos
  obtain ⟨Ds, s, qp, rp, qf, rf, h1, h2, h3, h4, h5⟩ := kdv_pre_ok h.hd h.hD h.hCF h.lt h.hq heps Dsub0
  have h2' := h2
  obtain ⟨g1, g2, g3, g4, -, -⟩ := h2'
  have hs0 : (1 : ℝ) ≤ s := by exact_mod_cast g1
  have hDs : (2 : ℝ) ≤ Ds := by exact_mod_cast g2
  have hsD : s ≤ D := by
    have : s ≤ (Ds - 1) * s := Nat.le_mul_of_pos_left _ (by omega)
    omega
  refine ⟨Ds, s, qp, rp, qf, rf, h2, h1, h5, fun o' ho' => ⟨by rw [ho']; exact h.hd, by rw [ho']; exact h.hv, rfl, g2, ?_, h3, h4, ?_, ?_, ?_⟩⟩
  · exact le_trans (Nat.mul_le_mul_right _ g3) h.hsize
  · have : 0 < (((Ds - 1) * s : ℕ) : ℝ) := by
      have : 0 < (Ds - 1) * s := Nat.mul_pos (by omega) (by omega)
      exact_mod_cast this
    have := mul_pos this heps
    linarith
  · rw [Nat.cast_mul, Nat.cast_sub (by omega), Nat.cast_one, add_sub_cancel_left, eq_div_iff (by linarith)]
    ring
  · rintro rfl n hn
    rw [Spec.KdvProcessed, if_pos (by rfl)] at h5
    have hn' : n < Ds := by simpa [akns_upsampling_factor] using hn
    obtain ⟨e1, e2⟩ := h5 n hn'
    rw [e1, e2]
    have hsn : s * n < D := by
      have : s * n ≤ (Ds - 1) * s := by rw [Nat.mul_comm]; exact Nat.mul_le_mul_right _ (by omega)
      omega
    intro hc
    apply hal rfl s n hsD hsn
    have : ((((T1 - T0) / (D - 1) * s) ^ 2 * x (s * n) : ℝ) : ℂ) = ((-1 : ℝ) : ℂ) := by
      push_cast at hc ⊢
      linear_combination -hc
    exact_mod_cast this

theorem kdv_pre_step {d : KdvDisc} {eps : ℝ} {R : PreRes} {Dsub0 : ℕ} (h : kdv_preprocess_signal D (some q) eps Dsub0 d = some R) {fl : ℕ × ℕ}
    (hR : R.first_last = some fl) :
    ∃ m s, m = (if (if Dsub0 < 2 then 2 else Dsub0) > D then D else (if Dsub0 < 2 then 2 else Dsub0)) ∧ s = roundDiv D m ∧
      R.Dsub = roundDiv D s ∧ fl.2 = (R.Dsub - 1) * s := by
  refine ⟨_, _, rfl, rfl, ?_⟩
  have main : ∀ a (rf : ℕ → ℂ → ℂ) (P : PreRes), akns_preprocess_signal D (some q) rf eps Dsub0 a = some P → P.first_last = some fl →
      P.Dsub = roundDiv D (roundDiv D (if (if Dsub0 < 2 then 2 else Dsub0) > D then D else (if Dsub0 < 2 then 2 else Dsub0))) ∧
      fl.2 = (P.Dsub - 1) * roundDiv D (if (if Dsub0 < 2 then 2 else Dsub0) > D then D else (if Dsub0 < 2 then 2 else Dsub0)) := by
    intro a rf P hP hfl
    unfold akns_preprocess_signal at hP
    dsimp only at hP
    split at hP
    · cases hP; cases hfl
    · split at hP
      · cases hP; cases hfl
      · split at hP
        · cases hP; cases hfl
        · rw [Option.bind_eq_bind, Option.bind_eq_some_iff] at hP
          obtain ⟨S, -, hP⟩ := hP
          cases S with
          | error ec => cases hP; cases hfl
          | ok t =>
            cases hP; cases hfl
            exact ⟨rfl, rfl⟩
  unfold kdv_preprocess_signal at h
  split at h
  · cases h; cases hR
  · rw [Option.bind_eq_bind, Option.bind_eq_some_iff] at h
    obtain ⟨P, hP, h⟩ := h
    cases h
    by_cases hs : P.ret = SUCCESS
    · rw [if_pos hs] at hR ⊢
      exact main _ _ P hP hR
    · rw [if_neg hs] at hR ⊢
      exact main _ _ P hP hR

/-- With at most half of the samples, the step is at least two. -/
theorem kdv_half_step (hD : 3 ≤ D) {d : KdvDisc} {eps : ℝ} {R : PreRes} (h : kdv_preprocess_signal D (some q) eps (D / 2) d = some R)
    {s : ℕ} (h2 : 2 ≤ R.Dsub) (hR : R.first_last = some (0, (R.Dsub - 1) * s)) : 2 ≤ s := by
  obtain ⟨m, s', hm, hs', -, he⟩ := kdv_pre_step h hR
  have he : (R.Dsub - 1) * s = (R.Dsub - 1) * s' := he
  have : s = s' := Nat.eq_of_mul_eq_mul_left (by omega) he
  subst this
  have hle : 2 * m ≤ D ∨ D = 3 ∧ m = 2 := by
    have : m = 2 ∨ m = D / 2 := by rw [hm]; split_ifs <;> omega
    omega
  have hm2 : 2 ≤ m := by
    rw [hm]
    split_ifs <;> omega
  rw [hs', roundDiv_eq D m (by omega)]
  apply (Nat.le_div_iff_mul_le (by omega)).mpr
  omega

/-- The array with the continuous spectrum of the first approximation is filled. -/
def Spec.KdvContFilled (D M : ℕ) (XI0 XI1 : ℝ) (o : KdvvOpts) (a : AknsDisc) (c1 : Option (Buf ℂ)) : Prop :=
  ∀ cb, c1 = some cb → M = 0 ∨ (Spec.KdvContReq D M XI0 XI1 o a cb ∧ ∃ u, cb.Holds 0 (Spec.csLen o.cs * M) u)

/-- The second approximation: everything except for the localization of the bound states. -/
theorem kdvRich_run (h : Spec.KdvvArgs D q x T0 T1 o a v) (hD : 3 ≤ D)
    (hal : a = .D2SPLIT2_MODAL → ∀ s n, s ≤ D → s * n < D → ((T1 - T0) / (D - 1) * s) ^ 2 * x (s * n) ≠ -1)
    {o1 : KdvvOpts} (ho1 : { o1 with ds := o.ds } = o) {M : ℕ} {XI0 XI1 : ℝ} {c1 : Option (Buf ℂ)} (hc1 : Spec.KdvContFilled D M XI0 XI1 o a c1)
    {K : Option ℕ} {bs nc rv : Option (Buf ℂ)} {K2 : ℕ} {bsub ncsub : Option (Buf ℂ)}
    (hdb : richDiscBuf 1 (KdvMain.mk ⟨c1, K, bs, nc⟩ o1 rv).toN = some (.ok (K2, bsub, ncsub))) :
    let eps := (T1 - T0) / (D - 1)
    let m : KdvMain := ⟨⟨c1, K, bs, nc⟩, o1, rv⟩
    ∃ Ds s qps rps qs rs Us, Spec.SubGrid D (D / 2) Ds s ∧ 2 ≤ s ∧ Spec.KdvProcessed a D eps (fun i => (x i : ℂ)) Ds s qs rs ∧
      (if v ≠ 0 then Spec.NseSteps a (eps * s) qs rs Us else Spec.NseSteps a (eps * s) rs qs Us) ∧
      let D' := Ds * akns_upsampling_factor a
      let T1s := T0 + ((Ds - 1) * s : ℕ) * eps
      let as := Spec.kdvGridA a v D' T0 T1s (eps * s) XI0 XI1 M Us
      let bv := Spec.kdvGridB a v D' T0 T1s (eps * s) XI0 XI1 M Us
      KdvBaseArgs D' Ds qps rps qs rs T0 T1s (eps * s) { o1 with loc := .NEWTON } a v ∧
      ∀ (next : NextToward) (g : Garbage),
        ((c1.isSome ∧ M ≠ 0 → o.cs = .AB ∨ ∀ i, i < M → as i ≠ 0) → ∃ c2 c', Spec.ContRich s (akns_method_order a) eps M XI0 XI1 o.cs as bv c1 c2 ∧
          kdvRich next D q (T0, T1) eps M (some (XI0, XI1)) g o.ds m =
            (kdvBaseDisc next D' qps rps T0 T1s (eps * s) { o1 with loc := .NEWTON } g ⟨c', some K2, bsub, ncsub⟩).bind fun R =>
              if R.1 ≠ SUCCESS then some (chk R.1, { m with opts := { o1 with loc := .NEWTON } }) else
              R.2.K.bind fun Ksub =>
                (richDisc 1 Ksub ((s : ℝ) ^ akns_method_order a) eps o.ds R.2.bs R.2.nc
                  ⟨⟨c2, K, bs, nc⟩, { nsev_default_opts with ds := o.ds, cs := o.cs }, rv⟩).bind fun n => some (SUCCESS, ⟨n.st, o, n.resv⟩)) ∧
        (c1.isSome → M ≠ 0 → o.cs ≠ .AB → (∃ i, i < M ∧ as i = 0) →
          kdvRich next D q (T0, T1) eps M (some (XI0, XI1)) g o.ds m = some (E_SUBROUTINE EC_DIV_BY_ZERO, { m with opts := { o1 with loc := .NEWTON } })) := by
  intro eps m
  have hd1 : o1.disc = o.disc := by rw [← ho1]
  have hcs1 : o1.cs = o.cs := by rw [← ho1]
  obtain ⟨Ds, s, qps, rps, qs, rs, s1, s2, s3, s4⟩ := kdvv_pre_sub h (D / 2) hal
  have hs2 : 2 ≤ s := kdv_half_step hD s2 s1.2.1 rfl
  have hB2 := s4 { o1 with loc := .NEWTON } hd1
  obtain ⟨deg, W, tm, Us, u1, u2⟩ := kdv_base_run hB2
  have hup : kdv_upsampling_factor o1.disc = akns_upsampling_factor a := by rw [hd1, kdv_upsampling_factor, h.hd]
  have hord : kdv_method_order o1.disc = akns_method_order a := by rw [hd1, kdv_method_order, h.hd]
  have hord0 : akns_method_order a ≠ 0 := ((C32_akns_tables a).1).mp (kdv_known h.hd).1
  have heps := h.eps_pos
  refine ⟨Ds, s, qps, rps, qs, rs, Us, s1, hs2, s3, ?_, hB2, fun next g => ?_⟩
  · have := u1.steps
    unfold swapIf at this
    split_ifs at this ⊢ <;> exact this
  have hT1s : T0 + ((0 : ℕ) : ℝ) * eps = T0 := by simp
  have hrun : ∀ csub, richContBuf M m.toN = .ok csub → kdvRich next D q (T0, T1) eps M (some (XI0, XI1)) g o.ds m =
      (kdvv_base next (Ds * akns_upsampling_factor a) qps rps T0 (T0 + ((Ds - 1) * s : ℕ) * eps) M (some (XI0, XI1))
        { o1 with loc := .NEWTON } g ⟨csub, some K2, bsub, ncsub⟩).bind fun R =>
        if R.1 ≠ SUCCESS then some (chk R.1, { m with opts := { o1 with loc := .NEWTON } }) else
        (richCont M ((s : ℝ) ^ akns_method_order a) (eps * s) (some (XI0, XI1)) R.2.contspec
          ⟨⟨c1, K, bs, nc⟩, { nsev_default_opts with ds := o.ds, cs := o.cs }, rv⟩).bind fun n => R.2.K.bind fun Ksub =>
            (richDisc 1 Ksub ((s : ℝ) ^ akns_method_order a) eps o.ds R.2.bs R.2.nc n).bind fun n => some (SUCCESS, ⟨n.st, o, n.resv⟩) := by
    intro csub hcsub
    unfold kdvRich
    rw [hcsub]
    dsimp only
    rw [hdb]
    simp only [Option.bind_eq_bind, Option.bind_some, Option.pure_def]
    dsimp only [m]
    rw [hord, if_neg hord0, hd1, show kdv_preprocess_signal D (some q) eps (D / 2) o.disc = _ from s2]
    simp only [Option.bind_some]
    rw [← hd1, hup]
    have e3 : (T0 + ((Ds - 1) * s : ℕ) * eps - (T0 + ((0 : ℕ) : ℝ) * eps)) / ((Ds : ℝ) - 1) = eps * s := by
      have := (s4 o rfl).heps
      rw [this]
      simp
      rfl
    have e4 : (eps * s / eps : ℝ) = s := by
      rw [mul_div_assoc, mul_comm, div_mul_cancel₀ _ (ne_of_gt heps)]
    rw [e3, e4, hT1s]
    have e5 : ¬ ((s : ℝ) ^ akns_method_order a = 1) := by
      have hs2' : (1 : ℝ) < s := by exact_mod_cast (by omega : 1 < s)
      exact ne_of_gt (one_lt_pow₀ hs2' hord0)
    simp only [e5, if_false, ho1, KdvMain.toN]
    try rw [← hcs1]
  have hcreq : ∀ {cb : Buf ℂ}, Spec.KdvContReq D M XI0 XI1 o a cb →
      Spec.KdvContReq Ds M XI0 XI1 { o1 with loc := .NEWTON } a (Buf.malloc (Spec.csLen o.cs * M)) := fun hr => by
    refine ⟨hr.hM, hr.hXI, hr.hgrid, ?_, ?_, ?_⟩
    · exact lt_of_le_of_lt (Nat.add_le_add_right (Nat.mul_le_mul_right _ (Nat.mul_le_mul_right _ s1.2.2.1)) M) hr.hsz
    · show ∀ n, o1.cs ≠ .other n
      rw [hcs1]; exact hr.hcs
    · show Spec.csLen o1.cs * M ≤ _
      rw [hcs1]; exact le_rfl
  have hbuf : ∀ {cb : Buf ℂ}, c1 = some cb → M ≠ 0 → Spec.KdvContReq D M XI0 XI1 o a cb → richContBuf M m.toN = .ok (some (Buf.malloc (Spec.csLen o.cs * M))) := by
    rintro cb rfl hM hr
    have hn : richCs o.cs = some (Spec.csLen o.cs) := by
      have := hr.hcs
      cases hh : o.cs with
      | other k => exact absurd hh (this k)
      | _ => rfl
    unfold richContBuf
    rw [if_pos ⟨rfl, Nat.pos_of_ne_zero hM⟩]
    dsimp only [m, KdvMain.toN]
    rw [hcs1, hn]
  refine ⟨fun hasC => ?_, fun hc hM hAB hz => ?_⟩
  · obtain ⟨csub, hcsub, hcsub2, hcok⟩ : ∃ csub, richContBuf M m.toN = .ok csub ∧ (csub = if c1.isSome ∧ M ≠ 0 then some (Buf.malloc (Spec.csLen o.cs * M)) else none) ∧
        Spec.KdvContOK Ds T0 (T0 + ((Ds - 1) * s : ℕ) * eps) (eps * s) M (some (XI0, XI1)) { o1 with loc := .NEWTON } a v Us csub := by
      by_cases hx : c1.isSome ∧ M ≠ 0
      · obtain ⟨cb, hcb⟩ := Option.isSome_iff_exists.mp hx.1
        obtain ⟨hr, u, hu⟩ := (hc1 cb hcb).resolve_left hx.2
        refine ⟨some (Buf.malloc (Spec.csLen o.cs * M)), hbuf hcb hx.2 hr, by rw [if_pos hx], ?_⟩
        intro cb' hcb'
        cases hcb'
        refine Or.inr ⟨XI0, XI1, rfl, hcreq hr, ?_⟩
        show o1.cs = .AB ∨ _
        rw [hcs1]; exact hasC hx
      · refine ⟨none, ?_, by rw [if_neg hx], fun cb hcb => by cases hcb⟩
        unfold richContBuf
        rw [if_neg]
        rintro ⟨k1, k2⟩
        exact hx ⟨k1, by omega⟩
    have hXI : csub.isSome → ∃ X, some (XI0, XI1) = some X ∧ X.1 < X.2 := by
      intro hx
      obtain ⟨cb, rfl⟩ := Option.isSome_iff_exists.mp hx
      rcases hcok cb rfl with h0 | ⟨X0, X1, e1, hr, -⟩
      · rw [if_neg (by tauto)] at hcsub2
        cases hcsub2
      · exact ⟨_, e1, hr.hXI⟩
    obtain ⟨c', e1, e2⟩ := kdvBaseCont_any (s := ⟨csub, some K2, bsub, ncsub⟩) hB2 u1 hcok
    have hbase : kdvv_base next (Ds * akns_upsampling_factor a) qps rps T0 (T0 + ((Ds - 1) * s : ℕ) * eps) M (some (XI0, XI1))
          { o1 with loc := .NEWTON } g ⟨csub, some K2, bsub, ncsub⟩ =
        kdvBaseDisc next (Ds * akns_upsampling_factor a) qps rps T0 (T0 + ((Ds - 1) * s : ℕ) * eps) (eps * s) { o1 with loc := .NEWTON } g
          ⟨c', some K2, bsub, ncsub⟩ := by
      rw [u2 next M (some (XI0, XI1)) g ⟨csub, some K2, bsub, ncsub⟩ hXI (fun _ => by simp)]
      rw [show kdvBaseCont (Ds * akns_upsampling_factor a) qps rps T0 (T0 + ((Ds - 1) * s : ℕ) * ((T1 - T0) / (D - 1))) M _ _ deg W tm _ = _ from e1]
      simp only [Option.bind_eq_bind, Option.bind_some, ne_eq, not_true_eq_false, if_false]
      rfl
    obtain ⟨c2, hc2, hrc⟩ : ∃ c2, richCont M ((s : ℝ) ^ akns_method_order a) (eps * s) (some (XI0, XI1)) c'
          ⟨⟨c1, K, bs, nc⟩, { nsev_default_opts with ds := o.ds, cs := o.cs }, rv⟩ =
        some ⟨⟨c2, K, bs, nc⟩, { nsev_default_opts with ds := o.ds, cs := o.cs }, rv⟩ ∧ Spec.ContRich s (akns_method_order a) eps M XI0 XI1 o.cs
          (Spec.kdvGridA a v (Ds * akns_upsampling_factor a) T0 (T0 + ((Ds - 1) * s : ℕ) * eps) (eps * s) XI0 XI1 M Us)
          (Spec.kdvGridB a v (Ds * akns_upsampling_factor a) T0 (T0 + ((Ds - 1) * s : ℕ) * eps) (eps * s) XI0 XI1 M Us) c1 c2 := by
      by_cases hx : c1.isSome ∧ M ≠ 0
      · obtain ⟨cb, rfl⟩ := Option.isSome_iff_exists.mp hx.1
        obtain ⟨hr, u, hu⟩ := (hc1 cb rfl).resolve_left hx.2
        rw [if_pos hx] at hcsub2
        obtain ⟨X0, X1, cb', y1, y2, y3⟩ := e2.2 _ hcsub2 hx.2
        injection y1 with y1
        injection y1 with y1 y4
        subst y1 y4 y2
        have y5 := y3.vals
        rw [show ({ o1 with loc := .NEWTON } : KdvvOpts).cs = o.cs from hcs1] at y5
        have hM0 : 0 < M := Nat.pos_of_ne_zero hx.2
        obtain ⟨c3, g1, g2, g3, g4⟩ := richContBody_ok (scl := (s : ℝ) ^ akns_method_order a) (eps_sub := eps * s) (XI0 := XI0)
          (dxi := (XI1 - XI0) / ((M : ℝ) - 1)) hM0 hu y5
        refine ⟨some c3, ?_, fun hh => ?_, fun cb' hcb _ => ?_⟩
        · have hn : richCs o.cs = some (Spec.csLen o.cs) := by
            have := hr.hcs
            cases hh : o.cs with
            | other k => exact absurd hh (this k)
            | _ => rfl
          unfold richCont
          dsimp only
          rw [if_neg hx.2, if_neg (by have := hr.hM; omega), hn]
          dsimp only
          rw [g1]
          rfl
        · rcases hh with hh | hh
          · cases hh
          · exact absurd hh hx.2
        · cases hcb
          refine ⟨c3, rfl, g2, g3, fun j w hj hw => ?_⟩
          have := g4 j hj
          rw [Nat.zero_add] at this
          rw [this]
          have hvu : u j = w := by
            have := hu j hj
            rw [Nat.zero_add, hw] at this
            injection this with this
            exact this.symm
          rw [show Spec.grid XI0 XI1 M (j % M) = XI0 + (XI1 - XI0) / ((M : ℝ) - 1) * (j % M : ℕ) by unfold Spec.grid; ring, ← hvu]
          congr 1
          refine if_congr Iff.rfl ?_ rfl
          rw [richStep_eq]
      · refine ⟨c1, ?_, fun _ => rfl, fun cb hcb hM => absurd ⟨by rw [hcb]; rfl, hM⟩ hx⟩
        rw [if_neg hx] at hcsub2
        have := e2.1 (Or.inl hcsub2)
        dsimp only at this
        rw [this, hcsub2]
        unfold richCont
        cases c1 <;> rfl
    refine ⟨c2, c', hrc, ?_⟩
    rw [hrun csub hcsub, hbase]
    rcases hR : kdvBaseDisc next (Ds * akns_upsampling_factor a) qps rps T0 (T0 + ((Ds - 1) * s : ℕ) * eps) (eps * s) { o1 with loc := .NEWTON } g
        ⟨c', some K2, bsub, ncsub⟩ with _ | R
    · rfl
    · have := kdvBaseDisc_contspec hR
      dsimp only at this
      simp only [Option.bind_some, this, hc2]
  · obtain ⟨cb, hcb⟩ := Option.isSome_iff_exists.mp hc
    obtain ⟨hr, -⟩ := (hc1 cb hcb).resolve_left hM
    have hr' := hcreq hr
    obtain ⟨c', e1, -⟩ := (kdvBaseCont_ok (s := ⟨some (Buf.malloc (Spec.csLen o.cs * M)), some K2, bsub, ncsub⟩) hB2 u1 hr'.hM hr'.hsz XI0 XI1 hr'.hgrid hr'.hcs rfl hr'.hlen).2
      (show o1.cs ≠ .AB by rw [hcs1]; exact hAB) hz
    rw [hrun _ (hbuf hcb hM hr), u2 next M (some (XI0, XI1)) g ⟨some (Buf.malloc (Spec.csLen o.cs * M)), some K2, bsub, ncsub⟩ (fun _ => ⟨_, rfl, hr.hXI⟩) (fun _ => by simp)]
    rw [show kdvBaseCont (Ds * akns_upsampling_factor a) qps rps T0 (T0 + ((Ds - 1) * s : ℕ) * ((T1 - T0) / (D - 1))) M _ _ deg W tm _ = _ from e1]
    simp only [Option.bind_eq_bind, Option.bind_some]
    rw [if_pos (by decide)]
    simp only [Option.pure_def, Option.bind_some]
    rw [if_pos (by decide)]
    rfl

/-- The first approximation. -/
theorem kdv_run_of_first (h : Spec.KdvvArgs D q x T0 T1 o a v) (hrich : o.rich = 1) {M : ℕ} {XI : Option (ℝ × ℝ)} {st s1 : NsevSt}
    (hr : Spec.KdvvReq o M XI st) {o1 o' : KdvvOpts} {rv : Option (Buf ℂ)} (hres : kdvReserve ⟨st, o, none⟩ = some ⟨st, o1, rv⟩) {next : NextToward} {g : ℕ → Garbage}
    (h1 : fnft_kdvv next D (some q) (some (T0, T1)) M XI { o1 with rich := 0 } g st = some (SUCCESS, s1, o')) :
    fnft_kdvv next D (some q) (some (T0, T1)) M XI o g st =
      (kdvRich next D q (T0, T1) ((T1 - T0) / (D - 1)) M XI (g 1) o.ds ⟨s1, o1, rv⟩).bind fun R => some (R.1, R.2.st, R.2.opts) := by
  have ho1 : o1.disc = o.disc ∧ o1.loc = o.loc ∧ o1.rich = 1 := by
    unfold kdvReserve at hres
    split_ifs at hres with hc
    · rw [Option.bind_eq_bind, Option.bind_eq_some_iff] at hres
      obtain ⟨K, -, hres⟩ := hres
      cases hres
      exact ⟨rfl, rfl, hrich⟩
    · cases hres; exact ⟨rfl, rfl, hrich⟩
  have h0 : Spec.KdvvArgs D q x T0 T1 { o1 with rich := 0 } a v :=
    ⟨by rw [← h.hd]; exact congrArg _ ho1.1, by rw [← h.hv]; exact congrArg _ ho1.1, h.hD, h.hCF, h.hsize, h.hq, h.hT, h.hal⟩
  have hr0 : Spec.KdvvReq { o1 with rich := 0 } M XI st := ⟨hr.hXI, hr.hM, hr.hgrid, hr.hM1, hr.hK, fun hl => hr.hguess (by rw [← ho1.2.1]; exact hl)⟩
  obtain ⟨qp, rp, qf, rf, p1, p2, p3⟩ := kdvv_pre h
  have hup : kdv_upsampling_factor o.disc = akns_upsampling_factor a := by rw [kdv_upsampling_factor, h.hd]
  have hup0 : akns_upsampling_factor a ≠ 0 := (kdv_known h.hd).1
  obtain ⟨r1, r2, r3, r4⟩ := kdvv_not_reject h hr
  obtain ⟨r1', r2', r3', r4'⟩ := kdvv_not_reject h0 hr0
  unfold fnft_kdvv at h1 ⊢
  rw [if_neg r1, if_neg r2, if_neg r3, if_neg r4]
  rw [if_neg r1', if_neg r2', if_neg r3', if_neg r4'] at h1
  simp only [Option.bind_eq_bind, Option.bind_some] at h1 ⊢
  unfold kdvvRun at h1 ⊢
  have e0 : kdvReserve ⟨st, { o1 with rich := 0 }, none⟩ = some ⟨st, { o1 with rich := 0 }, none⟩ := by
    unfold kdvReserve
    rw [if_neg]
    rintro ⟨hc, -⟩
    exact absurd hc (by norm_num)
  dsimp only at h1
  have hup' : kdv_upsampling_factor o1.disc = akns_upsampling_factor a := by rw [ho1.1, hup]
  have p1' := p1
  rw [← ho1.1] at p1'
  rw [hup', if_neg hup0] at h1
  rw [hup, if_neg hup0]
  simp only [Option.bind_eq_bind, Option.bind_some, hres, e0, p1, p1'] at h1 ⊢
  obtain ⟨F, hF, hF2⟩ := Option.bind_eq_some_iff.mp h1
  have hF' : kdvv_base next (D * akns_upsampling_factor a) qp rp T0 T1 M XI o1 (g 0) st = some F := hF
  rw [hF']
  have hFs : F.1 = SUCCESS := by
    by_contra hne
    rw [if_pos hne] at hF2
    injection hF2 with hF2
    injection hF2 with hF2
    unfold chk at hF2
    rw [if_neg hne] at hF2
    exact E_SUBROUTINE_ne hne hF2
  rw [if_neg (not_not.mpr hFs)] at hF2
  have hst : F.2 = s1 := by
    unfold kdvRichIf at hF2
    rw [if_neg (by norm_num)] at hF2
    injection hF2 with hF2
    injection hF2 with _ hF2
    injection hF2 with hF2
  simp only [Option.bind_some, hFs, ne_eq, not_true_eq_false, if_false, hst]
  unfold kdvRichIf
  rw [if_pos ho1.2.2]
  rfl

end FNFT

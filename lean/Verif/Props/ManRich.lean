import Verif.Props.ManBound
import Verif.Props.NsevRich
/-!
# C59: Richardson extrapolation in `fnft_manakovv`
-/
namespace FNFT
open Complex

variable {D : ℕ} {q1 q2 : Buf ℂ} {x1 x2 : ℕ → ℂ} {T0 T1 : ℝ} {κ : ℤ} {o : ManvOpts}

/-- With at most half of the samples, the step is at least two. -/
theorem man_half_step (hD : 3 ≤ D) {d : ManDisc} {eps : ℝ} {R : ManPreRes} (h : man_preprocess_signal D (some q1) (some q2) eps (D / 2) d = some R)
    {s : ℕ} (h2 : 2 ≤ R.Dsub) (hR : R.first_last = some (0, (R.Dsub - 1) * s)) : 2 ≤ s := by
  have main : ∃ m s', m = (if (if D / 2 < 2 then 2 else D / 2) > D then D else (if D / 2 < 2 then 2 else D / 2)) ∧ s' = roundDiv D m ∧
      (R.Dsub - 1) * s = (R.Dsub - 1) * s' := by
    refine ⟨_, _, rfl, rfl, ?_⟩
    unfold man_preprocess_signal at h
    dsimp only at h
    split at h
    · cases h; cases hR
    · split at h
      · cases h; cases hR
      · split at h
        · cases h; cases hR
        · rw [Option.bind_eq_bind, Option.bind_eq_some_iff] at h
          obtain ⟨S, -, h⟩ := h
          cases S with
          | error ec => cases h; cases hR
          | ok t =>
            cases h
            dsimp only at hR ⊢
            exact (congrArg (fun p => p.2) (Option.some.inj hR)).symm
  obtain ⟨m, s', hm, hs', he⟩ := main
  have : s = s' := Nat.eq_of_mul_eq_mul_left (by omega) he
  subst this
  have hm2 : 2 ≤ m ∧ 2 * m ≤ D + 1 := by
    rw [hm]
    split_ifs <;> omega
  have hle : 2 * m ≤ D ∨ D = 3 ∧ m = 2 := by
    have : m = 2 ∨ m = D / 2 := by rw [hm]; split_ifs <;> omega
    omega
  rw [hs', roundDiv_eq D m (by omega)]
  apply (Nat.le_div_iff_mul_le (by omega)).mpr
  omega

theorem man_order_ne {d : ManDisc} (h : Spec.manSplitting d ≠ []) : man_method_order d ≠ 0 := by
  cases d <;> simp [Spec.manSplitting, man_method_order] at h ⊢

theorem manRichCs_len {cs : CsType} (h : ∀ n, cs ≠ .other n) : ∃ n, manRichCs cs = some n ∧ ∀ M, n * M = Spec.manCsLen M cs := by
  cases cs with
  | other k => exact absurd rfl (h k)
  | _ => exact ⟨_, rfl, fun M => rfl⟩

/-- C59. Continuous spectrum with Richardson extrapolation (no bound states requested, or defocusing). Two approximations are
computed: for the signal, and for the subsampled signal with step `s eps`, `s ≥ 2`. The result contains the extrapolation for all frequencies with
`|ξ| < 0.9 π/(2 s eps)`, and otherwise the approximation for the full signal. The record of the options is unchanged, although
the routine modifies it temporarily. -/
theorem C59_richardson (h : Spec.ManvArgs D q1 q2 x1 x2 T0 T1 κ o) (hf : Spec.manSplitting o.disc ≠ []) (hD : 3 ≤ D)
    {M : ℕ} {XI0 XI1 : ℝ} {c : Buf ℂ}
    (hc : Spec.ManContReq D M XI0 XI1 o c) (hrich : o.rich = 1) (K : Option ℕ) (bs : Option (Buf ℂ))
    (hK : bs.isSome → K ≠ none) (hnb : bs = none ∨ κ = -1) (hres : o.ds = .RESIDUES → K ≠ none) :
    let eps := (T1 - T0) / ((D : ℝ) - 1)
    let N := D * man_upsampling_factor o.disc
    let xi := fun i => ((Spec.grid XI0 XI1 M i : ℝ) : ℂ)
    ∃ p1 p2 U, Spec.ManProcessed o.disc D x1 p1 ∧ Spec.ManProcessed o.disc D x2 p2 ∧ Spec.ManSteps o.disc κ eps N p1 p2 U ∧
      let a := fun i => Spec.manCoefA o.disc (Spec.chain (U (xi i)) N) T0 T1 eps (xi i)
      let b1 := fun i => Spec.manCoefB o.disc (Spec.chain (U (xi i)) N) T0 T1 eps 1 (xi i)
      let b2 := fun i => Spec.manCoefB o.disc (Spec.chain (U (xi i)) N) T0 T1 eps 2 (xi i)
      ∃ Ds s, Spec.SubGrid D (D / 2) Ds s ∧ ((man_upsampling_factor o.disc = 2 → 3 ≤ Ds) → 2 ≤ s ∧
        let N' := Ds * man_upsampling_factor o.disc
        let eps' := eps * s
        let T1' := T0 + ((Ds - 1) * s : ℕ) * eps
        ∃ p1' p2' U', Spec.ManProcessed o.disc Ds (fun j => x1 (s * j)) p1' ∧ Spec.ManProcessed o.disc Ds (fun j => x2 (s * j)) p2' ∧
          Spec.ManSteps o.disc κ eps' N' p1' p2' U' ∧
          let a' := fun i => Spec.manCoefA o.disc (Spec.chain (U' (xi i)) N') T0 T1' eps' (xi i)
          let b1' := fun i => Spec.manCoefB o.disc (Spec.chain (U' (xi i)) N') T0 T1' eps' 1 (xi i)
          let b2' := fun i => Spec.manCoefB o.disc (Spec.chain (U' (xi i)) N') T0 T1' eps' 2 (xi i)
          ∀ roots : RootFinder,
            ((o.cs = .AB ∨ ∀ i, i < M → a i ≠ 0 ∧ a' i ≠ 0) →
              ∃ c', fnft_manakovv roots D (some q1) (some q2) (some (T0, T1)) M (some (XI0, XI1)) κ o ⟨some c, K, bs⟩ =
                  some (SUCCESS, ⟨some c', K, bs⟩, o) ∧ c'.len = c.len ∧ (∀ j, Spec.manCsLen M o.cs ≤ j → c'.rd j = c.rd j) ∧
                c'.Holds 0 (Spec.manCsLen M o.cs) (fun j =>
                  if |Spec.grid XI0 XI1 M (j % M)| < 0.9 * Real.pi / (2 * eps') then
                    Spec.richardson s (man_method_order o.disc) (Spec.manCsOut o.cs M a b1 b2 j) (Spec.manCsOut o.cs M a' b1' b2' j)
                  else Spec.manCsOut o.cs M a b1 b2 j)) ∧
            (o.cs ≠ .AB → (∃ i, i < M ∧ (a i = 0 ∨ a' i = 0)) →
              ∃ s' o', fnft_manakovv roots D (some q1) (some q2) (some (T0, T1)) M (some (XI0, XI1)) κ o ⟨some c, K, bs⟩ =
                some (E_SUBROUTINE EC_DIV_BY_ZERO, s', o'))) := by
  intro eps N xi
  have hnb' : bs = none ∨ κ ≠ 1 := by
    rcases hnb with h1 | h1
    · exact Or.inl h1
    · right; rw [h1]; decide
  have hr : ManReq κ o (some (XI0, XI1)) ⟨some c, K, bs⟩ := by
    refine ⟨fun _ => ⟨_, rfl, hc.hXI⟩, hK, fun _ _ => Or.inl hf⟩
  obtain ⟨o1, hres1, hd1, hn1, hc1, hr1, ho1⟩ : ∃ o1 : ManvOpts,
      manvReserve ⟨⟨some c, K, bs⟩, o⟩ = some ⟨⟨some c, K, bs⟩, o1⟩ ∧ o1.disc = o.disc ∧ o1.nrm = o.nrm ∧ o1.cs = o.cs ∧ o1.rich = o.rich ∧
      { o1 with ds := o.ds } = o := by
    unfold manvReserve
    by_cases hds : o.ds = .RESIDUES
    · obtain ⟨K1, rfl⟩ := Option.ne_none_iff_exists'.mp (hres hds)
      refine ⟨{ o with ds := .BOTH }, ?_, rfl, rfl, rfl, rfl, rfl⟩
      rw [if_pos ⟨hrich, hds⟩]
      rfl
    · refine ⟨o, ?_, rfl, rfl, rfl, rfl, rfl⟩
      rw [if_neg (by tauto)]
  obtain ⟨u1, u2, p1, p2, h1, h2, h3, h4⟩ := manv_run h
  obtain ⟨deg, W, tm, U, h5, h6⟩ := man_base_run h3 o.nrm
  refine ⟨p1, p2, U, h1, h2, h5.1, ?_⟩
  intro a b1 b2
  obtain ⟨Ds, s, s1, s2⟩ := manv_sub h (D / 2)
  refine ⟨Ds, s, s1, fun hup => ?_⟩
  obtain ⟨w1, w2, p1', p2', s3, s4, s5, s6⟩ := s2 hup
  have hs2 : 2 ≤ s := man_half_step hD s3 s1.2.1 rfl
  refine ⟨hs2, ?_⟩
  intro N' eps' T1'
  have heps : 0 < eps := h3.eps_pos
  have hDs2 : (2 : ℝ) ≤ Ds := by exact_mod_cast s1.2.1
  have hsr : (1 : ℝ) < s := by exact_mod_cast (by omega : 1 < s)
  have he' : (T1' - T0) / ((Ds : ℝ) - 1) = eps' := by
    show (T0 + ((Ds - 1) * s : ℕ) * eps - T0) / ((Ds : ℝ) - 1) = eps * s
    rw [add_sub_cancel_left, Nat.cast_mul, Nat.cast_sub (by have := s1.2.1; omega), Nat.cast_one, div_eq_iff (by linarith)]
    ring
  have hT' : T0 < T1' := by
    show T0 < T0 + ((Ds - 1) * s : ℕ) * eps
    have : 0 < (((Ds - 1) * s : ℕ) : ℝ) := by
      have : 0 < (Ds - 1) * s := Nat.mul_pos (by have := s1.2.1; omega) (by omega)
      exact_mod_cast this
    have := mul_pos this heps
    linarith
  have s7 := s6 T0 T1' hT'
  rw [he'] at s7
  obtain ⟨deg', W', tm', U', t1, t2⟩ := man_base_run s7 o.nrm
  refine ⟨p1', p2', U', s4, s5, t1.1, ?_⟩
  intro a' b1' b2' roots
  have hM0 : 0 < M := by have := hc.hM; omega
  obtain ⟨n, hn2, hn3⟩ := manRichCs_len hc.hcs
  have hslow : ¬ (o.disc = .BO ∨ o.disc = .CF4_2) := by
    rintro (h0 | h0) <;> rw [h0] at hf <;> exact hf rfl
  have hord0 := man_order_ne hf
  -- first approximation
  have hns : Spec.ManNonsing o1.disc κ (D * man_upsampling_factor o1.disc) M XI0 XI1 p1 p2 := by
    rw [hd1]; exact fun h0 => absurd h0 hslow
  have hcr : Spec.ManContReq D M XI0 XI1 o1 c := ⟨hc.hXI, hc.hM, by rw [hd1]; exact hc.hsz, by rw [hc1]; exact hc.hcs, by rw [hc1]; exact hc.hlen⟩
  obtain ⟨b3, b4⟩ := manBaseCont_ok (o := o1) (by rw [hd1]; exact h3) (by rw [hd1]; exact h5) hcr hns K none
  rw [hd1, hc1] at b3 b4
  have hcont : ∀ C, manBaseCont N u1 u2 T0 T1 M (some (XI0, XI1)) κ o1 deg W tm ⟨some c, K, none⟩ = some C → C.2.bs = none →
      manvCont roots N u1 u2 (T0, T1) M (some (XI0, XI1)) κ ⟨⟨some c, K, bs⟩, o1⟩ = some (chk C.1, ⟨⟨C.2.contspec, C.2.K, bs⟩, o1⟩) := by
    intro C hC hb
    have f1 := h6 roots M (some (XI0, XI1)) o1 ⟨none, K, bs⟩ hd1 hn1 (fun hc => by cases hc) hK
    rw [manBaseCont_none] at f1
    simp only [Option.bind_eq_bind, Option.bind_some, ne_eq, not_true_eq_false, if_false] at f1
    rw [manBaseDisc_none hnb'] at f1
    have f2 := h6 roots M (some (XI0, XI1)) o1 ⟨some c, K, none⟩ hd1 hn1 hr.hXI (fun hc => by cases hc)
    rw [hC] at f2
    simp only [Option.bind_eq_bind, Option.bind_some] at f2
    have f3 : man_base roots N u1 u2 T0 T1 M (some (XI0, XI1)) κ o1 ⟨some c, K, none⟩ = some C := by
      rw [f2]
      split_ifs with hs
      · rfl
      · rw [manBaseDisc_none (Or.inl hb)]
        have : C.1 = SUCCESS := not_not.mp hs
        rw [← this]
    unfold manvCont
    dsimp only
    rw [f1]
    simp only [Option.bind_eq_bind, Option.bind_some, ne_eq, not_true_eq_false, if_false]
    rw [f3]; rfl
  have hbound : ∀ st : ManvSt, st.bs = bs →
      manvBound roots D q1 q2 (T0, T1) ((T1 - T0) / (D - 1)) M (some (XI0, XI1)) κ ⟨st, o1⟩ = some (SUCCESS, ⟨st, o1⟩) := by
    intro st hst
    unfold manvBound
    rw [if_neg]
    rintro ⟨k1, k2⟩
    rcases hnb' with hb' | hb'
    · dsimp only at k2
      rw [hst, hb'] at k2
      cases k2
    · exact hb' k1
  -- second approximation
  obtain ⟨o2, ho2, hd2, hn4, hc2⟩ : ∃ o2 : ManvOpts, o2 = { o1 with loc := .NEWTON } ∧ o2.disc = o.disc ∧ o2.nrm = o.nrm ∧ o2.cs = o.cs :=
    ⟨_, rfl, hd1, hn1, hc1⟩
  have hns' : Spec.ManNonsing o2.disc κ (Ds * man_upsampling_factor o2.disc) M XI0 XI1 p1' p2' := by
    rw [hd2]; exact fun h0 => absurd h0 hslow
  have hszs : Ds * man_upsampling_factor o.disc * man_degree o.disc + M < 3 ^ 32 :=
    lt_of_le_of_lt (Nat.add_le_add_right (Nat.mul_le_mul_right _ (Nat.mul_le_mul_right _ s1.2.2.1)) M) hc.hsz
  have hcr' : Spec.ManContReq Ds M XI0 XI1 o2 (Buf.malloc (n * M)) :=
    ⟨hc.hXI, hc.hM, by rw [← hd2] at hszs; exact hszs, by rw [hc2]; exact hc.hcs, by
      show Spec.manCsLen M o2.cs ≤ n * M
      rw [hc2, hn3]⟩
  obtain ⟨d1, d2⟩ := manBaseCont_ok (o := o2) (by rw [← hd2] at s7; exact s7) (by rw [← hd2] at t1; exact t1) hcr' hns'
    (some 0) none
  rw [hd2, hc2] at d1 d2
  have hsub : ∀ C, manBaseCont N' w1 w2 T0 T1' M (some (XI0, XI1)) κ o2 deg' W' tm'
        ⟨some (Buf.malloc (n * M)), some 0, none⟩ = some C → C.2.bs = none →
      man_base roots N' w1 w2 (T0 + ((0 : ℕ) : ℝ) * eps) (T0 + ((Ds - 1) * s : ℕ) * eps) M (some (XI0, XI1)) κ o2
        ⟨some (Buf.malloc (n * M)), some 0, none⟩ = some C := by
    intro C hC hb
    have e0 : T0 + ((0 : ℕ) : ℝ) * eps = T0 := by simp
    rw [e0, t2 roots M (some (XI0, XI1)) o2 ⟨some (Buf.malloc (n * M)), some 0, none⟩ hd2 hn4
      (fun _ => ⟨_, rfl, hc.hXI⟩) (fun hc => by cases hc), hC]
    simp only [Option.bind_eq_bind, Option.bind_some]
    split_ifs with hs
    · rfl
    · rw [manBaseDisc_none (Or.inl hb)]
      have : C.1 = SUCCESS := not_not.mp hs
      rw [← this]
  have hrichrun : ∀ st : ManvSt, st.contspec.isSome → ∀ C, manBaseCont N' w1 w2 T0 T1' M (some (XI0, XI1)) κ o2 deg' W' tm'
        ⟨some (Buf.malloc (n * M)), some 0, none⟩ = some C → C.2.bs = none →
      manvRichIf roots D q1 q2 (T0, T1) ((T1 - T0) / (D - 1)) M (some (XI0, XI1)) κ o.ds ⟨st, o1⟩ =
        if C.1 ≠ SUCCESS then some (chk C.1, ⟨st, o2⟩) else
        (manRichCont M ((s : ℝ) ^ man_method_order o.disc) eps' (some (XI0, XI1)) C.2.contspec ⟨st, o⟩).bind fun m => some (SUCCESS, m) := by
    intro st hst C hC hb
    have e1 : manRichBuf M ⟨st, o1⟩ = .ok (some (Buf.malloc (n * M))) := by
      unfold manRichBuf
      rw [if_pos ⟨hst, hM0⟩, hc1, hn2]
    unfold manvRichIf
    dsimp only
    rw [if_pos (hr1.trans hrich)]
    unfold manvRich
    rw [e1]
    dsimp only
    rw [hd1, if_neg hord0, s3]
    simp only [Option.bind_eq_bind, Option.bind_some]
    rw [show ({ o1 with loc := .NEWTON, disc := o.disc } : ManvOpts) = o2 by rw [ho2, ← hd1]]
    have hE := hsub C hC hb
    rw [show man_base roots (Ds * man_upsampling_factor o.disc) w1 w2 (T0 + ((0 : ℕ) : ℝ) * ((T1 - T0) / ((D : ℝ) - 1)))
      (T0 + ((Ds - 1) * s : ℕ) * ((T1 - T0) / ((D : ℝ) - 1))) M _ κ o2 _ = _ from hE]
    simp only [Option.bind_some]
    have e3 : (T0 + ((Ds - 1) * s : ℕ) * ((T1 - T0) / ((D : ℝ) - 1)) - (T0 + ((0 : ℕ) : ℝ) * ((T1 - T0) / ((D : ℝ) - 1)))) / ((Ds : ℝ) - 1) = eps' := by
      rw [← he']
      show _ = (T0 + ((Ds - 1) * s : ℕ) * ((T1 - T0) / ((D : ℝ) - 1)) - T0) / ((Ds : ℝ) - 1)
      simp
    have e4 : eps' / ((T1 - T0) / ((D : ℝ) - 1)) = s := by
      show eps * s / eps = s
      rw [mul_div_assoc, mul_comm, div_mul_cancel₀ _ (ne_of_gt heps)]
    rw [e3, e4]
    have e5 : ¬ ((s : ℝ) ^ man_method_order o.disc = 1) := ne_of_gt (one_lt_pow₀ hsr hord0)
    have ho1' : ({ o1 with ds := o.ds, disc := o.disc } : ManvOpts) = o := by
      conv_rhs => rw [← ho1]
      rw [← hd1]
    simp only [e5, if_false, ho1']
    rfl
  have hmain : ∀ C, manBaseCont N u1 u2 T0 T1 M (some (XI0, XI1)) κ o1 deg W tm ⟨some c, K, none⟩ = some C → C.2.bs = none →
      fnft_manakovv roots D (some q1) (some q2) (some (T0, T1)) M (some (XI0, XI1)) κ o ⟨some c, K, bs⟩ =
        if C.1 ≠ SUCCESS then some (chk C.1, ⟨C.2.contspec, C.2.K, bs⟩, o1) else
          (manvRichIf roots D q1 q2 (T0, T1) ((T1 - T0) / (D - 1)) M (some (XI0, XI1)) κ o.ds ⟨⟨C.2.contspec, C.2.K, bs⟩, o1⟩).bind fun R =>
            some (R.1, R.2.st, R.2.opts) := by
    intro C hC hb
    rw [h4 roots M _ _ hr, hres1]
    simp only [Option.bind_eq_bind, Option.bind_some]
    rw [hcont C hC hb]
    simp only [Option.bind_some]
    by_cases h0 : C.1 = SUCCESS
    · rw [if_neg (by rw [h0]; decide), hbound _ rfl, if_neg (not_not.mpr h0)]
      simp only [Option.bind_some, ne_eq, not_true_eq_false, if_false]
      rfl
    · rw [if_pos (fun hh => h0 (chk_success.mp hh)), if_pos h0]
      rfl
  constructor
  · intro h0
    obtain ⟨c1, e1, e2⟩ := b3 (h0.imp id fun hh i hi => (hh i hi).1)
    obtain ⟨c2, f1, f2⟩ := d1 (h0.imp id fun hh i hi => (hh i hi).2)
    rw [hmain _ e1 rfl, if_neg (by simp), hrichrun _ rfl _ f1 rfl, if_neg (by simp)]
    obtain ⟨e21, e22, e23⟩ := e2
    obtain ⟨f21, f22, f23⟩ := f2
    rw [← hn3 M] at e22 e23 f22 f23 ⊢
    obtain ⟨c3, g1, g2, g3, g4⟩ := richContBody_ok (scl := (s : ℝ) ^ man_method_order o.disc) (eps_sub := eps') (XI0 := XI0)
      (dxi := (XI1 - XI0) / ((M : ℝ) - 1)) hM0 e22 f22
    have hrc : manRichCont M ((s : ℝ) ^ man_method_order o.disc) eps' (some (XI0, XI1)) (some c2) ⟨⟨some c1, K, bs⟩, o⟩ =
        some ⟨⟨some c3, K, bs⟩, o⟩ := by
      unfold manRichCont
      dsimp only
      rw [if_neg (by omega), if_neg (by have := hc.hM; omega), hn2]
      dsimp only
      rw [g1]
      rfl
    rw [hrc]
    refine ⟨c3, rfl, by rw [g2, e21], fun j hj => by rw [g3 j hj, e23 j hj], fun j hj => ?_⟩
    rw [g4 j hj]
    dsimp only
    rw [show Spec.grid XI0 XI1 M (j % M) = XI0 + (XI1 - XI0) / ((M : ℝ) - 1) * (j % M : ℕ) by unfold Spec.grid; ring]
    congr 1
    refine if_congr Iff.rfl ?_ rfl
    unfold richStep Spec.richardson
    push_cast
    rfl
  · intro hAB hz
    by_cases h0 : ∃ i, i < M ∧ a i = 0
    · obtain ⟨c1, e1, -⟩ := b4 hAB h0
      rw [hmain _ e1 rfl, if_pos (show ¬ (E_SUBROUTINE EC_DIV_BY_ZERO = SUCCESS) by decide)]
      exact ⟨_, _, rfl⟩
    · push Not at h0
      obtain ⟨c1, e1, e2⟩ := b3 (Or.inr h0)
      obtain ⟨i, hi, hz⟩ := hz
      obtain ⟨c2, f1, f2⟩ := d2 hAB ⟨i, hi, hz.resolve_left (h0 i hi)⟩
      rw [hmain _ e1 rfl, if_neg (by simp), hrichrun _ rfl _ f1 rfl, if_pos (show ¬ (E_SUBROUTINE EC_DIV_BY_ZERO = SUCCESS) by decide)]
      exact ⟨_, _, rfl⟩

/-- C59, purpose. If the error of the approximations is exactly `α h^p` (`p` is the advertised order, two or four), the extrapolation is exact. -/
theorem C59_removes_leading_error {d : ManDisc} (hf : Spec.manSplitting d ≠ []) {s : ℕ} (hs : 2 ≤ s) (h v α : ℂ) :
    Spec.richardson s (man_method_order d) (v + α * h ^ man_method_order d) (v + α * (s * h) ^ man_method_order d) = v :=
  C46_removes_leading_error hs (man_order_ne hf) h v α

/-- The hypotheses of C59 are met by the default options with Richardson extrapolation. -/
example : Spec.ManvArgs 6 (Buf.ofFn 6 fun _ => 1) (Buf.ofFn 6 fun _ => I) (fun _ => 1) (fun _ => I) (-1) 1 1
      { manakovv_default_opts with rich := 1, disc := .D4SPLIT4B } ∧ Spec.manSplitting .D4SPLIT4B ≠ [] ∧
      Spec.ManContReq 6 3 (-1) 1 { manakovv_default_opts with rich := 1, disc := .D4SPLIT4B } (Buf.malloc 6) ∧
      manakovv_default_opts.ds ≠ .RESIDUES ∧ ∀ Ds s, Spec.SubGrid 6 (6 / 2) Ds s → 3 ≤ Ds := by
  refine ⟨⟨by norm_num, by simp [man_upsampling_factor], fun _ => by norm_num, Buf.holds_ofFn _ _, Buf.holds_ofFn _ _, by norm_num, by norm_num,
    by right; right; simp [Spec.manSplitting]⟩, by simp [Spec.manSplitting], ⟨by norm_num, by norm_num, by simp [man_upsampling_factor, man_degree],
    fun n => by simp [manakovv_default_opts], by simp [Spec.manCsLen, manakovv_default_opts]⟩, by simp [manakovv_default_opts], ?_⟩
  intro Ds s h
  have := (h.2.2.2.2.1 (by norm_num) (by norm_num)).1
  omega

end FNFT

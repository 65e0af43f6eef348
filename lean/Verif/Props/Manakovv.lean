import Verif.Proofs.ManBase
/-!
# Properties of `fnft_manakovv`: discretization, continuous spectrum
-/
namespace FNFT
open Complex

/-! ## C56: discretizations of the Manakov system -/

/-- C56. Preprocessing of the signal: a subgrid is chosen as requested, and both components are processed as the discretization
prescribes, from the samples on the subgrid. -/
theorem C56_preprocess {D : ℕ} (hD : 2 ≤ D) {q1 q2 : Buf ℂ} {x1 x2 : ℕ → ℂ} (hq1 : q1.Holds 0 D x1) (hq2 : q2.Holds 0 D x2)
    {eps : ℝ} (heps : 0 < eps) (Dsub0 : ℕ) {d : ManDisc} (hu : man_upsampling_factor d ≠ 0) :
    ∃ Dsub s, Spec.SubGrid D Dsub0 Dsub s ∧ ((man_upsampling_factor d = 2 → 3 ≤ Dsub ∧ Dsub < 2 * 3 ^ 32) →
      ∃ b1 b2 p1 p2, man_preprocess_signal D (some q1) (some q2) eps Dsub0 d =
          some ⟨SUCCESS, Dsub, some (b1, b2), some (0, (Dsub - 1) * s)⟩ ∧
        b1.len = Dsub * man_upsampling_factor d ∧ b2.len = Dsub * man_upsampling_factor d ∧
        b1.Holds 0 (Dsub * man_upsampling_factor d) p1 ∧ b2.Holds 0 (Dsub * man_upsampling_factor d) p2 ∧
        Spec.ManProcessed d Dsub (fun j => x1 (s * j)) p1 ∧ Spec.ManProcessed d Dsub (fun j => x2 (s * j)) p2) :=
  man_pre_ok hD hq1 hq2 heps Dsub0 hu

/-- C56. Change of the spectral variable: `z = exp(iλ eps r)`. Values beyond the first `n` are unchanged. -/
theorem C56_lambda_to_z {d : ManDisc} (hd : man_degree d ≠ 0) {n : ℕ} (eps : ℝ) {vals : Buf ℂ} {v : ℕ → ℂ}
    (hv : vals.Holds 0 n v) :
    ∃ b, man_lambda_to_z n eps vals d = some (SUCCESS, b) ∧ b.len = vals.len ∧
      b.Holds 0 n (fun i => exp (I * v i * eps * Spec.manRate d)) ∧ ∀ i, n ≤ i → b.rd i = vals.rd i := by
  obtain ⟨b, h1, h2, h3, h4⟩ := man_lambda_to_z_ok hd eps hv
  refine ⟨b, h1, h2, fun i hi => ?_, h4⟩
  rw [h3 i hi]; dsimp only; rw [manZ_rate hd]

/-- C56. `z → λ → z` gives the values back, unless one of them is zero. -/
theorem C56_roundtrip_z {d : ManDisc} (hd : man_degree d ≠ 0) {n : ℕ} {eps : ℝ} (heps : 0 < eps) {vals : Buf ℂ} {v : ℕ → ℂ}
    (hv : vals.Holds 0 n v) (h0 : ∀ i, i < n → v i ≠ 0) :
    ∃ b c, man_z_to_lambda n eps vals d = some (SUCCESS, b) ∧ man_lambda_to_z n eps b d = some (SUCCESS, c) ∧ c.Holds 0 n v := by
  obtain ⟨b, h1, h2, h3, h4⟩ := man_z_to_lambda_ok hd eps hv h0
  obtain ⟨c, g1, g2, g3, g4⟩ := C56_lambda_to_z hd eps h3
  refine ⟨b, c, h1, g1, fun i hi => ?_⟩
  have hr : (Spec.manRate d : ℂ) ≠ 0 := by exact_mod_cast (man_rate_pos hd).ne'
  have he : (eps : ℂ) ≠ 0 := by exact_mod_cast heps.ne'
  rw [g3 i hi]
  dsimp only
  have : I * (log (v i) / (I * eps * Spec.manRate d)) * eps * Spec.manRate d = log (v i) := by field_simp
  rw [this, exp_log (h0 i hi)]

/-- `λ → z → λ` in the strip of the principal branch. -/
theorem man_log_exp {r eps : ℝ} (hr : 0 < r) (heps : 0 < eps) {l : ℂ} (h : |l.re * eps * r| < Real.pi) :
    log (exp (I * l * eps * r)) / (I * eps * r) = l := by
  have hr' : (r : ℂ) ≠ 0 := by exact_mod_cast hr.ne'
  have he : (eps : ℂ) ≠ 0 := by exact_mod_cast heps.ne'
  have him : (I * l * eps * r).im = l.re * eps * r := by
    have : I * l * eps * r = ((eps * r : ℝ) : ℂ) * (I * l) := by push_cast; ring
    rw [this, im_ofReal_mul, I_mul_im]; ring
  have := abs_lt.mp h
  rw [log_exp (by rw [him]; linarith) (by rw [him]; linarith)]
  field_simp

/-- C56. `λ → z → λ` gives the values back in the strip `|Re λ| < π/(eps r)`. -/
theorem C56_roundtrip_lambda {d : ManDisc} (hd : man_degree d ≠ 0) {n : ℕ} {eps : ℝ} (heps : 0 < eps) {vals : Buf ℂ} {v : ℕ → ℂ}
    (hv : vals.Holds 0 n v) (h0 : ∀ i, i < n → |(v i).re * eps * Spec.manRate d| < Real.pi) :
    ∃ b c, man_lambda_to_z n eps vals d = some (SUCCESS, b) ∧ man_z_to_lambda n eps b d = some (SUCCESS, c) ∧ c.Holds 0 n v := by
  obtain ⟨b, h1, h2, h3, h4⟩ := C56_lambda_to_z hd eps hv
  obtain ⟨c, g1, g2, g3, g4⟩ := man_z_to_lambda_ok hd eps h3 (fun _ _ => exp_ne_zero _)
  refine ⟨b, c, h1, g1, fun i hi => ?_⟩
  rw [g3 i hi]
  dsimp only
  rw [man_log_exp (man_rate_pos hd) heps (h0 i hi)]

/-- C56. The phase factors relate the polynomials of `Dg` samples to the scattering coefficients on `[TL, TR]`. -/
theorem C56_phase_factors {d : ManDisc} (hu : man_upsampling_factor d ≠ 0) (eps : ℝ) (Dg : ℕ) (T0 T1 : ℝ) :
    let c := if man_degree d = 0 then 0 else eps * Dg * Spec.manPhase d
    man_phase_factor_a eps Dg T0 T1 d = .ok (Spec.manTR d T1 eps - Spec.manTL d T0 eps - c) ∧
    man_phase_factor_b eps Dg T0 T1 d = .ok (-Spec.manTR d T1 eps - Spec.manTL d T0 eps - c) ∧
    man_phase_factor_rho eps T1 d = .ok (-2 * Spec.manTR d T1 eps) := by
  intro c
  have hc : manPc d eps Dg = -c := by
    simp only [manPc, c]
    split_ifs <;> ring
  rw [man_phase_a_ok hu, man_phase_b_ok hu, man_phase_rho_ok hu, hc]
  refine ⟨?_, ?_, rfl⟩ <;> congr 1 <;> ring

/-- C56. Discretizations without polynomials do not have `z`, unknown ones have nothing; the array is unchanged. -/
theorem C56_rejects (d : ManDisc) (n : ℕ) (eps T0 T1 : ℝ) (Dg : ℕ) (vals : Buf ℂ) :
    (man_degree d = 0 → man_lambda_to_z n eps vals d = some (EC_INVALID_ARGUMENT, vals) ∧
      man_z_to_lambda n eps vals d = some (EC_INVALID_ARGUMENT, vals)) ∧
    ((∃ k, d = .other k) → man_upsampling_factor d = 0 ∧ man_degree d = 0 ∧ (∃ ec, man_phase_factor_a eps Dg T0 T1 d = .error ec) ∧
      (∃ ec, man_phase_factor_b eps Dg T0 T1 d = .error ec) ∧ ∃ ec, man_phase_factor_rho eps T1 d = .error ec) := by
  constructor
  · intro h0
    have hs : d ≠ .FTES4_suzuki := by rintro rfl; simp [man_degree] at h0
    unfold man_lambda_to_z man_z_to_lambda
    rw [if_neg hs, if_neg hs]
    split_ifs <;> exact ⟨rfl, rfl⟩
  · rintro ⟨k, rfl⟩
    exact ⟨rfl, rfl, ⟨_, rfl⟩, ⟨_, rfl⟩, ⟨_, rfl⟩⟩

/-- The hypotheses of C56 are met: seven samples, three of them requested, the discretization `4SPLIT4B`; `λ = 1` in the strip. -/
example : Spec.SubGrid 7 3 4 2 ∧ man_upsampling_factor .D4SPLIT4B = 2 ∧ man_degree .D4SPLIT4B ≠ 0 ∧ man_degree .FTES4_suzuki ≠ 0 ∧
    |(1 : ℂ).re * (1 / 2) * Spec.manRate .FTES4_suzuki| < Real.pi := by
  refine ⟨by unfold Spec.SubGrid; omega, rfl, by decide, by decide, ?_⟩
  have := Real.two_le_pi
  simp [Spec.manRate]
  norm_num [abs_of_pos]
  linarith

/-! ## C57: continuous spectrum -/

variable {D : ℕ} {q1 q2 : Buf ℂ} {x1 x2 : ℕ → ℂ} {T0 T1 : ℝ} {κ : ℤ} {o : ManvOpts}

/-- C57. Continuous spectrum, when no bound states are requested (or `kappa = -1`). Let `p1`, `p2` be the processed components of the signal, `U` the steps of the
chosen discretization, and `a(ξ)`, `b1(ξ)`, `b2(ξ)` the scattering coefficients of these steps. If all `a(ξ_i)` are different from zero (not needed for the
type `AB`), the call succeeds and writes the requested quantities in the documented order to `contspec`; nothing else is changed, neither `*K_ptr` nor the
options. If some `a(ξ_i)` is zero, a call that has to divide by it fails. -/
theorem C57_continuous_spectrum (h : Spec.ManvArgs D q1 q2 x1 x2 T0 T1 κ o) {M : ℕ} {XI0 XI1 : ℝ} {c : Buf ℂ}
    (hc : Spec.ManContReq D M XI0 XI1 o c) (hrich : o.rich ≠ 1) (K : Option ℕ) (bs : Option (Buf ℂ)) (hbs : bs = none ∨ κ = -1 ∧ K ≠ none) :
    let eps := (T1 - T0) / (D - 1)
    let N := D * man_upsampling_factor o.disc
    ∃ p1 p2 U, Spec.ManProcessed o.disc D x1 p1 ∧ Spec.ManProcessed o.disc D x2 p2 ∧ Spec.ManSteps o.disc κ eps N p1 p2 U ∧
      let xi := fun i => ((Spec.grid XI0 XI1 M i : ℝ) : ℂ)
      let a := fun i => Spec.manCoefA o.disc (Spec.chain (U (xi i)) N) T0 T1 eps (xi i)
      let b1 := fun i => Spec.manCoefB o.disc (Spec.chain (U (xi i)) N) T0 T1 eps 1 (xi i)
      let b2 := fun i => Spec.manCoefB o.disc (Spec.chain (U (xi i)) N) T0 T1 eps 2 (xi i)
      Spec.ManNonsing o.disc κ N M XI0 XI1 p1 p2 → ∀ (roots : RootFinder),
      ((o.cs = .AB ∨ ∀ i, i < M → a i ≠ 0) →
        ∃ c', fnft_manakovv roots D (some q1) (some q2) (some (T0, T1)) M (some (XI0, XI1)) κ o ⟨some c, K, bs⟩ =
            some (SUCCESS, ⟨some c', K, bs⟩, o) ∧ Spec.ManContWritten o.cs M a b1 b2 c c') ∧
      (o.cs ≠ .AB → (∃ i, i < M ∧ a i = 0) →
        ∃ c', fnft_manakovv roots D (some q1) (some q2) (some (T0, T1)) M (some (XI0, XI1)) κ o ⟨some c, K, bs⟩ =
            some (E_SUBROUTINE EC_DIV_BY_ZERO, ⟨some c', K, bs⟩, o) ∧ c'.len = c.len ∧ ∀ j, 2 * M ≤ j → c'.rd j = c.rd j) := by
  intro eps N
  obtain ⟨u1, u2, p1, p2, h1, h2, h3, h4⟩ := manv_run h
  obtain ⟨deg, W, tm, U, h5, h6⟩ := man_base_run h3 o.nrm
  refine ⟨p1, p2, U, h1, h2, h5.1, ?_⟩
  intro xi a b1 b2 hns roots
  have hbs' : bs = none ∨ κ ≠ 1 := by
    rcases hbs with hb | ⟨hb, -⟩
    · exact Or.inl hb
    · right; rw [hb]; decide
  have hr : ManReq κ o (some (XI0, XI1)) ⟨some c, K, bs⟩ := by
    refine ⟨fun _ => ⟨_, rfl, hc.hXI⟩, fun hb => ?_, fun hk hb => ?_⟩
    · rcases hbs with rfl | ⟨-, hb'⟩
      · cases hb
      · exact hb'
    · rcases hbs' with rfl | hb'
      · cases hb
      · exact absurd hk hb'
  obtain ⟨e1, e2⟩ := manBaseCont_ok h3 h5 hc hns K none
  have hrun : ∀ C, manBaseCont N u1 u2 T0 T1 M (some (XI0, XI1)) κ o deg W tm ⟨some c, K, none⟩ = some C → C.2.bs = none →
      fnft_manakovv roots D (some q1) (some q2) (some (T0, T1)) M (some (XI0, XI1)) κ o ⟨some c, K, bs⟩ =
        some (chk C.1, ⟨C.2.contspec, C.2.K, bs⟩, o) := by
    intro C hC hb
    have f1 := h6 roots M (some (XI0, XI1)) o ⟨none, K, bs⟩ rfl rfl (fun hc => by cases hc) hr.hK
    rw [manBaseCont_none] at f1
    simp only [Option.bind_eq_bind, Option.bind_some, ne_eq, not_true_eq_false, if_false] at f1
    rw [manBaseDisc_none hbs'] at f1
    have f2 := h6 roots M (some (XI0, XI1)) o ⟨some c, K, none⟩ rfl rfl hr.hXI (fun hc => by cases hc)
    rw [hC] at f2
    simp only [Option.bind_eq_bind, Option.bind_some] at f2
    have f3 : man_base roots N u1 u2 T0 T1 M (some (XI0, XI1)) κ o ⟨some c, K, none⟩ = some C := by
      rw [f2]
      split_ifs with hs
      · rfl
      · rw [manBaseDisc_none (Or.inl hb)]
        have : C.1 = SUCCESS := not_not.mp hs
        rw [← this]
    have hcont : manvCont roots N u1 u2 (T0, T1) M (some (XI0, XI1)) κ ⟨⟨some c, K, bs⟩, o⟩ =
        some (chk C.1, ⟨⟨C.2.contspec, C.2.K, bs⟩, o⟩) := by
      unfold manvCont
      dsimp only
      rw [f1]
      simp only [Option.bind_eq_bind, Option.bind_some, ne_eq, not_true_eq_false, if_false]
      rw [f3]; rfl
    have hres : manvReserve ⟨⟨some c, K, bs⟩, o⟩ = some ⟨⟨some c, K, bs⟩, o⟩ := by
      unfold manvReserve
      rw [if_neg (fun hc => hrich hc.1)]
    rw [h4 roots M _ _ hr, hres]
    simp only [Option.bind_eq_bind, Option.bind_some]
    rw [hcont]
    simp only [Option.bind_some]
    split_ifs with hs
    · rfl
    · have hs' := not_not.mp hs
      have hb : manvBound roots D q1 q2 (T0, T1) ((T1 - T0) / (D - 1)) M (some (XI0, XI1)) κ ⟨⟨C.2.contspec, C.2.K, bs⟩, o⟩ =
          some (SUCCESS, ⟨⟨C.2.contspec, C.2.K, bs⟩, o⟩) := by
        unfold manvBound
        rw [if_neg]
        rintro ⟨c1, c2⟩
        rcases hbs' with rfl | hb'
        · cases c2
        · exact hb' c1
      rw [hb]
      simp only [Option.bind_some, ne_eq, not_true_eq_false, if_false]
      unfold manvRichIf
      dsimp only
      rw [if_neg hrich, hs']; rfl
  constructor
  · intro h0
    obtain ⟨c', g1, g2⟩ := e1 h0
    exact ⟨c', by rw [hrun _ g1 rfl]; rfl, g2⟩
  · intro h0 h0'
    obtain ⟨c', g1, g2⟩ := e2 h0 h0'
    exact ⟨c', by rw [hrun _ g1 rfl]; rfl, g2⟩

/-- C57, any request. Whatever else is requested: if the call succeeds, the options are unchanged, and `contspec` contains the continuous spectrum. -/
theorem C57_any_request (h : Spec.ManvArgs D q1 q2 x1 x2 T0 T1 κ o) {M : ℕ} {XI0 XI1 : ℝ} {c : Buf ℂ}
    (hc : Spec.ManContReq D M XI0 XI1 o c) (hrich : o.rich ≠ 1) (K : Option ℕ) (bs : Option (Buf ℂ)) :
    let eps := (T1 - T0) / (D - 1)
    let N := D * man_upsampling_factor o.disc
    ∃ p1 p2 U, Spec.ManProcessed o.disc D x1 p1 ∧ Spec.ManProcessed o.disc D x2 p2 ∧ Spec.ManSteps o.disc κ eps N p1 p2 U ∧
      let xi := fun i => ((Spec.grid XI0 XI1 M i : ℝ) : ℂ)
      let a := fun i => Spec.manCoefA o.disc (Spec.chain (U (xi i)) N) T0 T1 eps (xi i)
      let b1 := fun i => Spec.manCoefB o.disc (Spec.chain (U (xi i)) N) T0 T1 eps 1 (xi i)
      let b2 := fun i => Spec.manCoefB o.disc (Spec.chain (U (xi i)) N) T0 T1 eps 2 (xi i)
      Spec.ManNonsing o.disc κ N M XI0 XI1 p1 p2 → ∀ (roots : RootFinder) (s' : ManvSt) (o' : ManvOpts),
        fnft_manakovv roots D (some q1) (some q2) (some (T0, T1)) M (some (XI0, XI1)) κ o ⟨some c, K, bs⟩ = some (SUCCESS, s', o') →
        o' = o ∧ (o.cs = .AB ∨ ∀ i, i < M → a i ≠ 0) ∧ ∃ c', s'.contspec = some c' ∧ Spec.ManContWritten o.cs M a b1 b2 c c' := by
  intro eps N
  obtain ⟨u1, u2, p1, p2, h1, h2, h3, h4⟩ := manv_run h
  obtain ⟨deg, W, tm, U, h5, h6⟩ := man_base_run h3 o.nrm
  refine ⟨p1, p2, U, h1, h2, h5.1, ?_⟩
  intro xi a b1 b2 hns roots s' o' hrun
  by_cases hrej : manvReject D (some q1) (some q2) (some (T0, T1)) (some (XI0, XI1)) κ o ⟨some c, K, bs⟩
  · unfold fnft_manakovv at hrun
    rw [if_pos hrej] at hrun
    exact absurd (congrArg Prod.fst (Option.some.inj hrun)) (show ¬ (EC_INVALID_ARGUMENT = SUCCESS) by decide)
  have hr : ManReq κ o (some (XI0, XI1)) ⟨some c, K, bs⟩ := by
    refine ⟨fun _ => ⟨_, rfl, hc.hXI⟩, fun hb hK => hrej ?_, fun hk hb => ?_⟩
    · exact Or.inr (Or.inr (Or.inr (Or.inr (Or.inr (Or.inr (Or.inl ⟨hb, hK⟩))))))
    · by_contra hcon
      push Not at hcon
      refine hrej (Or.inr (Or.inr (Or.inr (Or.inr (Or.inr (Or.inr (Or.inr (Or.inr ⟨?_, hcon.2, hk, hb⟩))))))))
      rw [← Bool.not_eq_true, manvFast_iff, hcon.1]; simp
  have hres : manvReserve ⟨⟨some c, K, bs⟩, o⟩ = some ⟨⟨some c, K, bs⟩, o⟩ := by
    unfold manvReserve
    rw [if_neg (fun hc => hrich hc.1)]
  rw [h4 roots M _ _ hr, hres] at hrun
  simp only [Option.bind_eq_bind, Option.bind_some] at hrun
  rw [Option.bind_eq_some_iff] at hrun
  obtain ⟨C, hC, hrun⟩ := hrun
  split_ifs at hrun with hs
  · exact absurd (congrArg Prod.fst (Option.some.inj hrun)) hs
  rw [Option.bind_eq_some_iff] at hrun
  obtain ⟨F, hF, hrun⟩ := hrun
  split_ifs at hrun with hs2
  · exact absurd (congrArg Prod.fst (Option.some.inj hrun)) hs2
  rw [Option.bind_eq_some_iff] at hrun
  obtain ⟨R, hR, hrun⟩ := hrun
  have hrun := Option.some.inj hrun
  -- the options and the spectrum survive the bound states
  have hF' : F.2.opts = C.2.opts ∧ F.2.st.contspec = C.2.st.contspec := by
    unfold manvBound at hF
    split_ifs at hF
    · rw [Option.bind_eq_bind, Option.bind_eq_some_iff] at hF
      obtain ⟨Ds, -, hF⟩ := hF
      rw [Option.bind_eq_bind, Option.bind_eq_some_iff] at hF
      obtain ⟨P, -, hF⟩ := hF
      split at hF
      · cases hF; exact ⟨rfl, rfl⟩
      · rw [Option.bind_eq_bind, Option.bind_eq_some_iff] at hF
        obtain ⟨R', -, hF⟩ := hF
        cases hF; exact ⟨rfl, rfl⟩
    · cases hF; exact ⟨rfl, rfl⟩
  unfold manvCont at hC
  dsimp only at hC
  rw [Option.bind_eq_bind, Option.bind_eq_some_iff] at hC
  obtain ⟨R1, hR1, hC⟩ := hC
  split_ifs at hC with hs3
  · have := congrArg Prod.fst (Option.some.inj hC)
    have hc1 : chk R1.1 = SUCCESS := this.trans (not_not.mp hs)
    exact absurd (chk_success.mp hc1) hs3
  rw [Option.bind_eq_some_iff] at hC
  obtain ⟨S, hS, hC⟩ := hC
  have hC := Option.some.inj hC
  have hS1 : S.1 = SUCCESS := chk_success.mp ((congrArg Prod.fst hC).trans (not_not.mp hs))
  have hCo : C.2.opts = o := by rw [← hC]
  have hCc : C.2.st.contspec = S.2.contspec := by rw [← hC]
  have hRF : R.2 = F.2 := by
    unfold manvRichIf at hR
    rw [hF'.1, hCo, if_neg hrich] at hR
    cases hR; rfl
  have ho : o' = o := by
    have := congrArg (fun p => p.2.2) hrun
    dsimp only at this
    rw [← this, hRF, hF'.1, hCo]
  have hsc : s'.contspec = S.2.contspec := by
    have := congrArg (fun p => p.2.1) hrun
    dsimp only at this
    rw [← this, hRF, hF'.2, hCc]
  refine ⟨ho, ?_⟩
  obtain ⟨e1, e2⟩ := manBaseCont_ok h3 h5 hc hns R1.2.K none
  have f2 := h6 roots M (some (XI0, XI1)) o ⟨some c, R1.2.K, none⟩ rfl rfl hr.hXI (fun hc => by cases hc)
  rw [f2] at hS
  by_cases h0 : o.cs = .AB ∨ ∀ i, i < M → a i ≠ 0
  · refine ⟨h0, ?_⟩
    obtain ⟨c', g1, g2⟩ := e1 h0
    rw [g1] at hS
    simp only [Option.bind_eq_bind, Option.bind_some, ne_eq, not_true_eq_false, if_false] at hS
    rw [manBaseDisc_none (Or.inl rfl)] at hS
    refine ⟨c', ?_, g2⟩
    rw [hsc, ← Option.some.inj hS]
  · exfalso
    push Not at h0
    obtain ⟨c', g1, g2⟩ := e2 h0.1 h0.2
    rw [g1] at hS
    simp only [Option.bind_eq_bind, Option.bind_some] at hS
    rw [if_pos (by decide)] at hS
    have hc' : E_SUBROUTINE EC_DIV_BY_ZERO = S.1 := congrArg Prod.fst (Option.some.inj hS)
    rw [hS1] at hc'
    revert hc'; decide

/-- C57, rejected calls: fewer than two samples, a missing component, a missing or empty interval, a missing or empty frequency interval when the
continuous spectrum is requested, a sign other than `1` and `-1`, bound states without `K_ptr`, a discretization that is unknown or has neither
polynomials nor exact exponentials, bound states for the latter (unless the option `NEWTON` is set). Nothing is written. -/
theorem C57_rejects (roots : RootFinder) (D : ℕ) (q1 q2 : Option (Buf ℂ)) (T XI : Option (ℝ × ℝ)) (M : ℕ) (κ : ℤ) (o : ManvOpts) (s : ManvSt)
    (h : D < 2 ∨ q1 = none ∨ q2 = none ∨ T = none ∨ (∃ X, T = some X ∧ X.2 ≤ X.1) ∨
      (s.contspec.isSome ∧ (XI = none ∨ ∃ X, XI = some X ∧ X.2 ≤ X.1)) ∨ (κ ≠ 1 ∧ κ ≠ -1) ∨ (s.bs.isSome ∧ s.K = none) ∨
      ¬ Spec.manAccepted o.disc ∨ ((o.disc = .BO ∨ o.disc = .CF4_2) ∧ o.loc ≠ .NEWTON ∧ κ = 1 ∧ s.bs.isSome)) :
    fnft_manakovv roots D q1 q2 T M XI κ o s = some (EC_INVALID_ARGUMENT, s, o) := by
  unfold fnft_manakovv
  rw [if_pos]
  rcases h with c | c | c | c | ⟨X, rfl, c⟩ | ⟨c1, c⟩ | c | c | c | ⟨c, c'⟩
  · exact Or.inl c
  · exact Or.inr (Or.inl c)
  · exact Or.inr (Or.inr (Or.inl c))
  · exact Or.inr (Or.inr (Or.inr (Or.inl (by rw [c]; rintro ⟨X, hX, -⟩; cases hX))))
  · exact Or.inr (Or.inr (Or.inr (Or.inl (by rintro ⟨Y, hY, hY'⟩; cases hY; linarith))))
  · refine Or.inr (Or.inr (Or.inr (Or.inr (Or.inl ⟨c1, ?_⟩))))
    rcases c with rfl | ⟨X, rfl, c⟩
    · rintro ⟨X, hX, -⟩; cases hX
    · rintro ⟨Y, hY, hY'⟩; cases hY; linarith
  · refine Or.inr (Or.inr (Or.inr (Or.inr (Or.inr (Or.inl ?_)))))
    intro hc
    rcases abs_cases κ with ⟨e, -⟩ | ⟨e, -⟩ <;> omega
  · exact Or.inr (Or.inr (Or.inr (Or.inr (Or.inr (Or.inr (Or.inl c))))))
  · refine Or.inr (Or.inr (Or.inr (Or.inr (Or.inr (Or.inr (Or.inr (Or.inl ?_)))))))
    simp only [Spec.manAccepted, not_or] at c
    refine ⟨?_, c.1, c.2.1⟩
    rw [← Bool.not_eq_true, manvFast_iff]; exact c.2.2
  · refine Or.inr (Or.inr (Or.inr (Or.inr (Or.inr (Or.inr (Or.inr (Or.inr ⟨?_, c'⟩)))))))
    rcases c with c | c <;> rw [c] <;> rfl

/-- The hypotheses of C57 are met: two constant components with five samples, `4SPLIT4B` (the second call is one for a slow method, in the defocusing case). -/
example : Spec.ManvArgs 5 (Buf.ofFn 5 fun _ => 1) (Buf.ofFn 5 fun _ => I) (fun _ => 1) (fun _ => I) (-1) 1 1
      { manakovv_default_opts with disc := .D4SPLIT4B } ∧
    Spec.ManContReq 5 3 (-1) 1 { manakovv_default_opts with disc := .D4SPLIT4B } (Buf.malloc 6) ∧
    Spec.ManNonsing .BO (-1) 5 3 (-1) 1 (fun _ => 2) (fun _ => 0) := by
  refine ⟨⟨by norm_num, by simp [man_upsampling_factor], fun _ => by norm_num, Buf.holds_ofFn _ _, Buf.holds_ofFn _ _, by norm_num, by norm_num,
    by right; right; simp [Spec.manSplitting]⟩, ⟨by norm_num, by norm_num, by simp [man_upsampling_factor, man_degree],
    fun n => by simp [manakovv_default_opts], by simp [Spec.manCsLen, manakovv_default_opts]⟩, ?_⟩
  intro _ _ i hi n _
  right
  have h3 : i = 0 ∨ i = 1 ∨ i = 2 := by omega
  rcases h3 with rfl | rfl | rfl <;> norm_num [Spec.grid, man_upsampling_factor]

end FNFT

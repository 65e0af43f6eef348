import Verif.Proofs.InvMixed
/-!
# C67, C68, C69: adding eigenvalues to a seed potential
-/
namespace FNFT
open Complex Spec

/-- C67, C68: the scattering data that the specification talks about are unique: at most one `a` in the upper half plane, at most one pair `a`, `b` on the
real axis, and at most one norming constant for an eigenvalue, which is a zero of `a`. -/
theorem C67_data_unique {E E' : Set ℝ} (hE : E.Finite) (hE' : E'.Finite) (Q : ℝ → ℂ) :
    (∀ l a a' : ℂ, 0 < l.im → ScatUpper E Q l a → ScatUpper E' Q l a' → a = a') ∧
    (∀ (l : ℝ) (a b a' b' : ℂ), ScatReal E Q l a b → ScatReal E' Q l a' b' → a = a' ∧ b = b') ∧
    (∀ l b b' : ℂ, 0 < l.im → Bound E Q l b → Bound E' Q l b' → b = b') ∧
    (∀ l b a : ℂ, 0 < l.im → Bound E Q l b → ScatUpper E' Q l a → a = 0) :=
  ⟨fun _ _ _ hl h h' => scatUpper_unique hE hE' hl.le h h', fun _ _ _ _ _ h h' => scatReal_unique hE hE' h h',
    fun _ _ _ hl h h' => bound_unique hE hE' hl.le h h', fun _ _ _ hl h h' => bound_zero hE hE' hl.le h h'⟩

theorem pow_two_le {D : ℕ} (hD : ∃ p, 1 ≤ p ∧ D = 2 ^ p) : 2 ≤ D := by
  obtain ⟨p, hp, rfl⟩ := hD
  exact Nat.pow_le_pow_right (by norm_num : 0 < 2) hp

theorem eps_pos {D : ℕ} {T0 T1 eps : ℝ} (hD : 2 ≤ D) (hT : T0 < T1) (he : eps = (T1 - T0) / ((D : ℝ) - 1)) : 0 < eps := by
  have : (2 : ℝ) ≤ D := by exact_mod_cast hD
  rw [he]; exact div_pos (by linarith) (by linarith)

/-- C68: the method `USE_SEED` without continuous spectrum. The samples `qf` of the caller are the seed. A run without division by zero returns the samples
of one potential that has the same `b` as the (piecewise constant) seed and the given eigenvalues in addition, with the given norming constants. -/
theorem C68_seed {K D : ℕ} (hK : 0 < K) {lf bf qf : ℕ → ℂ} {T0 T1 eps : ℝ} (hdata : DiscData K lf bf) (hD : ∃ p, 1 ≤ p ∧ D = 2 ^ p) (hT : T0 < T1)
    (he : eps = (T1 - T0) / ((D : ℝ) - 1)) (hno : ∀ k, k < K → NoEigen (seedQ T0 eps D qf) (lf k))
    (hks : ∀ k n, k < K → n < D → lf k ^ 2 ≠ -((‖qf n‖ ^ 2 : ℝ) : ℂ)) :
    ∃ Q : ℝ → ℂ, AddedTo (seedQ T0 eps D qf) K lf bf Q ∧
      ∀ (bs nc q : Buf ℂ) (XI : Option (ℝ × ℝ)) (o : InvOpts) (g : Garbage) (R : InvRes), bs.Holds 0 K lf → nc.Holds 0 K bf → q.Holds 0 D qf →
        o.disc = .D2SPLIT2A ∨ o.disc = .D2SPLIT2_MODAL → o.meth = .USE_SEED → o.ds = .NORMING_CONSTANTS →
        fnft_nsev_inverse 0 none XI K (some bs) (some nc) D (some q) (some (T0, T1)) 1 o g = some R →
        R.ret = SUCCESS ∧ R.cs = none ∧ ∃ q', R.q = some q' ∧ q'.len = q.len ∧ ∀ n, n < D → q'.rd n = some (Q (T0 + eps * n)) := by
  have hl := fun k hk => (hdata.1 k hk).1
  have hb0 := fun k hk => (hdata.1 k hk).2
  have hD2 := pow_two_le hD
  refine ⟨seedS K lf bf T0 eps D qf, seedS_scat (eps_pos hD2 hT he) hD2 hl hb0 hdata.2 hno, ?_⟩
  intro bs nc q XI o g R hbs hnc hq hd hm hds h
  rw [inverse_nocont hbs hl hK hD hT hd] at h
  obtain ⟨R1, hR1, h⟩ := Option.bind_eq_some_iff.mp h
  obtain ⟨a1, a2, a3⟩ := (invDiscrete_seed (bf := bf) hbs hnc hq hl hdata.2 hD2 hT he hks (Or.inl ⟨rfl, hm⟩)
    (fun bs' nc' _ hn' => ⟨nc', invNorm_id (by rw [hds]; simp), hn'⟩)).1 hR1
  cases h
  exact ⟨by dsimp only; rw [a1]; rfl, rfl, R1.2, rfl, a2, a3⟩

/-- C69: the same with residues. The routine converts the residues as if `a` of the seed were `1` at the eigenvalues: the norming constants are
`rf k` times the derivative of the Blaschke product. -/
theorem C69_seed_residues {K D : ℕ} (hK : 0 < K) {lf bf rf qf : ℕ → ℂ} {T0 T1 eps : ℝ} (hdata : DiscData K lf bf)
    (hres : ∀ k, k < K → Residue (blaschke ((List.range K).map lf)) (lf k) (bf k) (rf k)) (hD : ∃ p, 1 ≤ p ∧ D = 2 ^ p) (hT : T0 < T1)
    (he : eps = (T1 - T0) / ((D : ℝ) - 1)) (hno : ∀ k, k < K → NoEigen (seedQ T0 eps D qf) (lf k))
    (hks : ∀ k n, k < K → n < D → lf k ^ 2 ≠ -((‖qf n‖ ^ 2 : ℝ) : ℂ)) :
    ∃ Q : ℝ → ℂ, AddedTo (seedQ T0 eps D qf) K lf bf Q ∧
      ∀ (bs nc q : Buf ℂ) (XI : Option (ℝ × ℝ)) (o : InvOpts) (g : Garbage) (R : InvRes), bs.Holds 0 K lf → nc.Holds 0 K rf → q.Holds 0 D qf →
        o.disc = .D2SPLIT2A ∨ o.disc = .D2SPLIT2_MODAL → o.meth = .USE_SEED → o.ds = .RESIDUES →
        fnft_nsev_inverse 0 none XI K (some bs) (some nc) D (some q) (some (T0, T1)) 1 o g = some R →
        R.ret = SUCCESS ∧ R.cs = none ∧ ∃ q', R.q = some q' ∧ q'.len = q.len ∧ ∀ n, n < D → q'.rd n = some (Q (T0 + eps * n)) := by
  have hl := fun k hk => (hdata.1 k hk).1
  have hb0 := fun k hk => (hdata.1 k hk).2
  have hD2 := pow_two_le hD
  have hr : ∀ k, k < K → rf k * resD K lf 1 k = bf k := by
    intro k hk
    obtain ⟨d, hd0, hd1, hr⟩ := hres k hk
    have hdd : HasDerivAt (blaschke ((List.range K).map lf)) (resD K lf 1 k) (lf k) := by
      have := resD_deriv hl hk (ac := fun _ => 1) continuousAt_const
      simpa using this
    rw [hr, hdd.unique hd1, div_mul_cancel₀ _ hd0]
  refine ⟨seedS K lf bf T0 eps D qf, seedS_scat (eps_pos hD2 hT he) hD2 hl hb0 hdata.2 hno, ?_⟩
  intro bs nc q XI o g R hbs hnc hq hd hm hds h
  rw [inverse_nocont hbs hl hK hD hT hd] at h
  obtain ⟨R1, hR1, h⟩ := Option.bind_eq_some_iff.mp h
  obtain ⟨a1, a2, a3⟩ := (invDiscrete_seed (bf := bf) hbs hnc hq hl hdata.2 hD2 hT he hks (Or.inl ⟨rfl, hm⟩)
    (fun bs' nc' hb' hn' => by
      obtain ⟨nc2, e1, e2⟩ := invNorm_plain (D := D) (q := q) (T0 := T0) (T1 := T1) (ds := o.ds) (g := g) hb' hn' (srt_im hl)
      refine ⟨nc2, e1, fun i hi => ?_⟩
      rw [e2 i hi, invNormF_perm]
      unfold invNormF
      rw [hds, if_pos rfl, hr _ ((sortP_lt K lf i).mp hi)])).1 hR1
  cases h
  exact ⟨by dsimp only; rw [a1]; rfl, rfl, R1.2, rfl, a2, a3⟩

/-- C68: both spectra. A call with a continuous spectrum `cf` and bound states does the following: it computes the potential for the continuous spectrum alone
(a call with `K = 0`), where a reflection coefficient is first multiplied with the Blaschke factors of the bound states, and adds the given eigenvalues with the
given norming constants to the result. -/
theorem C68_mixed {M K D : ℕ} (hK : 0 < K) {cf lf bf qf : ℕ → ℂ} {T0 T1 eps : ℝ} {XI : ℝ × ℝ} (hdata : DiscData K lf bf) (hD : ∃ p, 1 ≤ p ∧ D = 2 ^ p)
    (hM : M % 2 = 0) (hDM : D ≤ M) (hT : T0 < T1) (he : eps = (T1 - T0) / ((D : ℝ) - 1)) (hno : ∀ k, k < K → NoEigen (seedQ T0 eps D qf) (lf k))
    (hks : ∀ k n, k < K → n < D → lf k ^ 2 ≠ -((‖qf n‖ ^ 2 : ℝ) : ℂ)) {o : InvOpts} (hcs : ∀ n, o.cs ≠ .other n) {cs bs : Buf ℂ} (hc : cs.Holds 0 M cf)
    (hbs : bs.Holds 0 K lf) (hd : o.disc = .D2SPLIT2A ∨ o.disc = .D2SPLIT2_MODAL) (hm : o.meth ≠ .USE_SEED) (hds : o.ds = .NORMING_CONSTANTS) :
    ∃ Q : ℝ → ℂ, AddedTo (seedQ T0 eps D qf) K lf bf Q ∧ ∃ cs' : Buf ℂ, cs'.len = cs.len ∧
      cs'.Holds 0 M (fun i => if o.cs = .REFLECTION_COEFFICIENT then
        cf i * blaschke ((List.range K).map lf) ((XI.1 + i * ((XI.2 - XI.1) / ((M : ℝ) - 1)) : ℝ) : ℂ) else cf i) ∧
      ∀ (nc q : Buf ℂ) (g : Garbage) (R0 R : InvRes) (q0 : Buf ℂ), nc.Holds 0 K bf →
        fnft_nsev_inverse M (some cs') (some XI) 0 none none D (some q) (some (T0, T1)) 1 o g = some R0 → R0.ret = SUCCESS → R0.q = some q0 → q0.Holds 0 D qf →
        fnft_nsev_inverse M (some cs) (some XI) K (some bs) (some nc) D (some q) (some (T0, T1)) 1 o g = some R →
        R.ret = SUCCESS ∧ R.cs = R0.cs ∧ ∃ q', R.q = some q' ∧ q'.len = q0.len ∧ ∀ n, n < D → q'.rd n = some (Q (T0 + eps * n)) := by
  have hl := fun k hk => (hdata.1 k hk).1
  have hb0 := fun k hk => (hdata.1 k hk).2
  have hD2 := pow_two_le hD
  refine ⟨seedS K lf bf T0 eps D qf, seedS_scat (eps_pos hD2 hT he) hD2 hl hb0 hdata.2 hno, ?_⟩
  obtain ⟨cs', p1, p2, p3⟩ : ∃ cs', (if o.cs = .REFLECTION_COEFFICIENT then invPrecomp M cs XI.1 XI.2 K bs = some cs' else cs' = cs) ∧ cs'.len = cs.len ∧
      cs'.Holds 0 M (fun i => if o.cs = .REFLECTION_COEFFICIENT then
        cf i * blaschke ((List.range K).map lf) ((XI.1 + i * ((XI.2 - XI.1) / ((M : ℝ) - 1)) : ℝ) : ℂ) else cf i) := by
    by_cases ho : o.cs = .REFLECTION_COEFFICIENT
    · obtain ⟨cs', h1, h2, h3⟩ := invPrecomp_ok (XI0 := XI.1) (XI1 := XI.2) hc hbs hl
      exact ⟨cs', by rw [if_pos ho]; exact h1, h2, by simp only [if_pos ho]; exact h3⟩
    · exact ⟨cs, by rw [if_neg ho], rfl, by simp only [if_neg ho]; exact hc⟩
  refine ⟨cs', p2, p3, ?_⟩
  intro nc q g R0 R q0 hnc h0 hr0 hq0 hqf h
  have hdeg : D * nse_degree o.disc ≠ 0 := by
    refine Nat.mul_ne_zero (by omega) ?_
    rcases hd with h | h <;> rw [h] <;> decide
  rw [inverse_cont hM hDM (Or.inl rfl) (fun h => absurd h (lt_irrefl 0)) (fun h => absurd h (lt_irrefl 0)) (fun h => absurd h (lt_irrefl 0)) rfl hD hT hd (Or.inl (by simp))] at h0
  rw [inverse_cont hM hDM (Or.inl rfl) (fun _ => rfl) (fun _ => by simp) (fun _ => by simp) (by exact invLower_false hbs hl) hD hT hd (Or.inl (by simp))] at h
  simp only [Option.getD_some] at h0 h
  rw [invCont_precomp (b0 := (none : Option (Buf ℂ)).getD (Buf.malloc 0)) p1 hcs hdeg] at h
  obtain ⟨C, hC, h0⟩ := Option.bind_eq_some_iff.mp h0
  rw [hC, Option.bind_eq_bind, Option.bind_some] at h
  have hC1 : C.1 = SUCCESS := by
    by_contra hne
    rw [if_pos hne] at h0
    cases h0
    exact hne hr0
  rw [if_neg (not_not.mpr hC1)] at h0 h
  have e0 : invDisc 0 ((none : Option (Buf ℂ)).getD (Buf.malloc 0)) ((none : Option (Buf ℂ)).getD (Buf.malloc 0)) D C.2.2 T0 T1 true o g = some (SUCCESS, C.2.2) := by
    unfold invDisc; rw [if_neg (lt_irrefl 0)]
  rw [e0, Option.bind_eq_bind, Option.bind_some] at h0
  cases h0
  cases hq0
  unfold invDisc at h
  rw [if_pos hK] at h
  obtain ⟨R2, hR2, h⟩ := Option.bind_eq_some_iff.mp h
  obtain ⟨R1, hR1, hR2⟩ := Option.bind_eq_some_iff.mp hR2
  obtain ⟨a1, a2, a3⟩ := (invDiscrete_seed (bf := bf) hbs hnc hqf hl hdata.2 hD2 hT he hks (Or.inr ⟨rfl, hm⟩)
    (fun bs' nc' _ hn' => ⟨nc', invNorm_id (by rw [hds]; simp), hn'⟩)).1 hR1
  cases hR2
  cases h
  exact ⟨by dsimp only; rw [a1]; rfl, rfl, R1.2, rfl, a2, a3⟩

/-! ## The hypotheses can be met -/

theorem fK_ex : ∃ r : ℝ, 0 < r ∧ fK 1 (2 * I) = (r : ℂ) := by
  refine ⟨(3 : ℝ) ^ ((1 : ℝ) / 2), by positivity, ?_⟩
  unfold fK csqrt
  have : -((1 : ℂ) * (starRingEnd ℂ) 1) - 2 * I * (2 * I) = ((3 : ℝ) : ℂ) := by
    rw [map_one]; push_cast; linear_combination (-4 : ℂ) * I_mul_I
  rw [this, Complex.ofReal_cpow (by norm_num)]
  norm_num

theorem flow_ex : ∃ S C : ℝ, 0 < S ∧ 0 < C ∧ (∀ v, flow 1 (2 * I) (1 / 2) v = ((C + 2 * S) * v.1 + S * v.2, -S * v.1 + (C - 2 * S) * v.2)) ∧
    ∀ v, flow 1 (2 * I) (-(1 / 2)) v = ((C - 2 * S) * v.1 - S * v.2, S * v.1 + (C + 2 * S) * v.2) := by
  obtain ⟨r, hr, hk⟩ := fK_ex
  have hr' : (r : ℂ) ≠ 0 := by exact_mod_cast hr.ne'
  have e1 : fC (r : ℂ) (1 / 2) = ((Real.cosh (r * (1 / 2)) : ℝ) : ℂ) := by unfold fC; push_cast; rfl
  have e2 : fS (r : ℂ) (1 / 2) = ((Real.sinh (r * (1 / 2)) / r : ℝ) : ℂ) := by unfold fS; rw [if_neg hr']; push_cast; rfl
  have e3 : fC (r : ℂ) (-(1 / 2)) = fC (r : ℂ) (1 / 2) := by
    unfold fC; rw [Complex.ofReal_neg, mul_neg, Complex.cosh_neg]
  have e4 : fS (r : ℂ) (-(1 / 2)) = -fS (r : ℂ) (1 / 2) := by
    unfold fS; rw [if_neg hr', if_neg hr', Complex.ofReal_neg, mul_neg, Complex.sinh_neg, neg_div]
  refine ⟨Real.sinh (r * (1 / 2)) / r, Real.cosh (r * (1 / 2)), div_pos (Real.sinh_pos_iff.mpr (by positivity)) hr, Real.cosh_pos _, fun v => ?_, fun v => ?_⟩
  · unfold flow
    rw [hk, e1, e2, map_one]
    refine Prod.ext ?_ ?_ <;> dsimp only
    · linear_combination (-2 * ((Real.sinh (r * (1 / 2)) / r : ℝ) : ℂ) * v.1) * I_mul_I
    · linear_combination (2 * ((Real.sinh (r * (1 / 2)) / r : ℝ) : ℂ) * v.2) * I_mul_I
  · unfold flow
    rw [hk, e3, e4, e1, e2, map_one]
    refine Prod.ext ?_ ?_ <;> dsimp only
    · linear_combination (2 * ((Real.sinh (r * (1 / 2)) / r : ℝ) : ℂ) * v.1) * I_mul_I
    · linear_combination (-2 * ((Real.sinh (r * (1 / 2)) / r : ℝ) : ℂ) * v.2) * I_mul_I

theorem halfL_ex : halfL (1 / 2) (fun _ => (1 : ℂ)) 0 1 = [(1 / 2, 1), (1 / 2, 1)] := rfl

/-- The seed `q = 1` on `[0, 1]`, given by two samples: `2i` is not an eigenvalue. -/
theorem noEigen_ex : NoEigen (seedQ 0 1 2 fun _ => 1) (2 * I) := by
  intro E hE h
  have hJ := JF.seed (T0 := 0) (eps := 1) one_pos (le_refl 2) (fun _ => (1 : ℂ))
  have h2 := hJ.upper (l := 2 * I) (by simp)
  have := scatUpper_unique hE (pcE_finite _ _) (by simp) h h2
  obtain ⟨S, C, hS, hC, h3, _⟩ := flow_ex
  have hL : halfL (1 / 2) (fun _ => (1 : ℂ)) 0 (2 - 1) = [(1 / 2, 1), (1 / 2, 1)] := rfl
  unfold pcA at this
  rw [hL] at this
  unfold segP segP segP at this
  rw [h3, h3] at this
  dsimp only at this
  rcases mul_eq_zero.mp this.symm with h0 | h0
  · have : ((((C + 2 * S) * (C + 2 * S) - S * S : ℝ) : ℂ)) = 0 := by
      rw [← h0]; push_cast; simp; ring
    have h5 : (C + 2 * S) * (C + 2 * S) - S * S = 0 := by exact_mod_cast this
    nlinarith [mul_pos hC hS, mul_pos hC hC, mul_pos hS hS]
  · exact Complex.exp_ne_zero _ h0

/-- The hypotheses of `C68_seed` can be met: the eigenvalue `2i` with the norming constant `1` is added to the seed `q = 1` on `[0, 1]`, and the routine
returns a result. -/
example : DiscData 1 (fun _ => 2 * I) (fun _ => 1) ∧ NoEigen (seedQ 0 1 2 fun _ => 1) (2 * I) ∧ (2 * I) ^ 2 ≠ -((‖(1 : ℂ)‖ ^ 2 : ℝ) : ℂ) ∧
    ∃ R, fnft_nsev_inverse 0 none none 1 (some (Buf.ofFn 1 fun _ => 2 * I)) (some (Buf.ofFn 1 fun _ => 1)) 2 (some (Buf.ofFn 2 fun _ => 1))
      (some (0, 1)) 1 { inv_default_opts with meth := .USE_SEED } (fun _ _ => 0) = some R := by
  have hks : (2 * I) ^ 2 ≠ -((‖(1 : ℂ)‖ ^ 2 : ℝ) : ℂ) := by
    rw [mul_pow, I_sq]; norm_num
  refine ⟨⟨fun k _ => ⟨by simp, one_ne_zero⟩, fun i j hi hj _ => by omega⟩, noEigen_ex, hks, ?_⟩
  have hb : (Buf.ofFn 1 fun _ => 2 * I).Holds 0 1 fun _ => 2 * I := fun i hi => by rw [Nat.zero_add]; exact Buf.rd_ofFn hi
  have hn : (Buf.ofFn 1 fun _ => (1 : ℂ)).Holds 0 1 fun _ => 1 := fun i hi => by rw [Nat.zero_add]; exact Buf.rd_ofFn hi
  have hq : (Buf.ofFn 2 fun _ => (1 : ℂ)).Holds 0 2 fun _ => 1 := fun i hi => by rw [Nat.zero_add]; exact Buf.rd_ofFn hi
  rw [inverse_nocont hb (fun _ _ => by simp) one_pos ⟨1, le_rfl, by norm_num⟩ (by norm_num) (Or.inl rfl)]
  obtain ⟨R1, hR1⟩ := (invDiscrete_seed (R := (0, Buf.malloc 0)) (T0 := 0) (T1 := 1) (eps := 1) (fl := false) (g := fun _ _ => 0)
    (o := { inv_default_opts with meth := .USE_SEED }) (bf := fun _ => 1) hb hn hq (fun _ _ => by simp) (fun i j hi hj _ => by omega) (le_refl 2) (by norm_num)
    (by norm_num) (fun _ _ _ _ => hks) (Or.inl ⟨rfl, rfl⟩) (fun bs' nc' _ hn' => ⟨nc', invNorm_id (by simp [inv_default_opts]), hn'⟩)).2 (by
      intro n i hn hi
      obtain rfl : i = 0 := by omega
      obtain ⟨S, C, hS, hC, h3, h4⟩ := flow_ex
      have e : dbNV (srtL 1 fun _ => 2 * I) (fun _ => (1 : ℂ)) (seedQ 0 1 2 fun _ => 1) (pcPhi 0 (halfL (1 / 2) (fun _ => 1) 0 (2 - 1)))
          (pcPsi 0 (halfL (1 / 2) (fun _ => 1) 0 (2 - 1))) 0 0 (0 + 1 * n) =
          dbV (pcPhi 0 (halfL (1 / 2) (fun _ => 1) 0 (2 - 1))) (pcPsi 0 (halfL (1 / 2) (fun _ => 1) 0 (2 - 1))) (2 * I) 1 (0 + 1 * n) := rfl
      rw [e]
      unfold dbV
      rw [pcPhi_grid one_pos _ _ hn, pcPsi_grid one_pos (le_refl 2) _ _ hn]
      have hx : exp (I * (2 * I) * ((0 + (((2 : ℕ) : ℝ) - 1) * 1 : ℝ) : ℂ)) = ((Real.exp (-2) : ℝ) : ℂ) := by
        push_cast
        congr 1
        linear_combination (2 : ℂ) * I_mul_I
      rw [hx]
      have hp := Real.exp_pos (-2)
      interval_cases n
      · have e1 : segB (2 * I) (halfL (1 / 2) (fun _ => (1 : ℂ)) 0 (2 - 1 - 0)) (0, ((Real.exp (-2) : ℝ) : ℂ)) =
            flow 1 (2 * I) (-(1 / 2)) (flow 1 (2 * I) (-(1 / 2)) (0, ((Real.exp (-2) : ℝ) : ℂ))) := rfl
        rw [e1, h4, h4]
        show (0 : ℂ) - 1 * _ ≠ 0
        dsimp only
        have : (0 : ℂ) - 1 * (S * ((C - 2 * S) * 0 - S * ((Real.exp (-2) : ℝ) : ℂ)) + (C + 2 * S) * (S * 0 + (C + 2 * S) * ((Real.exp (-2) : ℝ) : ℂ))) =
            ((-(((C + 2 * S) * (C + 2 * S) - S * S) * Real.exp (-2)) : ℝ) : ℂ) := by push_cast; ring
        rw [this]
        have h6 : 0 < (C + 2 * S) * (C + 2 * S) - S * S := by nlinarith [mul_pos hC hS, mul_pos hC hC, mul_pos hS hS]
        have := mul_pos h6 hp
        exact_mod_cast (by linarith : -(((C + 2 * S) * (C + 2 * S) - S * S) * Real.exp (-2)) < 0).ne
      · have e1 : segB (2 * I) (halfL (1 / 2) (fun _ => (1 : ℂ)) 1 (2 - 1 - 1)) (0, ((Real.exp (-2) : ℝ) : ℂ)) = (0, ((Real.exp (-2) : ℝ) : ℂ)) := rfl
        have e2 : fwdSeq (1 / 2) (fun _ => 1) (2 * I) (exp (-I * (2 * I) * ((0 : ℝ) : ℂ)), 0) 0 1 =
            flow 1 (2 * I) (1 / 2) (flow 1 (2 * I) (1 / 2) (exp (-I * (2 * I) * ((0 : ℝ) : ℂ)), 0)) := rfl
        rw [e1, e2, h3, h3]
        dsimp only
        have : -(S : ℂ) * ((C + 2 * S) * exp (-I * (2 * I) * ((0 : ℝ) : ℂ)) + S * 0) + (C - 2 * S) * (-S * exp (-I * (2 * I) * ((0 : ℝ) : ℂ)) + (C - 2 * S) * 0) -
            1 * ((Real.exp (-2) : ℝ) : ℂ) = ((-(2 * (S * C) + Real.exp (-2)) : ℝ) : ℂ) := by push_cast; simp; ring
        rw [this]
        have := mul_pos hS hC
        exact_mod_cast (by linarith : -(2 * (S * C) + Real.exp (-2)) < 0).ne)
  exact ⟨_, by rw [hR1]; rfl⟩

end FNFT

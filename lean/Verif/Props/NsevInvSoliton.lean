import Verif.Proofs.InvTop
import Mathlib.Analysis.Complex.ExponentialBounds
/-!
# C67, C69: multi-solitons
-/
namespace FNFT
open Complex Spec

/-- C67: if only a discrete spectrum is given, then a run without division by zero returns the samples of one multi-soliton that has exactly the given
eigenvalues and norming constants; the multi-soliton does not depend on the grid, the options or the contents of the memory. -/
theorem C67_soliton {K : ℕ} (hK : 0 < K) {lf bf : ℕ → ℂ} (hdata : DiscData K lf bf) :
    ∃ Q : ℝ → ℂ, MultiSoliton K lf bf Q ∧
      ∀ (D : ℕ) (T0 T1 : ℝ) (bs nc q : Buf ℂ) (XI : Option (ℝ × ℝ)) (o : InvOpts) (g : Garbage) (R : InvRes),
        (∃ p, 1 ≤ p ∧ D = 2 ^ p) → T0 < T1 → bs.Holds 0 K lf → nc.Holds 0 K bf →
        o.disc = .D2SPLIT2A ∨ o.disc = .D2SPLIT2_MODAL → o.meth ≠ .USE_SEED → o.ds = .NORMING_CONSTANTS →
        fnft_nsev_inverse 0 none XI K (some bs) (some nc) D (some q) (some (T0, T1)) 1 o g = some R →
        R.ret = SUCCESS ∧ R.cs = none ∧ ∃ q', R.q = some q' ∧ q'.len = q.len ∧
          ∀ n, n < D → q'.rd n = some (Q (T0 + (T1 - T0) / ((D : ℝ) - 1) * n)) := by
  have hl := fun k hk => (hdata.1 k hk).1
  have hb0 := fun k hk => (hdata.1 k hk).2
  refine ⟨solS K lf bf, solS_scat hl hb0 hdata.2, ?_⟩
  intro D T0 T1 bs nc q XI o g R hD hT hbs hnc hd hm hds h
  have := soliton_some hbs hnc hl hb0 hdata.2 hK hD hT hd hm h
  have e : invNormF o.ds K lf bf = bf := by funext i; unfold invNormF; rw [hds, if_neg (by simp)]
  rwa [e] at this

/-- C69: the same with residues instead of norming constants: `rf k` is the residue of `b/a` at the eigenvalue. -/
theorem C69_soliton_residues {K : ℕ} (hK : 0 < K) {lf bf rf : ℕ → ℂ} (hdata : DiscData K lf bf)
    (hres : ∀ k, k < K → Residue (blaschke ((List.range K).map lf)) (lf k) (bf k) (rf k)) :
    ∃ Q : ℝ → ℂ, MultiSoliton K lf bf Q ∧
      ∀ (D : ℕ) (T0 T1 : ℝ) (bs nc q : Buf ℂ) (XI : Option (ℝ × ℝ)) (o : InvOpts) (g : Garbage) (R : InvRes),
        (∃ p, 1 ≤ p ∧ D = 2 ^ p) → T0 < T1 → bs.Holds 0 K lf → nc.Holds 0 K rf →
        o.disc = .D2SPLIT2A ∨ o.disc = .D2SPLIT2_MODAL → o.meth ≠ .USE_SEED → o.ds = .RESIDUES →
        fnft_nsev_inverse 0 none XI K (some bs) (some nc) D (some q) (some (T0, T1)) 1 o g = some R →
        R.ret = SUCCESS ∧ R.cs = none ∧ ∃ q', R.q = some q' ∧ q'.len = q.len ∧
          ∀ n, n < D → q'.rd n = some (Q (T0 + (T1 - T0) / ((D : ℝ) - 1) * n)) := by
  have hl := fun k hk => (hdata.1 k hk).1
  have hb0 := fun k hk => (hdata.1 k hk).2
  have hd : ∀ k, k < K → HasDerivAt (blaschke ((List.range K).map lf)) (resD K lf 1 k) (lf k) := by
    intro k hk
    have := resD_deriv hl hk (ac := fun _ => 1) continuousAt_const
    simpa using this
  have hr : ∀ k, k < K → rf k ≠ 0 ∧ rf k * resD K lf 1 k = bf k := by
    intro k hk
    obtain ⟨d, hd0, hd1, hr⟩ := hres k hk
    have hu := (hd k hk).unique hd1
    rw [hr, hu]
    exact ⟨div_ne_zero (hb0 k hk) hd0, div_mul_cancel₀ _ hd0⟩
  -- the norming constants outside of the arrays do not matter
  refine ⟨solS K lf fun k => rf k * resD K lf 1 k, ?_, ?_⟩
  · have := solS_scat (K := K) (lf := lf) (bf := fun k => rf k * resD K lf 1 k) hl (fun k hk => by rw [(hr k hk).2]; exact hb0 k hk) hdata.2
    refine ⟨this.1, this.2.1, this.2.2.1, fun k hk => ?_⟩
    have h4 := this.2.2.2 k hk
    rwa [(hr k hk).2] at h4
  · intro D T0 T1 bs nc q XI o g R hD hT hbs hnc hdisc hm hds h
    have := soliton_some hbs hnc hl (fun k hk => (hr k hk).1) hdata.2 hK hD hT hdisc hm h
    have e : invNormF o.ds K lf rf = fun k => rf k * resD K lf 1 k := by funext i; unfold invNormF; rw [hds, if_pos rfl]
    rwa [e] at this

/-- The multi-soliton with one eigenvalue. -/
theorem solS_one (lf bf : ℕ → ℂ) (t : ℝ) :
    solS 1 lf bf t = -(4 * ((lf 0).im : ℂ) * (starRingEnd ℂ) (bf 0) * exp (-2 * I * (lf 0).re * t)) /
      ((Real.exp (2 * (lf 0).im * t) + ‖bf 0‖ ^ 2 * Real.exp (-(2 * (lf 0).im * t)) : ℝ) : ℂ) := by
  have h0 : sortP 1 lf 0 = 0 := by have := (sortP_lt 1 lf 0).mp one_pos; omega
  have hs : srtL 1 lf 0 = lf 0 := by unfold srtL; rw [h0]
  unfold solS solQ
  rw [dbN_q_succ]
  have e0 : (dbN (srtL 1 lf) (fun i => bf (sortP 1 lf i)) (fun _ => 0) phi0 psi0 0).1 t = 0 := rfl
  have ev : dbNV (srtL 1 lf) (fun i => bf (sortP 1 lf i)) (fun _ => 0) phi0 psi0 0 0 t = (exp (-I * lf 0 * t), -(bf 0 * exp (I * lf 0 * t))) := by
    show dbV phi0 psi0 (srtL 1 lf 0) (bf (sortP 1 lf 0)) t = _
    rw [hs, h0]; simp [dbV, phi0, psi0]
  rw [e0, ev, hs, dS2, dN_ofReal, sub_conj_im]
  have n1 : ‖exp (-I * lf 0 * t)‖ ^ 2 = Real.exp (2 * (lf 0).im * t) := by
    rw [Complex.norm_exp, ← Real.exp_nat_mul]; congr 1; simp; ring
  have n2 : ‖-(bf 0 * exp (I * lf 0 * t))‖ ^ 2 = ‖bf 0‖ ^ 2 * Real.exp (-(2 * (lf 0).im * t)) := by
    rw [norm_neg, norm_mul, mul_pow, Complex.norm_exp, ← Real.exp_nat_mul]; congr 2; simp; ring
  rw [n1, n2]
  have ec : exp (-I * lf 0 * t) * (starRingEnd ℂ) (-(bf 0 * exp (I * lf 0 * t))) = -((starRingEnd ℂ) (bf 0) * exp (-2 * I * (lf 0).re * t)) := by
    rw [map_neg, map_mul, ← Complex.exp_conj]
    have : exp (-I * lf 0 * t) * -((starRingEnd ℂ) (bf 0) * exp ((starRingEnd ℂ) (I * lf 0 * t))) =
        -((starRingEnd ℂ) (bf 0) * (exp (-I * lf 0 * t) * exp ((starRingEnd ℂ) (I * lf 0 * t)))) := by ring
    rw [this, ← Complex.exp_add]
    congr 3
    simp only [map_mul, conj_I, Complex.conj_ofReal]
    have h2 : (lf 0) + (starRingEnd ℂ) (lf 0) = 2 * ((lf 0).re : ℂ) := by rw [Complex.add_conj]; push_cast; ring
    linear_combination (-I * (t : ℂ)) * h2
  rw [ec]
  have h4 : (2 * I) * (2 * I) = -4 := by linear_combination 4 * I_mul_I
  rw [zero_sub, ← mul_div_assoc, ← neg_div]
  congr 1
  linear_combination (((lf 0).im : ℂ) * ((starRingEnd ℂ) (bf 0) * exp (-2 * I * (lf 0).re * t))) * h4

/-- C67: one eigenvalue: the call always succeeds, and the samples are those of a hyperbolic secant. -/
theorem C67_one_soliton {l b : ℂ} (hl : 0 < l.im) (hb : b ≠ 0) {D : ℕ} {T0 T1 : ℝ} {bs nc q : Buf ℂ} {XI : Option (ℝ × ℝ)} {o : InvOpts} {g : Garbage}
    (hD : ∃ p, 1 ≤ p ∧ D = 2 ^ p) (hT : T0 < T1) (hbs : bs.rd 0 = some l) (hnc : nc.rd 0 = some b) (hq : D ≤ q.len)
    (hd : o.disc = .D2SPLIT2A ∨ o.disc = .D2SPLIT2_MODAL) (hm : o.meth ≠ .USE_SEED) (hds : o.ds = .NORMING_CONSTANTS) :
    ∃ R q', fnft_nsev_inverse 0 none XI 1 (some bs) (some nc) D (some q) (some (T0, T1)) 1 o g = some R ∧
      R.ret = SUCCESS ∧ R.q = some q' ∧ ∀ n : ℕ, n < D → ∀ t : ℝ, t = T0 + (T1 - T0) / ((D : ℝ) - 1) * n →
        q'.rd n = some (-(4 * (l.im : ℂ) * (starRingEnd ℂ) b * exp (-2 * I * l.re * t)) /
          ((Real.exp (2 * l.im * t) + ‖b‖ ^ 2 * Real.exp (-(2 * l.im * t)) : ℝ) : ℂ)) := by
  have hb1 : bs.Holds 0 1 fun _ => l := fun i hi => by have : i = 0 := by omega
                                                       rw [this]; exact hbs
  have hn1 : nc.Holds 0 1 fun _ => b := fun i hi => by have : i = 0 := by omega
                                                       rw [this]; exact hnc
  have hinj : ∀ i j, i < 1 → j < 1 → l = l → i = j := fun i j hi hj _ => by omega
  obtain ⟨R, hR⟩ := soliton_total (XI := XI) (g := g) hb1 hn1 (fun _ _ => hl) (fun _ _ => hb) hinj one_pos hD hT hd hm hq
    (fun n _ i j hij hj => by omega)
  obtain ⟨h1, _, q', h2, _, h3⟩ := soliton_some hb1 hn1 (fun _ _ => hl) (fun _ _ => hb) hinj one_pos hD hT hd hm hR
  refine ⟨R, q', hR, h1, h2, fun n hn t ht => ?_⟩
  rw [h3 n hn, solS_one, ← ht]
  unfold invNormF
  rw [hds, if_neg (by simp)]

/-- The hypotheses can be met: an eigenvalue `i/2` with the norming constant `-1` gives `sech t`. -/
example : ∃ R q', fnft_nsev_inverse 0 none none 1 (some (Buf.ofFn 1 fun _ => I / 2)) (some (Buf.ofFn 1 fun _ => -1)) 4
      (some (Buf.ofFn 4 fun _ => 0)) (some (-1, 2)) 1 inv_default_opts (fun _ _ => 0) = some R ∧
    R.ret = SUCCESS ∧ R.q = some q' ∧ q'.rd 1 = some 1 := by
  obtain ⟨R, q', h1, h2, h3, h4⟩ := C67_one_soliton (l := I / 2) (b := -1) (D := 4) (T0 := -1) (T1 := 2) (bs := Buf.ofFn 1 fun _ => I / 2)
    (nc := Buf.ofFn 1 fun _ => -1) (q := Buf.ofFn 4 fun _ => 0) (XI := none) (o := inv_default_opts) (g := fun _ _ => 0)
    (by simp) (by simp) ⟨2, by norm_num, by norm_num⟩ (by norm_num) (Buf.rd_ofFn one_pos) (Buf.rd_ofFn one_pos) (by simp) (Or.inl rfl)
    (by simp [inv_default_opts]) rfl
  refine ⟨R, q', h1, h2, h3, ?_⟩
  rw [h4 1 (by norm_num) 0 (by norm_num)]
  simp
  norm_num

/-- Two eigenvalues `2i`, `i` with norming constants `1`, `-1`: no division by zero as long as `exp(8|t|) < 3`. -/
theorem two_nz {t : ℝ} (h1 : Real.exp (4 * t) < 3 * Real.exp (-(4 * t))) (h2 : Real.exp (-(4 * t)) < 3 * Real.exp (4 * t)) :
    solNZ 2 (fun k => if k = 0 then 2 * I else I) (fun k => if k = 0 then 1 else -1) t := by
  intro i j hij hj
  obtain rfl : j = 1 := by omega
  obtain rfl : i = 0 := by omega
  have e0 : dbNV (fun k => if k = 0 then 2 * I else I) (fun k => if k = 0 then 1 else -1) (fun _ => 0) phi0 psi0 0 0 t =
      ((Real.exp (2 * t) : ℂ), -(Real.exp (-(2 * t)) : ℂ)) := by
    show dbV phi0 psi0 _ _ t = _
    simp only [dbV, phi0, psi0, if_true]
    refine Prod.ext ?_ ?_
    · simp only [mul_zero, sub_zero]; push_cast; congr 1; linear_combination (-2 * (t : ℂ)) * I_mul_I
    · simp only [one_mul, zero_sub]; push_cast; congr 2; linear_combination (2 * (t : ℂ)) * I_mul_I
  have e1 : dbNV (fun k => if k = 0 then 2 * I else I) (fun k => if k = 0 then 1 else -1) (fun _ => 0) phi0 psi0 0 1 t =
      ((Real.exp t : ℂ), (Real.exp (-t) : ℂ)) := by
    show dbV phi0 psi0 _ _ t = _
    simp only [dbV, phi0, psi0, if_neg (one_ne_zero : (1 : ℕ) ≠ 0)]
    refine Prod.ext ?_ ?_
    · simp only [mul_zero, sub_zero]; push_cast; congr 1; linear_combination (-(t : ℂ)) * I_mul_I
    · simp only [neg_mul, one_mul, zero_sub, neg_neg]; push_cast; congr 1; linear_combination ((t : ℂ)) * I_mul_I
  have hP := Real.exp_pos (4 * t)
  have hM := Real.exp_pos (-(4 * t))
  have p1 := Real.exp_pos t
  have p2 := Real.exp_pos (-t)
  obtain ⟨N, hN⟩ : ∃ N, N = Real.exp (4 * t) + Real.exp (-(4 * t)) := ⟨_, rfl⟩
  have hN0 : 0 < N := by rw [hN]; positivity
  have q1 : Real.exp (2 * t) * Real.exp (2 * t) = Real.exp (4 * t) := by rw [← Real.exp_add]; ring_nf
  have q2 : Real.exp (-(2 * t)) * Real.exp (-(2 * t)) = Real.exp (-(4 * t)) := by rw [← Real.exp_add]; ring_nf
  have q3 : Real.exp (2 * t) * Real.exp (-(2 * t)) = 1 := by rw [← Real.exp_add]; simp
  have dn : dN ((Real.exp (2 * t) : ℂ), -(Real.exp (-(2 * t)) : ℂ)) = (N : ℂ) := by
    unfold dN; simp only [map_neg, Complex.conj_ofReal]; rw [neg_mul_neg, hN, ← q1, ← q2]; push_cast; ring
  have s1 : dS1 (2 * I) ((Real.exp (2 * t) : ℂ), -(Real.exp (-(2 * t)) : ℂ)) = I * ((2 * (Real.exp (4 * t) - Real.exp (-(4 * t))) / N : ℝ) : ℂ) := by
    unfold dS1; rw [dn]; simp only [map_neg, Complex.conj_ofReal, map_mul, conj_I, map_ofNat]; rw [← q1, ← q2]; push_cast; ring
  have s2 : dS2 (2 * I) ((Real.exp (2 * t) : ℂ), -(Real.exp (-(2 * t)) : ℂ)) = I * ((-4 / N : ℝ) : ℂ) := by
    unfold dS2; rw [dn]; simp only [map_neg, Complex.conj_ofReal, map_mul, conj_I, map_ofNat]
    have q3' : (Real.exp (2 * t) : ℂ) * (Real.exp (-(2 * t)) : ℂ) = 1 := by exact_mod_cast q3
    push_cast at q3' ⊢; linear_combination (-4 * I / N) * q3'
  have hne : (I - (starRingEnd ℂ) (2 * I))⁻¹ ≠ 0 := inv_ne_zero (sub_conj_ne (by simp) (by simp))
  rw [dbNV_succ, e0, e1]
  simp only [if_true, if_neg (one_ne_zero : (1 : ℕ) ≠ 0)]
  rw [s1, s2]
  unfold dApp
  simp only [map_mul, conj_I, Complex.conj_ofReal]
  constructor
  · refine mul_ne_zero (by simpa using hne) ?_
    have : (I - I * ((2 * (Real.exp (4 * t) - Real.exp (-(4 * t))) / N : ℝ) : ℂ)) * (Real.exp t : ℂ) - I * ((-4 / N : ℝ) : ℂ) * (Real.exp (-t) : ℂ) =
        I * (((3 * Real.exp (-(4 * t)) - Real.exp (4 * t)) * Real.exp t / N + 4 * Real.exp (-t) / N : ℝ) : ℂ) := by
      have : (1 : ℂ) = ((Real.exp (4 * t) + Real.exp (-(4 * t)) : ℝ) : ℂ) / (N : ℂ) := by rw [← hN, div_self]; exact_mod_cast hN0.ne'
      push_cast at this ⊢
      linear_combination (I * exp t) * this
    rw [this]
    refine mul_ne_zero I_ne_zero ?_
    have : 0 < (3 * Real.exp (-(4 * t)) - Real.exp (4 * t)) * Real.exp t / N + 4 * Real.exp (-t) / N := by
      have : 0 < 3 * Real.exp (-(4 * t)) - Real.exp (4 * t) := by linarith
      positivity
    exact_mod_cast this.ne'
  · refine mul_ne_zero (by simpa using hne) ?_
    have : -I * ((-4 / N : ℝ) : ℂ) * (Real.exp t : ℂ) + (I - -I * ((2 * (Real.exp (4 * t) - Real.exp (-(4 * t))) / N : ℝ) : ℂ)) * (Real.exp (-t) : ℂ) =
        I * (((3 * Real.exp (4 * t) - Real.exp (-(4 * t))) * Real.exp (-t) / N + 4 * Real.exp t / N : ℝ) : ℂ) := by
      have : (1 : ℂ) = ((Real.exp (4 * t) + Real.exp (-(4 * t)) : ℝ) : ℂ) / (N : ℂ) := by rw [← hN, div_self]; exact_mod_cast hN0.ne'
      push_cast at this ⊢
      linear_combination (I * exp (-t)) * this
    rw [this]
    refine mul_ne_zero I_ne_zero ?_
    have : 0 < (3 * Real.exp (4 * t) - Real.exp (-(4 * t))) * Real.exp (-t) / N + 4 * Real.exp t / N := by
      have : 0 < 3 * Real.exp (4 * t) - Real.exp (-(4 * t)) := by linarith
      positivity
    exact_mod_cast this.ne'

theorem sortP_two {lf : ℕ → ℂ} (h : ¬ (lf 0).im < (lf 1).im) : sortP 2 lf = 1 := by
  unfold sortP
  simp [iter, sortP2, sortP1, h]

/-- The hypotheses of `C67_soliton` can be met by a run with two eigenvalues. -/
example : ∃ R q', fnft_nsev_inverse 0 none none 2 (some (Buf.ofFn 2 fun k => if k = 0 then 2 * I else I)) (some (Buf.ofFn 2 fun k => if k = 0 then 1 else -1)) 2
      (some (Buf.ofFn 2 fun _ => 0)) (some (-(1 / 16), 1 / 16)) 1 inv_default_opts (fun _ _ => 0) = some R ∧ R.ret = SUCCESS ∧ R.q = some q' := by
  have hb := Buf.holds_ofFn 2 fun k => if k = 0 then 2 * I else I
  have hn := Buf.holds_ofFn 2 fun k => if k = 0 then (1 : ℂ) else -1
  have hs : sortP 2 (fun k => if k = 0 then 2 * I else I) = 1 := sortP_two (by simp)
  have hl : ∀ i, i < 2 → 0 < ((if i = 0 then 2 * I else I : ℂ)).im := fun i _ => by split <;> simp
  have hr : ∀ i, i < 2 → (if i = 0 then (1 : ℂ) else -1) ≠ 0 := fun i _ => by split <;> simp
  have hinj : ∀ i j, i < 2 → j < 2 → (if i = 0 then 2 * I else I : ℂ) = (if j = 0 then 2 * I else I) → i = j := by
    intro i j hi hj h
    have h' := congrArg Complex.im h
    by_cases h1 : i = 0 <;> by_cases h2 : j = 0 <;> simp [h1, h2] at h' <;> omega
  have hee : Real.exp (1 / 2) < 3 := by
    have h1 : Real.exp (1 / 2) * Real.exp (1 / 2) = Real.exp 1 := by rw [← Real.exp_add]; norm_num
    have h2 := Real.exp_one_lt_d9
    have h3 := Real.exp_pos (1 / 2)
    by_contra h
    have : 3 ≤ Real.exp (1 / 2) := not_lt.mp h
    nlinarith
  have k1 : Real.exp (1 / 4) < 3 * Real.exp (-(1 / 4)) := by
    have h1 : Real.exp (1 / 4) = Real.exp (1 / 2) * Real.exp (-(1 / 4)) := by rw [← Real.exp_add]; norm_num
    rw [h1]; exact mul_lt_mul_of_pos_right hee (Real.exp_pos _)
  have k2 : Real.exp (-(1 / 4)) < 3 * Real.exp (1 / 4) := by
    have h1 : Real.exp (-(1 / 4)) < Real.exp (1 / 4) := Real.exp_lt_exp.mpr (by norm_num)
    have := Real.exp_pos (1 / 4)
    linarith
  obtain ⟨R, hR⟩ := soliton_total (XI := none) (g := fun _ _ => 0) (q := Buf.ofFn 2 fun _ => 0) (o := inv_default_opts) (D := 2) (T0 := -(1 / 16)) (T1 := 1 / 16)
    hb hn hl hr hinj (by norm_num) ⟨1, le_rfl, rfl⟩ (by norm_num) (Or.inl rfl) (by simp [inv_default_opts]) (by simp) (by
      intro n hn
      unfold srtL
      rw [hs]
      have e : (fun i => invNormF inv_default_opts.ds 2 (fun k => if k = 0 then 2 * I else I) (fun k => if k = 0 then 1 else -1) ((1 : Equiv.Perm ℕ) i)) =
          fun k => if k = 0 then 1 else -1 := by funext i; by_cases h : i = 0 <;> simp [invNormF, inv_default_opts, h]
      rw [e]
      have hn' : n = 0 ∨ n = 1 := by omega
      rcases hn' with rfl | rfl
      · have et : (-(1 / 16) + (1 / 16 - -(1 / 16)) / (((2 : ℕ) : ℝ) - 1) * ((0 : ℕ) : ℝ) : ℝ) = -(1 / 16) := by norm_num
        rw [et]
        exact two_nz (by convert k2 using 3 <;> norm_num) (by convert k1 using 3 <;> norm_num)
      · have et : (-(1 / 16) + (1 / 16 - -(1 / 16)) / (((2 : ℕ) : ℝ) - 1) * ((1 : ℕ) : ℝ) : ℝ) = 1 / 16 := by norm_num
        rw [et]
        exact two_nz (by convert k1 using 3 <;> norm_num) (by convert k2 using 3 <;> norm_num))
  obtain ⟨h1, _, q', h2, _⟩ := soliton_some hb hn hl hr hinj (by norm_num) ⟨1, le_rfl, rfl⟩ (by norm_num) (Or.inl rfl) (by simp [inv_default_opts]) hR
  exact ⟨R, q', hR, h1, h2⟩

end FNFT

import Verif.Props.KdvBound
import Mathlib.Analysis.Normed.Algebra.MatrixExponential
import Mathlib.Topology.Order.IntermediateValue
import Mathlib.Analysis.SpecialFunctions.Trigonometric.DerivHyp
/-!
# Properties of `fnft_kdvv`: zeros of `a` on the imaginary axis and norming constants
-/
namespace FNFT
open Complex Matrix AknsDisc

local notation "mexp" => NormedSpace.exp

theorem mexp_continuous : Continuous (NormedSpace.exp : Spec.M2 → Spec.M2) := by
  let _ : SeminormedRing Spec.M2 := Matrix.linftyOpSemiNormedRing
  let _ : NormedRing Spec.M2 := Matrix.linftyOpNormedRing
  let _ : NormedAlgebra ℂ Spec.M2 := Matrix.linftyOpNormedAlgebra
  let _ : NormedAlgebra ℚ Spec.M2 := .restrictScalars ℚ ℂ Spec.M2
  exact NormedSpace.exp_continuous

theorem aknsP_continuous (q r : ℂ) : Continuous (fun k : ℝ => Spec.aknsP q r (I * k)) := by
  refine continuous_matrix fun i j => ?_
  fin_cases i <;> fin_cases j <;> simp [Spec.aknsP] <;> fun_prop

theorem slowStep_continuous {d : AknsDisc} (hd : Spec.slow d) (eps : ℝ) (w qf rf : ℕ → ℂ) (n : ℕ) :
    Continuous (fun k : ℝ => Spec.slowStep mexp d eps w qf rf (I * k) n) := by
  have h : ∀ m, Continuous (fun k : ℝ => Spec.aknsP (qf m) (rf m) (I * k)) := fun m => aknsP_continuous _ _
  have h1 : ∀ m (c : ℂ), Continuous (fun k : ℝ => mexp (c • Spec.aknsP (qf m) (rf m) (I * k))) := fun m c =>
    mexp_continuous.comp ((h m).const_smul c)
  have hES : Continuous (fun k : ℝ => Spec.slowStep mexp ES4 eps w qf rf (I * k) n) := by
    have h0 := h (3 * n)
    show Continuous fun k : ℝ => mexp ((eps : ℂ) • Spec.aknsP (qf (3 * n)) (rf (3 * n)) (I * k) +
      ((eps : ℂ) ^ 3 / 24) • Spec.aknsPt (qf (3 * n + 2)) (rf (3 * n + 2)) - ((eps : ℂ) ^ 3 / 12) •
      (Spec.aknsP (qf (3 * n)) (rf (3 * n)) (I * k) * Spec.aknsPt (qf (3 * n + 1)) (rf (3 * n + 1)) -
        Spec.aknsPt (qf (3 * n + 1)) (rf (3 * n + 1)) * Spec.aknsP (qf (3 * n)) (rf (3 * n)) (I * k)))
    refine mexp_continuous.comp (Continuous.sub (Continuous.add (h0.const_smul (eps : ℂ)) continuous_const) ?_)
    exact Continuous.const_smul (Continuous.sub (h0.matrix_mul continuous_const) (continuous_const.matrix_mul h0)) ((eps : ℂ) ^ 3 / 12)
  have hTES : Continuous (fun k : ℝ => Spec.slowStep mexp TES4 eps w qf rf (I * k) n) :=
    (continuous_const.matrix_mul (h1 (3 * n) eps)).matrix_mul continuous_const
  rcases hd with rfl | rfl | rfl | rfl | rfl | rfl | rfl
  · exact h1 n _
  · exact h1 n _
  · exact h1 n _
  · exact h1 n _
  · exact h1 n _
  · exact hES
  · exact hTES

theorem chain_continuous {U : ℝ → ℕ → Spec.M2} (N : ℕ) (h : ∀ n, Continuous fun k => U k n) : Continuous fun k => Spec.chain (U k) N := by
  induction N with
  | zero => simp only [chain_zero]; exact continuous_const
  | succ N ih => simp only [chain_succ]; exact (h N).matrix_mul ih

theorem kdvS11_continuousOn {d : AknsDisc} (hd : Spec.slow d) (vanilla : Bool) (D : ℕ) (eps : ℝ) (qf rf : ℕ → ℂ) :
    ContinuousOn (Spec.kdvS11 mexp d vanilla D eps qf rf) (Set.Ioi 0) := by
  have hB : Continuous fun k : ℝ => Spec.fromS true vanilla (I * k) := by
    refine continuous_matrix fun i j => ?_
    cases vanilla <;> fin_cases i <;> fin_cases j <;> simp [Spec.fromS] <;> fun_prop
  have hdet : ∀ k : ℝ, (Spec.fromS true vanilla (I * k)).det ≠ 0 ↔ k ≠ 0 := by
    intro k
    cases vanilla <;> simp [Spec.fromS, Matrix.det_fin_two]
  have hBi : ContinuousOn (fun k : ℝ => (Spec.fromS true vanilla (I * k))⁻¹) (Set.Ioi 0) := by
    simp only [Matrix.inv_def, Ring.inverse_eq_inv']
    have h1 : ContinuousOn (fun k : ℝ => ((Spec.fromS true vanilla (I * k)).det)⁻¹) (Set.Ioi 0) :=
      hB.matrix_det.continuousOn.inv₀ fun k hk => (hdet k).mpr (ne_of_gt hk)
    exact h1.smul hB.matrix_adjugate.continuousOn
  have hch := chain_continuous (U := fun k : ℝ => Spec.slowStep mexp d eps (Spec.cfWeight d) qf rf (I * k)) (Spec.slowCount d D)
    fun n => slowStep_continuous hd eps (Spec.cfWeight d) qf rf n
  unfold Spec.kdvS11 Spec.kdvS
  have h1 : ContinuousOn (fun k : ℝ => (Spec.fromS true vanilla (I * k))⁻¹ *
      Spec.chain (Spec.slowStep mexp d eps (Spec.cfWeight d) qf rf (I * k)) (Spec.slowCount d D) * Spec.fromS true vanilla (I * k)) (Set.Ioi 0) :=
    (hBi.mul hch.continuousOn).mul hB.continuousOn
  exact fun k hk => (((continuous_apply_apply (0 : Fin 2) (0 : Fin 2)).continuousAt).comp_continuousWithinAt (h1 k hk))

/-- `a(iκ) = e^{-κ (T1 - T0 + ε)} S₁₁(iκ)`. -/
theorem kdvSlowA_S11 (E : Spec.M2 → Spec.M2) (d : AknsDisc) (vanilla : Bool) (D : ℕ) (T0 T1 eps : ℝ) (qf rf : ℕ → ℂ) (k : ℝ) :
    Spec.kdvSlowA E d vanilla D T0 T1 eps qf rf (I * k) = (Real.exp (-(k * (T1 - T0 + eps))) : ℂ) * Spec.kdvS11 E d vanilla D eps qf rf k := by
  unfold Spec.kdvSlowA Spec.kdvA Spec.jostA Spec.kdvS11
  generalize Spec.kdvS vanilla _ _ _ = S
  simp only [Matrix.mulVec, dotProduct, Fin.sum_univ_two, Matrix.cons_val_zero, Matrix.cons_val_one, mul_zero, add_zero]
  rw [mul_div_assoc, ← exp_sub, mul_comm]
  congr 1
  push_cast
  congr 1
  linear_combination (-(k : ℂ) * (T0 - T1 - eps)) * I_sq

theorem kdvReA_S11 (E : Spec.M2 → Spec.M2) (d : AknsDisc) (vanilla : Bool) (D : ℕ) (T0 T1 eps : ℝ) (qf rf : ℕ → ℂ) (k : ℝ) :
    Spec.kdvReA E d vanilla D T0 T1 eps qf rf k = Real.exp (-(k * (T1 - T0 + eps))) * (Spec.kdvS11 E d vanilla D eps qf rf k).re := by
  unfold Spec.kdvReA
  rw [kdvSlowA_S11, re_ofReal_mul]

theorem kdvS11_exact {E : Spec.M2 → Spec.M2} (hE : Spec.NearExp E) {d : AknsDisc} {vanilla : Bool} {D : ℕ} {eps : ℝ} {qf rf : ℕ → ℂ} {k : ℝ}
    (hreg : Spec.Regular d eps (Spec.cfWeight d) qf rf (I * k) (Spec.slowCount d D)) :
    Spec.kdvS11 E d vanilla D eps qf rf k = Spec.kdvS11 mexp d vanilla D eps qf rf k := by
  unfold Spec.kdvS11 Spec.kdvS
  rw [chain_congr' _ fun n hn => slowStep_exact hE hreg hn]

theorem RealM.mexp {X : Spec.M2} (hX : Spec.RealM X) : Spec.RealM (NormedSpace.exp X) := by
  have h : Xᴴ = Xᵀ := by ext i j; simpa using hX j i
  have h1 := Matrix.exp_conjTranspose X
  rw [h, Matrix.exp_transpose] at h1
  intro i j
  have := congrFun (congrFun h1 j) i
  simpa using this.symm

/-- For real samples and real weights, `S₁₁(iκ)` is real. -/
theorem kdvS11_real {d : AknsDisc} {vanilla : Bool} {D : ℕ} (hs : Spec.slowSamples d D) {eps : ℝ} {qf rf : ℕ → ℂ} {k : ℝ}
    (h : Spec.RealCase d D qf rf (I * k)) : (Spec.kdvS11 NormedSpace.exp d vanilla D eps qf rf k).im = 0 := by
  have hB : Spec.RealM (Spec.fromS true vanilla (I * k)) := by
    intro i j
    unfold Spec.fromS
    cases vanilla <;> fin_cases i <;> fin_cases j <;> simp [map_ofNat]
  have := RealM.mul (RealM.mul (RealM.inv hB) (RealM.chain _ fun n hn => RealM.step (eps := eps) (fun _ => RealM.mexp) hs h hn)) hB 0 0
  exact Complex.conj_eq_iff_im.mp this

/-- C50, zeros between grid points. If the real part of `S₁₁(iκ)` has different signs at two points (and no exponent is in the region where Taylor
polynomials are used), there is a zero of `Re a(iκ)` between them, for the exact matrix exponential; for real samples and weights
this is a zero of `a`. -/
theorem C50_bracket_zero {E : Spec.M2 → Spec.M2} (hE : Spec.NearExp E) {d : AknsDisc} (hd : Spec.slow d) {vanilla : Bool} {D : ℕ}
    {T0 T1 eps : ℝ} {qf rf : ℕ → ℂ} {k0 k1 : ℝ} (h0 : 0 < k0) (h01 : k0 < k1)
    (hr0 : Spec.Regular d eps (Spec.cfWeight d) qf rf (I * k0) (Spec.slowCount d D))
    (hr1 : Spec.Regular d eps (Spec.cfWeight d) qf rf (I * k1) (Spec.slowCount d D))
    (hsign : (Spec.kdvS11 E d vanilla D eps qf rf k0).re * (Spec.kdvS11 E d vanilla D eps qf rf k1).re < 0) :
    ∃ k, k0 < k ∧ k < k1 ∧ Spec.kdvReA mexp d vanilla D T0 T1 eps qf rf k = 0 ∧
      (Spec.slowSamples d D → Spec.RealCase d D qf rf (I * k) → Spec.kdvSlowA mexp d vanilla D T0 T1 eps qf rf (I * k) = 0) := by
  rw [kdvS11_exact hE hr0, kdvS11_exact hE hr1] at hsign
  obtain ⟨f, hf⟩ : ∃ f : ℝ → ℝ, f = fun k => (Spec.kdvS11 mexp d vanilla D eps qf rf k).re := ⟨_, rfl⟩
  have hc : ContinuousOn f (Set.Icc k0 k1) := by
    rw [hf]
    exact Complex.continuous_re.comp_continuousOn ((kdvS11_continuousOn hd vanilla D eps qf rf).mono fun k hk => lt_of_lt_of_le h0 hk.1)
  have hs : f k0 * f k1 < 0 := by rw [hf]; exact hsign
  obtain ⟨k, hk, hfk⟩ : ∃ k ∈ Set.Ioo k0 k1, f k = 0 := by
    rcases mul_neg_iff.mp hs with ⟨a1, a2⟩ | ⟨a1, a2⟩
    · exact intermediate_value_Ioo' h01.le hc ⟨a2, a1⟩
    · exact intermediate_value_Ioo h01.le hc ⟨a1, a2⟩
  have hz : (Spec.kdvS11 mexp d vanilla D eps qf rf k).re = 0 := by rw [hf] at hfk; exact hfk
  refine ⟨k, hk.1, hk.2, ?_, fun hsmp hR => ?_⟩
  · rw [kdvReA_S11, hz, mul_zero]
  · rw [kdvSlowA_S11, show Spec.kdvS11 mexp d vanilla D eps qf rf k = 0 from Complex.ext hz (kdvS11_real hsmp hR), mul_zero]

/-- C51. If `iκ` is an exact zero of `a` (and all exponents are outside of the region in which Taylor polynomials are used), for real samples and
weights, the reported norming constant is the factor between the two Jost solutions at all sample boundaries, and equal to the coefficient `b(iκ)`. Exception:
there is no boundary at which all components are different from zero. -/
theorem C51_norming_constant {E : Spec.M2 → Spec.M2} (hE : Spec.NearExp E) {d : AknsDisc} (hd : Spec.slow d) {vanilla : Bool} {D Dg : ℕ}
    (hD : D = Dg * akns_upsampling_factor d) {T0 T1 eps : ℝ} {qf rf : ℕ → ℂ} {k : ℝ} (hk : k ≠ 0) {old : Option ℂ} {b : ℂ}
    (hb : Spec.KdvNormConst E d vanilla D Dg T0 T1 eps qf rf k old b)
    (hreg : Spec.Regular d eps (Spec.cfWeight d) qf rf (I * k) (Spec.slowCount d D)) (hreal : Spec.RealCase d D qf rf (I * k))
    (ha : Spec.kdvSlowA mexp d vanilla D T0 T1 eps qf rf (I * k) = 0) :
    Spec.KdvNoBoundary mexp d vanilla D Dg T0 T1 eps qf rf k ∧ some b = old ∨
      b = Spec.kdvB vanilla (fun l => Spec.slowStep mexp d eps (Spec.cfWeight d) qf rf l) (Spec.slowCount d D) T0 T1 eps (I * k) ∧ b.im = 0 ∧
      ∀ n, n ≤ Dg → Spec.kdvPhi mexp d vanilla T0 eps qf rf k n = b • Spec.kdvPsi mexp d vanilla D T1 eps qf rf k n := by
  obtain ⟨l, hl⟩ : ∃ l : ℂ, l = I * k := ⟨_, rfl⟩
  obtain ⟨B, hBdef⟩ : ∃ B, B = Spec.fromS true vanilla l := ⟨_, rfl⟩
  obtain ⟨U, hUdef⟩ : ∃ U, U = Spec.slowStep mexp d eps (Spec.cfWeight d) qf rf l := ⟨_, rfl⟩
  obtain ⟨V, hVdef⟩ : ∃ V, V = Spec.slowStep E d eps (Spec.cfWeight d) qf rf l := ⟨_, rfl⟩
  have hs : Spec.slowSamples d D := by
    rcases hd with rfl | rfl | rfl | rfl | rfl | rfl | rfl <;> simp [Spec.slowSamples]
    · exact ⟨Dg, by rw [hD]; simp [akns_upsampling_factor]; ring⟩
    · exact ⟨Dg, by rw [hD]; simp [akns_upsampling_factor]; ring⟩
  have hN : Spec.slowCount d D = Dg * Spec.perSample d := count_eq hd hD
  rw [← hl] at hreg hreal ha
  have hU : ∀ n, n < Spec.slowCount d D → V n = U n := fun n hn => by rw [hVdef, hUdef]; exact slowStep_exact hE hreg hn
  have hU' : ∀ n, n < Spec.slowCount d D → Spec.slowStep expS d eps (Spec.cfWeight d) qf rf l n = U n :=
    fun n hn => by rw [hUdef]; exact slowStep_exact nearExp_expS hreg hn
  have hdet : ∀ n, n < Spec.slowCount d D → (U n).det = 1 := fun n hn => by
    rw [← hU' n hn]; exact step_det_one (hreg n hn)
  have hle : ∀ n, n ≤ Dg → n * Spec.perSample d ≤ Spec.slowCount d D := fun n hn => by rw [hN]; exact Nat.mul_le_mul_right _ hn
  have hl0 : l ≠ 0 := by rw [hl]; simp [hk]
  have hBu : IsUnit B.det := by
    rw [hBdef, isUnit_iff_ne_zero]
    cases vanilla <;> simp [Spec.fromS, Matrix.det_fin_two, hl0]
  have hΦN : Spec.jostPhi B U (T0 - eps / 2) l (Spec.slowCount d D) 0 = 0 := by
    have := jostA_phiB B U (Spec.slowCount d D) T0 T1 eps l
    rw [show Spec.jostA (B⁻¹ * Spec.chain U (Spec.slowCount d D) * B) T0 T1 eps l = 0 from by
      rw [hBdef, hUdef]; exact ha] at this
    exact (mul_eq_zero.mp this).resolve_left (exp_ne_zero _)
  obtain ⟨β, hβ⟩ := jost_proportional (tb := T1 + eps / 2) hBu hdet hΦN
  obtain ⟨v, v1, v2⟩ := hb
  have hphi : ∀ (E : Spec.M2 → Spec.M2) n, Spec.kdvPhi E d vanilla T0 eps qf rf k n =
      Spec.jostPhi B (Spec.slowStep E d eps (Spec.cfWeight d) qf rf l) (T0 - eps / 2) l (n * Spec.perSample d) := by
    intro E n; rw [hBdef, hl]; rfl
  have hpsi : ∀ (E : Spec.M2 → Spec.M2) n, Spec.kdvPsi E d vanilla D T1 eps qf rf k n =
      Spec.jostPsi B (Spec.slowStep E d eps (Spec.cfWeight d) qf rf l) (Spec.slowCount d D) (T1 + eps / 2) l (n * Spec.perSample d) := by
    intro E n; rw [hBdef, hl]; rfl
  have hc : ∀ n, n ≤ Dg → (Spec.kdvPhi E d vanilla T0 eps qf rf k n = Spec.kdvPhi mexp d vanilla T0 eps qf rf k n) ∧
      (Spec.kdvPsi E d vanilla D T1 eps qf rf k n = Spec.kdvPsi mexp d vanilla D T1 eps qf rf k n) := by
    intro n hn
    rw [hphi, hphi, hpsi, hpsi, ← hUdef, ← hVdef]
    exact jost_congr hU B _ _ l (hle n hn)
  have hre : ∀ n, n ≤ Dg → ∀ j, (((Spec.kdvPhi mexp d vanilla T0 eps qf rf k n j).re : ℂ) = Spec.kdvPhi mexp d vanilla T0 eps qf rf k n j) ∧
      (((Spec.kdvPsi mexp d vanilla D T1 eps qf rf k n j).re : ℂ) = Spec.kdvPsi mexp d vanilla D T1 eps qf rf k n j) := by
    intro n hn j
    have h1 := jost_real (eps := eps) hs hreal true vanilla (T0 - eps / 2) (T1 + eps / 2) (hle n hn) j
    simp only at h1
    rw [(jost_congr hU' _ _ (T1 + eps / 2) _ (hle n hn)).1, (jost_congr hU' _ (T0 - eps / 2) _ _ (hle n hn)).2, ← hBdef, hUdef, ← hphi, ← hpsi] at h1
    rw [Complex.conj_eq_iff_re, Complex.conj_eq_iff_re] at h1
    exact h1
  have hcand : ∀ n, n ≤ Dg → (Spec.Cand true (Spec.kdvPhi E d vanilla T0 eps qf rf k) (Spec.kdvPsi E d vanilla D T1 eps qf rf k) n ↔
      Spec.Cand true (Spec.kdvPhi mexp d vanilla T0 eps qf rf k) (Spec.kdvPsi mexp d vanilla D T1 eps qf rf k) n) := by
    intro n hn
    simp only [Spec.Cand, Spec.ratio, Spec.proj, (hc n hn).1, (hc n hn).2]
  cases v with
  | none =>
    left
    exact ⟨fun n hn hcc => v1 n hn ((hcand n hn).mpr hcc), v2⟩
  | some v =>
    right
    obtain ⟨n, n1, n2, n3, -⟩ := v1
    have hbv : b = v := Option.some.inj v2
    have hψ0 := (((hcand n n1).mp n2).1 0).2
    simp only [Spec.proj, if_true, (hre n n1 0).2] at hψ0
    have hφψ := congrFun (hβ _ (hle n n1)) 0
    rw [hUdef, ← hphi, Pi.smul_apply, smul_eq_mul, ← hpsi] at hφψ
    have hbβ : b = β := by
      rw [hbv, n3]
      simp only [Spec.ratio, Spec.proj, if_true, (hc n n1).1, (hc n n1).2, (hre n n1 0).1, (hre n n1 0).2]
      rw [hφψ, mul_div_assoc, div_self hψ0, mul_one]
    refine ⟨?_, ?_, fun n hn => by
      rw [hbβ, hphi, hpsi, ← hUdef]; exact hβ _ (hle n hn)⟩
    · rw [hbβ]
      have e := congrFun (hβ _ le_rfl) 1
      have hpsi : Spec.jostPsi B U (Spec.slowCount d D) (T1 + eps / 2) l (Spec.slowCount d D) 1 = exp (I * l * (T1 + eps / 2 : ℝ)) := by
        unfold Spec.jostPsi Spec.tail
        rw [Nat.sub_self, chain_zero, Matrix.adjugate_one, Matrix.one_mulVec, Matrix.mulVec_mulVec, Matrix.nonsing_inv_mul _ hBu, Matrix.one_mulVec]
        simp
      rw [Pi.smul_apply, smul_eq_mul, hpsi] at e
      unfold Spec.kdvB Spec.jostB Spec.kdvS
      dsimp only
      rw [← hl, ← hBdef, ← hUdef, eq_div_iff (exp_ne_zero _), ← e]
      unfold Spec.jostPhi
      rw [Matrix.mulVec_mulVec, Matrix.mulVec_mulVec, Matrix.mul_assoc]
    · rw [hbβ]
      have : β = ((Spec.kdvPhi mexp d vanilla T0 eps qf rf k n 0).re : ℂ) / ((Spec.kdvPsi mexp d vanilla D T1 eps qf rf k n 0).re : ℂ) := by
        rw [(hre n n1 0).1, (hre n n1 0).2, hφψ, mul_div_assoc, div_self hψ0, mul_one]
      rw [this, ← ofReal_div, ofReal_im]

/-! ## The bounding interval contains all bound states -/

/-- The exponential of `τ P` if `P² = δ ≥ 0`. -/
theorem exp_hyp {P : Spec.M2} {δ τ : ℝ} (hδ : 0 ≤ δ) (hτ : 0 ≤ τ) (hP : P * P = (δ : ℂ) • (1 : Spec.M2)) :
    ∃ c s : ℝ, 1 ≤ c ∧ 0 ≤ s ∧ NormedSpace.exp ((τ : ℂ) • P) = (c : ℂ) • (1 : Spec.M2) + (s : ℂ) • P := by
  obtain ⟨t, ht⟩ : ∃ t, t = τ * Real.sqrt δ := ⟨_, rfl⟩
  have ht0 : 0 ≤ t := by rw [ht]; positivity
  have hw : ((τ : ℂ) • P) * ((τ : ℂ) • P) = (-(((t : ℂ) * I) ^ 2)) • (1 : Spec.M2) := by
    rw [Matrix.smul_mul, Matrix.mul_smul, hP, smul_smul, smul_smul]
    congr 1
    have : ((t : ℂ)) ^ 2 = τ ^ 2 * δ := by
      rw [ht]; push_cast; rw [mul_pow, ← ofReal_pow (Real.sqrt δ), Real.sq_sqrt hδ]
    linear_combination -this + (t : ℂ) ^ 2 * I_sq
  rw [exp_of_sq _ _ hw, cos_mul_I]
  by_cases h0 : t = 0
  · refine ⟨1, τ, le_rfl, hτ, ?_⟩
    rw [h0, csinc, if_pos (by simp)]
    simp
  · refine ⟨Real.cosh t, Real.sinh t / t * τ, Real.one_le_cosh t, ?_, ?_⟩
    · have := Real.sinh_nonneg_iff.mpr ht0
      positivity
    · have h0' : (t : ℂ) ≠ 0 := by exact_mod_cast h0
      rw [csinc, if_neg (by simp [h0]), sin_mul_I, mul_div_mul_right _ _ I_ne_zero, smul_smul]
      push_cast
      rfl

/-- The vector in the AKNS basis that belongs to the value `ψ` and the derivative `ψ'` of a solution at `λ = iκ`. -/
noncomputable def aknsVec (vanilla : Bool) (k ψ ψ' : ℝ) : Fin 2 → ℂ :=
  if vanilla then ![-(k * ψ + ψ' : ℝ), (ψ : ℝ)] else ![(ψ : ℝ), (k * ψ - ψ' : ℝ)]

theorem kdv_chain_pos {vanilla : Bool} {k : ℝ} (hk : 0 < k) {τ u : ℕ → ℝ} {qf rf : ℕ → ℂ} {N : ℕ} (hτ : ∀ n, n < N → 0 ≤ τ n)
    (hu : ∀ n, n < N → u n ≤ k ^ 2)
    (hq : ∀ n, n < N → qf n = if vanilla then (u n : ℂ) else -1) (hr : ∀ n, n < N → rf n = if vanilla then -1 else (u n : ℂ)) :
    ∃ ψ ψ' : ℝ, 1 ≤ ψ ∧ k ≤ ψ' ∧
      Spec.chain (fun n => NormedSpace.exp ((τ n : ℂ) • Spec.aknsP (qf n) (rf n) (I * k))) N *ᵥ (Spec.fromS true vanilla (I * k) *ᵥ ![1, 0]) =
        aknsVec vanilla k ψ ψ' := by
  induction N with
  | zero =>
    refine ⟨1, k, le_rfl, le_rfl, ?_⟩
    rw [chain_zero, Matrix.one_mulVec]
    cases vanilla
    · funext i; fin_cases i <;> simp [Spec.fromS, aknsVec]
    · funext i
      fin_cases i
      · simp [Spec.fromS, aknsVec]
        linear_combination (2 * (k : ℂ)) * I_mul_I
      · simp [Spec.fromS, aknsVec]
  | succ N ih =>
    obtain ⟨ψ, ψ', h1, h2, h3⟩ := ih (fun n hn => hτ n (by omega)) (fun n hn => hu n (by omega)) (fun n hn => hq n (by omega))
      (fun n hn => hr n (by omega))
    rw [chain_succ, ← Matrix.mulVec_mulVec, h3]
    have hδ : 0 ≤ k ^ 2 - u N := by linarith [hu N (by omega)]
    have hP : Spec.aknsP (qf N) (rf N) (I * k) * Spec.aknsP (qf N) (rf N) (I * k) = ((k ^ 2 - u N : ℝ) : ℂ) • (1 : Spec.M2) := by
      have hqr : qf N * rf N = -(u N : ℂ) := by
        rw [hq N (by omega), hr N (by omega)]; cases vanilla <;> simp
      ext i j
      fin_cases i <;> fin_cases j <;> simp [Spec.aknsP, Matrix.mul_apply, Fin.sum_univ_two]
      · linear_combination hqr + (k : ℂ) ^ 2 * (I ^ 2 - 1) * I_sq
      · ring
      · ring
      · linear_combination hqr + (k : ℂ) ^ 2 * (I ^ 2 - 1) * I_sq
    obtain ⟨c, s, c1, s0, hexp⟩ := exp_hyp hδ (hτ N (by omega)) hP
    rw [hexp]
    refine ⟨c * ψ + s * ψ', c * ψ' + s * (k ^ 2 - u N) * ψ, ?_, ?_, ?_⟩
    · nlinarith [mul_nonneg s0 (hk.le.trans h2)]
    · have := mul_nonneg (mul_nonneg s0 hδ) (zero_le_one.trans h1)
      nlinarith
    · rw [hq N (by omega), hr N (by omega)]
      cases vanilla <;> funext i <;> fin_cases i <;> simp [aknsVec, Spec.aknsP, Matrix.mulVec, dotProduct, Fin.sum_univ_two]
      · linear_combination (-(s : ℂ) * k * ψ) * I_mul_I
      · linear_combination ((s : ℂ) * k * (k * ψ - ψ')) * I_mul_I
      · linear_combination ((s : ℂ) * k * (k * ψ + ψ')) * I_mul_I
      · linear_combination ((s : ℂ) * k * ψ) * I_mul_I

theorem kdvS11_pos {d : AknsDisc} (hd : d = BO ∨ d = CF4_2) {vanilla : Bool} {k : ℝ} (hk : 0 < k) {u : ℕ → ℝ} {qf rf : ℕ → ℂ} {D : ℕ} {eps : ℝ}
    (heps : 0 ≤ eps) (hu : ∀ n, n < D → u n ≤ k ^ 2)
    (hq : ∀ n, n < D → qf n = if vanilla then (u n : ℂ) else -1) (hr : ∀ n, n < D → rf n = if vanilla then -1 else (u n : ℂ)) :
    ∃ y : ℝ, 1 ≤ y ∧ Spec.kdvS11 mexp d vanilla D eps qf rf k = y := by
  obtain ⟨w, hw, hwd⟩ : ∃ w : ℝ, 0 ≤ w ∧ ∀ n, Spec.cfWeight d n = w := by
    rcases hd with rfl | rfl
    · exact ⟨1, zero_le_one, fun n => by simp [Spec.cfWeight]⟩
    · exact ⟨1 / 2, by norm_num, fun n => by simp [Spec.cfWeight]⟩
  have hN : Spec.slowCount d D = D := by rcases hd with rfl | rfl <;> rfl
  have hU : Spec.slowStep mexp d eps (Spec.cfWeight d) qf rf (I * k) =
      fun n => NormedSpace.exp (((w * eps : ℝ) : ℂ) • Spec.aknsP (qf n) (rf n) (I * k)) := by
    funext n
    rcases hd with rfl | rfl <;> simp only [Spec.slowStep, hwd] <;> push_cast <;> rfl
  obtain ⟨ψ, ψ', h1, h2, h3⟩ := kdv_chain_pos (τ := fun _ => w * eps) hk (fun n _ => mul_nonneg hw heps) hu hq hr
  refine ⟨(ψ + ψ' / k) / 2, ?_, ?_⟩
  · have : 1 ≤ ψ' / k := by rw [le_div_iff₀ hk]; linarith
    linarith
  · have hk' : (k : ℂ) ≠ 0 := by exact_mod_cast hk.ne'
    have hBu : IsUnit (Spec.fromS true vanilla (I * k)).det := by
      rw [isUnit_iff_ne_zero]
      cases vanilla <;> simp [Spec.fromS, Matrix.det_fin_two, hk']
    have hv : aknsVec vanilla k ψ ψ' = Spec.fromS true vanilla (I * k) *ᵥ ![(((ψ + ψ' / k) / 2 : ℝ) : ℂ), (((ψ - ψ' / k) / 2 : ℝ) : ℂ)] := by
      cases vanilla <;> funext i <;> fin_cases i <;> simp [aknsVec, Spec.fromS]
      · ring
      · field_simp
        linear_combination ((k : ℂ) * ψ - ψ') * I_sq
      · field_simp
        linear_combination (-(k : ℂ) * ψ - ψ') * I_sq
      · ring
    unfold Spec.kdvS11 Spec.kdvS
    rw [hU, hN]
    have h4 := congrArg (fun x => (Spec.fromS true vanilla (I * k))⁻¹ *ᵥ x) h3
    rw [hv, Matrix.mulVec_mulVec, Matrix.mulVec_mulVec, Matrix.mulVec_mulVec _ (Spec.fromS true vanilla (I * k))⁻¹ (Spec.fromS true vanilla (I * k)),
      Matrix.nonsing_inv_mul _ hBu, Matrix.one_mulVec] at h4
    have := congrFun h4 0
    simpa [Matrix.mulVec, dotProduct, Fin.sum_univ_two] using this

/-- With up to two processed samples per sample, the second processed signal is `-1`. -/
theorem processed_r {a : AknsDisc} (hup : akns_upsampling_factor a = 1 ∨ akns_upsampling_factor a = 2) {D s : ℕ} {eps : ℝ} {x qf rf : ℕ → ℂ} {Dsub : ℕ}
    (hp : Spec.KdvProcessed a D eps x Dsub s qf rf) {i : ℕ} (hi : i < Dsub * akns_upsampling_factor a) : rf i = -1 := by
  rcases hup with hup | hup
  · unfold Spec.KdvProcessed at hp
    rw [if_pos hup] at hp
    exact (hp i (by rw [hup] at hi; omega)).2
  · have ha : a = CF4_2 ∨ a = D4SPLIT4A ∨ a = D4SPLIT4B := by
      cases a <;> simp [akns_upsampling_factor] at hup ⊢
    unfold Spec.KdvProcessed at hp
    rw [if_neg (by omega), if_neg (by rcases ha with rfl | rfl | rfl <;> simp)] at hp
    obtain ⟨c, w, ew, -, hw, h⟩ := hp
    rw [(h i hi).2, hup]
    have hw' : w = [0.5 + ((1 / Real.sqrt 3 : ℝ) : ℂ), 0.5 - ((1 / Real.sqrt 3 : ℝ) : ℂ), 0.5 - ((1 / Real.sqrt 3 : ℝ) : ℂ), 0.5 + ((1 / Real.sqrt 3 : ℝ) : ℂ)] := by
      rcases ha with rfl | rfl | rfl <;> simp only [akns_method_weights] at hw <;> cases hw <;> rfl
    generalize ((1 / Real.sqrt 3 : ℝ) : ℂ) = σ at hw'
    rw [hw']
    have : i % 2 < 2 := Nat.mod_lt _ (by norm_num)
    unfold Spec.cfSum Spec.cfNodes
    rw [if_pos rfl]
    obtain ⟨m, hm⟩ : ∃ m, m = i % 2 := ⟨_, rfl⟩
    rw [← hm] at this ⊢
    interval_cases m <;> simp [Finset.sum_range_succ] <;> ring

variable {D : ℕ} {q : Buf ℂ} {x : ℕ → ℝ} {T0 T1 : ℝ} {o : KdvvOpts} {a : AknsDisc} {v : ℕ}

/-- C52. The bounding interval contains all bound states. For discretizations with up to two processed samples per sample, if the processed samples are
real, `a(iκ) > 0` for all `κ > 0` outside of the interval `(0, √m)`. In particular there are no bound states if no sample is positive. -/
theorem C52_bounding_interval (h : Spec.KdvvArgs D q x T0 T1 o a v) (hup : akns_upsampling_factor a = 1 ∨ akns_upsampling_factor a = 2)
    {qf rf : ℕ → ℂ} {m : ℝ} (hp : Spec.KdvProcessed a D ((T1 - T0) / (D - 1)) (fun i => (x i : ℂ)) D 1 qf rf)
    (hreal : ∀ i, i < D * akns_upsampling_factor a → (qf i).im = 0) (hm : Spec.KdvBoundSq a (D * akns_upsampling_factor a) qf m)
    {k : ℝ} (hk : 0 < k) (hkm : Real.sqrt m ≤ k) :
    let eps := (T1 - T0) / (D - 1)
    let D' := D * akns_upsampling_factor a
    ∃ y : ℝ, Real.exp (-(k * (T1 - T0 + eps))) ≤ y ∧
      Spec.kdvSlowA mexp (Spec.baseOf a) (v ≠ 0) D' T0 T1 eps (swapIf v qf rf) (swapIf v rf qf) (I * k) = y := by
  intro eps D'
  have hd : Spec.baseOf a = BO ∨ Spec.baseOf a = CF4_2 := by
    cases a <;> simp [akns_upsampling_factor, Spec.baseOf] at hup ⊢
  obtain ⟨u, hu⟩ : ∃ u : ℕ → ℝ, u = fun i => (qf i).re := ⟨_, rfl⟩
  have hqu : ∀ i, i < D' → qf i = (u i : ℂ) := by
    intro i hi
    rw [hu]
    exact Complex.ext (by simp) (by simp [hreal i hi])
  have hle : ∀ i, i < D' → u i ≤ k ^ 2 := by
    intro i hi
    unfold Spec.KdvBoundSq at hm
    rw [if_pos (by omega)] at hm
    have h1 : u i ≤ m := hm.2 (Or.inr ⟨i, hi, fun ha => by
      exfalso; rcases ha with rfl | rfl <;> simp [akns_upsampling_factor] at hup, by rw [hu]⟩)
    have h2 : m ≤ k ^ 2 := (Real.sqrt_le_left hk.le).mp hkm
    linarith
  have hr : ∀ i, i < D' → rf i = -1 := fun i hi => processed_r hup hp hi
  obtain ⟨y, y1, y2⟩ := kdvS11_pos hd (vanilla := decide (v ≠ 0)) hk (u := u) (qf := swapIf v qf rf) (rf := swapIf v rf qf) (D := D') (eps := eps)
    h.eps_pos.le hle
    (fun n hn => by by_cases hv : v = 0 <;> simp [swapIf, hv, hqu n hn, hr n hn])
    (fun n hn => by by_cases hv : v = 0 <;> simp [swapIf, hv, hqu n hn, hr n hn])
  refine ⟨Real.exp (-(k * (T1 - T0 + eps))) * y, ?_, ?_⟩
  · nlinarith [Real.exp_pos (-(k * (T1 - T0 + eps)))]
  · rw [kdvSlowA_S11, y2]; push_cast; rfl

/-- The samples are real for all discretizations that do not interpolate the signal: all but the commutator-free ones. -/
theorem C52_real_samples (ha : ¬ Spec.isCF a) {Dsub s : ℕ} {eps : ℝ} {qf rf : ℕ → ℂ}
    (hp : Spec.KdvProcessed a D eps (fun i => (x i : ℂ)) Dsub s qf rf) (k : ℝ) :
    Spec.RealCase (Spec.baseOf a) (Dsub * akns_upsampling_factor a) (swapIf v qf rf) (swapIf v rf qf) (I * k) := by
  have hfd : ∀ h i, (Spec.fdSample h Dsub (fun j => (x (s * j) : ℂ)) i).im = 0 := by
    intro h i
    unfold Spec.fdSample
    have h1 : ∀ y : ℝ, ∃ z : ℝ, (y : ℂ) = z := fun y => ⟨y, rfl⟩
    dsimp only
    have e1 : ∃ z : ℝ, (if i / 3 + 1 < Dsub then (x (s * (i / 3 + 1)) : ℂ) else 0) = z := by
      split_ifs; exacts [⟨_, rfl⟩, ⟨0, by simp⟩]
    have e2 : ∃ z : ℝ, (if 0 < i / 3 then (x (s * (i / 3 - 1)) : ℂ) else 0) = z := by
      split_ifs; exacts [⟨_, rfl⟩, ⟨0, by simp⟩]
    obtain ⟨z1, e1⟩ := e1
    obtain ⟨z2, e2⟩ := e2
    rw [e1, e2]
    split_ifs
    · exact ofReal_im _
    · rw [show ((z1 : ℂ) - z2) / (2 * (h : ℂ)) = (((z1 - z2) / (2 * h) : ℝ) : ℂ) by push_cast; rfl, ofReal_im]
    · rw [show ((z1 : ℂ) - 2 * (x (s * (i / 3)) : ℂ) + z2) / (h : ℂ) ^ 2 = (((z1 - 2 * x (s * (i / 3)) + z2) / h ^ 2 : ℝ) : ℂ) by push_cast; rfl,
        ofReal_im]
  have key : Spec.realSlow (Spec.baseOf a) ∧ ∀ n, n < Dsub * akns_upsampling_factor a → (qf n).im = 0 ∧ (rf n).im = 0 := by
    unfold Spec.KdvProcessed at hp
    split_ifs at hp with c1 c2
    · refine ⟨by cases a <;> simp [akns_upsampling_factor] at c1 <;> simp [Spec.baseOf, Spec.realSlow], fun n hn => ?_⟩
      rw [c1, mul_one] at hn
      rw [(hp n hn).1, (hp n hn).2]
      simp
    · have h3 : akns_upsampling_factor a = 3 := by rcases c2 with rfl | rfl <;> rfl
      refine ⟨by rcases c2 with rfl | rfl <;> simp [Spec.baseOf, Spec.realSlow], fun n hn => ?_⟩
      rw [h3] at hn
      rw [(hp n hn).1, (hp n hn).2]
      refine ⟨hfd _ _, ?_⟩
      split_ifs <;> simp
    · exfalso
      obtain ⟨c, w, ew, -, hw, -⟩ := hp
      cases a <;> simp [Spec.isCF, akns_upsampling_factor, akns_method_weights] at *
  refine ⟨key.1, by simp, fun n hn => ?_⟩
  by_cases hv : v = 0 <;> simp [swapIf, hv, key.2 n hn]

/-! ## The hypotheses can be met -/

/-- C49: one guess for Newton's method, norming constants, no continuous spectrum. -/
example :
    let o := { kdvv_default_opts with loc := .NEWTON }
    Spec.KdvvArgs 4 (Buf.ofList [1, 2, -3, 4]) (fun i => [1, 2, -3, 4].getD i 0) (-1) 1 o .D2SPLIT4B 0 ∧
    Spec.KdvvReq o 0 none ⟨none, some 1, some (Buf.ofList [I]), some (Buf.malloc 1)⟩ ∧ Spec.KdvNcReq o 1 (some (Buf.malloc 1)) ∧
    (Buf.ofList [I]).Holds 0 1 (fun _ => I * ((1 : ℝ) : ℂ)) ∧ ∀ U, Spec.KdvContOK 4 (-1) 1 (2 / 3) 0 none o .D2SPLIT4B 0 U none := by
  intro o
  refine ⟨?_, ?_, ?_, ?_, fun _ _ h => by cases h⟩
  · exact { hd := rfl, hv := rfl, hD := by norm_num, hCF := fun h => (by norm_num), hsize := by decide
            hq := by intro i hi; have : i < 4 := by omega
                     interval_cases i <;> simp [Buf.ofList, Buf.rd]
            hT := by norm_num, hal := fun h => by cases h }
  · refine ⟨fun h => by simp at h, Or.inl rfl, fun _ h => by simp at h, by norm_num, fun _ h => by simp at h, ?_⟩
    intro _ bs K i u h1 h2 h3 h4
    simp only [Option.some.injEq] at h1 h2
    subst h1 h2
    obtain rfl : i = 0 := by omega
    simp [Buf.ofList, Buf.rd] at h4
    rw [← h4]
    simp
  · intro n hn
    simp only [Option.some.injEq] at hn
    rw [← hn]
    exact ⟨by decide, fun k h => by cases h⟩
  · intro i hi
    have : i < 1 := hi
    obtain rfl : i = 0 := by omega
    simp [Buf.ofList, Buf.rd]

/-- C50: the grid search with `M = 20` points in `(0, 2)` and spacing `0.1`. -/
example :
    let o := { kdvv_default_opts with grid_spacing := 0.1 }
    Spec.KdvvReq o 0 none ⟨none, some 3, some (Buf.malloc 3), none⟩ ∧ Spec.KdvNcReq o 3 none ∧ (0 : ℝ) < o.grid_spacing ∧ o.grid_spacing < Real.sqrt 4 ∧
    Spec.NextOK (fun x y => x + (y - x) / 1000) 2 20 := by
  intro o
  refine ⟨⟨fun h => by simp at h, Or.inl rfl, fun _ h => by simp at h, by norm_num, fun _ h => by simp at h, fun h => (by cases h)⟩,
    fun n h => (by cases h), by norm_num [o], ?_, ?_⟩
  · rw [show (4 : ℝ) = 2 ^ 2 by norm_num, Real.sqrt_sq (by norm_num)]
    norm_num [o]
  · constructor <;> norm_num

/-- C51: the rectangular well of width one and depth `π²/2` has the bound state `iπ/2`: there `a` is exactly zero, and the other hypotheses are met. -/
example (T0 T1 : ℝ) :
    let qf : ℕ → ℂ := fun _ => ((Real.pi ^ 2 / 2 : ℝ) : ℂ)
    let rf : ℕ → ℂ := fun _ => -1
    let k := Real.pi / 2
    Spec.kdvSlowA mexp BO true 1 T0 T1 1 qf rf (I * k) = 0 ∧ Spec.Regular BO 1 (Spec.cfWeight BO) qf rf (I * k) 1 ∧
      Spec.RealCase BO 1 qf rf (I * k) ∧ 1 = 1 * akns_upsampling_factor BO := by
  intro qf rf k
  have hpi : (Real.pi : ℂ) ≠ 0 := by exact_mod_cast Real.pi_ne_zero
  have hk : k = Real.pi / 2 := rfl
  have hP : (((1 : ℂ) * ((1 : ℝ) : ℂ)) • Spec.aknsP (qf 0) (rf 0) (I * k)) * (((1 : ℂ) * ((1 : ℝ) : ℂ)) • Spec.aknsP (qf 0) (rf 0) (I * k)) =
      (-(((Real.pi / 2 : ℝ) : ℂ) ^ 2)) • (1 : Spec.M2) := by
    ext i j
    fin_cases i <;> fin_cases j <;> simp [Spec.aknsP, Matrix.mul_apply, Fin.sum_univ_two, qf, rf, k]
    · linear_combination ((Real.pi : ℂ) / 2) ^ 2 * (I ^ 2 - 1) * I_sq
    · ring
    · linear_combination ((Real.pi : ℂ) / 2) ^ 2 * (I ^ 2 - 1) * I_sq
  refine ⟨?_, ?_, ⟨Or.inl rfl, by simp, fun n _ => ⟨ofReal_im _, by simp [rf]⟩⟩, rfl⟩
  · rw [kdvSlowA_S11]
    unfold Spec.kdvS11 Spec.kdvS
    have hc : Spec.chain (Spec.slowStep mexp BO 1 (Spec.cfWeight BO) qf rf (I * k)) (Spec.slowCount BO 1) =
        ((2 / Real.pi : ℝ) : ℂ) • Spec.aknsP (qf 0) (rf 0) (I * k) := by
      show Spec.chain _ (0 + 1) = _
      rw [chain_succ, chain_zero, Matrix.mul_one]
      show NormedSpace.exp (((1 : ℂ) * ((1 : ℝ) : ℂ)) • Spec.aknsP (qf 0) (rf 0) (I * k)) = _
      rw [exp_of_sq _ _ hP, csinc, if_neg (by exact_mod_cast (by positivity : Real.pi / 2 ≠ 0)), ← ofReal_cos, ← ofReal_sin,
        Real.cos_pi_div_two, Real.sin_pi_div_two, smul_smul]
      simp
    rw [hc]
    rw [mul_eq_zero]; right
    simp [Spec.fromS, Spec.aknsP, Matrix.inv_def, Matrix.adjugate_fin_two, Matrix.mul_apply, Fin.sum_univ_two, qf, rf, k]
    have e : ∀ z : ℂ, z ≠ 0 → -(2 / z * I * (I * 2⁻¹) * (2 / z * (I * (I * (z / 2)))) * (2 * I * (I * (z / 2)))) +
        2 / z * I * (I * 2⁻¹) * (z ^ 2 / z) = 0 := by
      intro z hz
      field_simp
      linear_combination (-(I ^ 2 * (I ^ 2 - 1))) * I_sq
    exact e _ hpi
  · intro n hn X hX
    right
    simp only [Spec.slowExponents, List.mem_singleton] at hX
    have hdet : X.det = ((Real.pi ^ 2 / 4 : ℝ) : ℂ) := by
      rw [hX]
      simp [Spec.aknsP, Matrix.det_fin_two, Spec.cfWeight, qf, rf, k]
      linear_combination (-((Real.pi : ℂ) / 2) ^ 2 * (I ^ 2 - 1)) * I_sq
    rw [hdet, Complex.norm_real, Real.norm_eq_abs, abs_of_nonneg (by positivity)]
    nlinarith [Real.two_le_pi]

end FNFT

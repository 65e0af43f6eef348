import Verif.Props.NsepConvAux
import Verif.Proofs.NsepGrid3
/-!
# The polynomial for the auxiliary spectrum with 2SPLIT2A and the Ablowitz-Ladik method
-/
set_option linter.unusedSectionVars false
namespace FNFT
open Complex Set
open FNFT.Conv AknsDisc

theorem diag_sandwich {u v w a b c d : ℂ} (hw : w ≠ 0) (h1 : u * u = w⁻¹) (h2 : v * v = w) (h3 : u * v = 1) :
    !![u, 0; 0, v] * !![a, b; c, d] * !![u, 0; 0, v] = w⁻¹ • !![a, b * w; c * w, d * w ^ 2] := by
  have h4 : w⁻¹ * w = 1 := inv_mul_cancel₀ hw
  ext i j; fin_cases i <;> fin_cases j <;> simp [Matrix.mul_apply, Fin.sum_univ_two]
  · linear_combination a * h1
  · linear_combination b * h3 - b * h4
  · linear_combination c * h3 - c * h4
  · linear_combination d * h2 - d * w * h4

/-- C85. For 2SPLIT2A (the default of `fnft_nsep`) and the Ablowitz-Ladik method, the leading or the last coefficient of the polynomial for the auxiliary spectrum is zero, whatever the
signal is: the hypothesis `Pa.natDegree = deg`, `Pa.coeff 0 ≠ 0` of `C85_aux_spectrum` is never met. -/
theorem C85_degenerate {a : AknsDisc} (ha : a = .D2SPLIT2_MODAL ∨ a = .D2SPLIT2A) {kappa : ℤ} {D : ℕ} {x : ℕ → ℂ} {T : ℝ} (hT : 0 < T) {Ds s deg : ℕ} {S P Pa} (hP : Spec.PeriodPolys a kappa D T x Ds s deg S P Pa)
    (hs : s * Ds = D) (hs0 : 0 < s) (hDs : 1 ≤ Ds) : Pa.coeff 0 * Pa.coeff deg = 0 := by
  obtain ⟨h1, -, hle, qf, rf, U, W, p, -, h5, h6, -, h7⟩ := hP
  have hd1 : Spec.degree1step a = 1 := by rcases ha with rfl | rfl <;> rfl
  have hu1 : akns_upsampling_factor a = 1 := by rcases ha with rfl | rfl <;> rfl
  rw [hd1, mul_one] at h1
  simp only [hu1, mul_one] at h6
  have hDs' : (0 : ℝ) < Ds := by exact_mod_cast hDs
  have hs' : (s : ℝ) * Ds = D := by exact_mod_cast hs
  have hs1 : (0 : ℝ) < s := by exact_mod_cast hs0
  obtain ⟨h, hh⟩ : ∃ h : ℝ, h = s * (T / D) := ⟨_, rfl⟩
  rw [← hh] at h5 h7
  have hTh : T = Ds * h := by rw [hh, ← hs']; field_simp
  have hpos : 0 < h := by rw [hh, ← hs']; positivity
  have hhc : (h : ℂ) ≠ 0 := by exact_mod_cast hpos.ne'
  obtain ⟨B, c2⟩ : ∃ B : ℕ → Spec.M2, ∀ l n, U l n = NormedSpace.exp ((1 / 2 : ℂ) • Spec.akA h l) * B n * NormedSpace.exp ((1 / 2 : ℂ) • Spec.akA h l) := by
    rcases ha with rfl | rfl
    · obtain ⟨c, -, c2⟩ := h5.2.1 rfl
      exact ⟨_, c2⟩
    · obtain ⟨EB, -, -, g3⟩ := h5.2.2 (by decide)
      rw [hu1] at g3
      simp only [Nat.cast_one, div_one] at g3
      refine ⟨fun n => EB n 1, fun l n => ?_⟩
      rw [g3]
      simp [Spec.combine, Spec.splitting, Spec.strang, Spec.alternate, mul_assoc]
  have hDz : Ds ≠ 0 := by omega
  obtain ⟨N, hN⟩ : ∃ N : ℂ → ℕ → Spec.M2, N = fun w n => !![B n 0 0, B n 0 1 * w; B n 1 0 * w, B n 1 1 * w ^ 2] := ⟨_, rfl⟩
  obtain ⟨N', hN'⟩ : ∃ N' : ℂ → ℕ → Spec.M2, N' = fun w n => !![B n 0 0 * w ^ 2, B n 0 1 * w; B n 1 0 * w, B n 1 1] := ⟨_, rfl⟩
  have key : ∀ l : ℂ, Pa.eval (exp (I * l * h) ^ 2) = 2 ^ (-W) * (exp (I * l * p) * Spec.chain (N (exp (I * l * h))) Ds 0 1) := by
    intro l
    have e1 : Spec.zOf a h l = exp (I * l * h) ^ 2 := by
      rw [Spec.zOf, hd1, ← exp_nat_mul]; congr 1; push_cast; ring
    have e2 : exp (I * l * T) = exp (I * l * h) ^ Ds := by rw [← exp_nat_mul, hTh]; congr 1; push_cast; ring
    have e3 : S l = (exp (I * l * h))⁻¹ ^ Ds • Spec.chain (N (exp (I * l * h))) Ds := by
      rw [h6, ← chain_smul]
      congr 1
      funext n
      rw [c2, expA_diag, hN]
      have q1 : exp (-I * l * h * (1 / 2)) * exp (-I * l * h * (1 / 2)) = (exp (I * l * h))⁻¹ := by rw [← exp_add, ← exp_neg]; congr 1; ring
      have q2 : exp (I * l * h * (1 / 2)) * exp (I * l * h * (1 / 2)) = exp (I * l * h) := by rw [← exp_add]; congr 1; ring
      have q3 : exp (-I * l * h * (1 / 2)) * exp (I * l * h * (1 / 2)) = 1 := by rw [← exp_add, ← exp_zero]; congr 1; ring
      have hE : exp (I * l * h) ≠ 0 := exp_ne_zero _
      have hB : B n = !![B n 0 0, B n 0 1; B n 1 0, B n 1 1] := by
        ext i j; fin_cases i <;> fin_cases j <;> rfl
      rw [hB]
      exact diag_sandwich hE q1 q2 q3
    have := h7 l
    rw [e1, e2, e3] at this
    rw [this, inv_pow, Matrix.smul_apply, smul_eq_mul]
    have hwD : exp (I * l * h) ^ Ds ≠ 0 := pow_ne_zero _ (exp_ne_zero _)
    field_simp
  have hprod : ∀ w : ℂ, w ≠ 0 → Pa.eval (w ^ 2) * (Pa.reflect Ds).eval (w ^ 2) = (2 ^ (-W)) ^ 2 * (Spec.chain (N w) Ds 0 1 * Spec.chain (N' w) Ds 0 1) := by
    intro w hw
    obtain ⟨l, hl⟩ : ∃ l : ℂ, exp (I * l * h) = w := ⟨log w / (I * h), by
      rw [show I * (log w / (I * h)) * h = log w by field_simp, exp_log hw]⟩
    have k1 := key l
    have k2 := key (-l)
    have e5 : exp (I * -l * h) = w⁻¹ := by rw [← hl, ← exp_neg]; congr 1; ring
    have e6 : exp (I * -l * p) = (exp (I * l * p))⁻¹ := by rw [← exp_neg]; congr 1; ring
    rw [hl] at k1
    rw [e5, e6] at k2
    have hw2 : w ^ 2 ≠ 0 := pow_ne_zero _ hw
    have k3 : N w⁻¹ = fun k => (w ^ 2)⁻¹ • N' w k := by
      rw [hN, hN']; funext n
      ext i j; fin_cases i <;> fin_cases j <;> simp <;> field_simp
    rw [k3, chain_smul, Matrix.smul_apply, smul_eq_mul] at k2
    let _ : Invertible (w ^ 2)⁻¹ := invertibleOfNonzero (inv_ne_zero hw2)
    have k4 := Polynomial.eval₂_reflect_mul_pow (RingHom.id ℂ) (w ^ 2)⁻¹ Ds Pa (by rw [← h1]; exact hle)
    simp only [invOf_eq_inv, inv_inv, Polynomial.eval₂_id] at k4
    rw [inv_pow w 2, ← k4] at k2
    have hz : (w ^ 2)⁻¹ ^ Ds ≠ 0 := pow_ne_zero _ (inv_ne_zero hw2)
    have hE : exp (I * l * p) ≠ 0 := exp_ne_zero _
    have k5 : (Pa.reflect Ds).eval (w ^ 2) = 2 ^ (-W) * ((exp (I * l * p))⁻¹ * Spec.chain (N' w) Ds 0 1) := by
      refine mul_right_cancel₀ hz (k2.trans ?_)
      ring
    rw [k1, k5]
    field_simp
  have hcN : Continuous fun w => Spec.chain (N w) Ds 0 1 := chain_cont (by
    intro n i j; rw [hN]; fin_cases i <;> fin_cases j <;> simp <;> fun_prop) Ds 0 1
  have hcN' : Continuous fun w => Spec.chain (N' w) Ds 0 1 := chain_cont (by
    intro n i j; rw [hN']; fin_cases i <;> fin_cases j <;> simp <;> fun_prop) Ds 0 1
  have e := Continuous.ext_on (dense_compl_singleton (0 : ℂ)) (f := fun w => Pa.eval (w ^ 2) * (Pa.reflect Ds).eval (w ^ 2))
    (g := fun w => (2 ^ (-W)) ^ 2 * (Spec.chain (N w) Ds 0 1 * Spec.chain (N' w) Ds 0 1))
    ((Pa.continuous.comp (continuous_pow 2)).mul ((Pa.reflect Ds).continuous.comp (continuous_pow 2))) (continuous_const.mul (hcN.mul hcN')) (fun w hw => hprod w hw)
  have e0 := congrFun e 0
  have hN0 : N 0 = fun k => !![B k 0 0, 0; 0, 0] := by rw [hN]; funext n; simp
  simp only [hN0] at e0
  rw [chain_diag (fun k => B k 0 0) (fun _ => 0), zero_pow two_ne_zero, ← Polynomial.coeff_zero_eq_eval_zero, ← Polynomial.coeff_zero_eq_eval_zero, Polynomial.coeff_reflect,
    Polynomial.revAt_le (Nat.zero_le _), Nat.sub_zero] at e0
  rw [h1, e0]
  simp

/-- The polynomials exist: a constant signal with 16 samples and the default discretization. -/
example : ∃ S P Pa, Spec.PeriodPolys .D2SPLIT2A 1 16 (1 - 0) (fun _ => 1) 16 1 (16 * Spec.degree1step .D2SPLIT2A) S P Pa := by
  have h : PerArgs 16 (Buf.ofList (List.replicate 16 1)) (fun _ => 1) 0 1 1 .D2SPLIT2A .D2SPLIT2A := by
    refine ⟨rfl, by norm_num, by norm_num, by simp [Spec.isCF], by decide, fun i hi => ?_, by norm_num, by norm_num⟩
    rcases i with _ | _ | _ | _ | _ | _ | _ | _ | _ | _ | _ | _ | _ | _ | _ | _ | i
    all_goals first | rfl | omega
  obtain ⟨Ds, st, qp, rp, qf, rf, e1, e2, e3, e4, e5⟩ := nse_pre_ok h.hd h.hD h.hCF h.D_lt h.hq h.eps_pos h.hk 16
  obtain ⟨rfl, rfl⟩ := subGrid_full e2
  obtain ⟨deg, W, tm, S, P, Pa, y, f1, f2, f3, f4, f5⟩ := per_polys h (by decide) h.hD h.hev (Nat.one_mul _)
    (show ((1 - 0) / (16 : ℕ) : ℝ) = (1 : ℕ) * ((1 - 0) / (16 : ℕ)) by simp) e3 e4 e5 (by simp) false
  obtain rfl := f5.1
  exact ⟨S, P, Pa, f5⟩

end FNFT

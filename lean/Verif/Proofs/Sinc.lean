import Verif.Proofs.MatExp
import Verif.Model.AknsFscatter
import Verif.Spec.Akns
import Mathlib.Analysis.SpecificLimits.Normed
import Mathlib.Tactic.IntervalCases
/-!
# The cardinal sine of `misc_CSINC` and the matrix exponential computed from it
-/
namespace FNFT

/-- Power series of the replacement of `sin x / x` used near 0. -/
theorem cossqrt3_hasSum (x : ℂ) :
    HasSum (fun n : ℕ => (-1) ^ n * x ^ (2 * n) / (3 ^ n * ((2 * n).factorial : ℂ))) (Complex.cos (x / (Real.sqrt 3 : ℝ))) := by
  refine (Complex.hasSum_cos (x / (Real.sqrt 3 : ℝ))).congr_fun ?_
  intro n
  have h3 : ((Real.sqrt 3 : ℝ) : ℂ) ^ (2 * n) = 3 ^ n := by
    rw [pow_mul, ← Complex.ofReal_pow, Real.sq_sqrt (by norm_num)]; norm_num
  rw [div_pow, h3]
  field_simp

private noncomputable def gterm (r : ℝ) (n : ℕ) : ℝ := if n < 2 then 0 else (r ^ 2) ^ n / 120

/-- The replacement of `sin x / x` used by `misc_CSINC` near 0 is accurate to fourth order. -/
theorem sinc_taylor {x : ℂ} (hx : ‖x‖ ^ 2 ≤ 1 / 2) : ‖Complex.cos (x / (Real.sqrt 3 : ℝ)) - csinc x‖ ≤ ‖x‖ ^ 4 / 60 := by
  have hs := (cossqrt3_hasSum x).sub (csinc_hasSum x)
  have hg : HasSum (gterm ‖x‖) (‖x‖ ^ 4 / 120 * (1 - ‖x‖ ^ 2)⁻¹) := by
    have h := (hasSum_geometric_of_lt_one (sq_nonneg ‖x‖) (by linarith)).mul_left (‖x‖ ^ 4 / 120)
    have h2 : HasSum (fun n : ℕ => gterm ‖x‖ (n + 2)) (‖x‖ ^ 4 / 120 * (1 - ‖x‖ ^ 2)⁻¹) := by
      refine h.congr_fun fun n => ?_
      rw [gterm, if_neg (by omega)]
      ring
    have h3 := (hasSum_nat_add_iff (f := gterm ‖x‖) 2).mp h2
    simpa [Finset.sum_range_succ, gterm] using h3
  have hb : ‖Complex.cos (x / (Real.sqrt 3 : ℝ)) - csinc x‖ ≤ ‖x‖ ^ 4 / 120 * (1 - ‖x‖ ^ 2)⁻¹ := by
    refine hs.norm_le_of_bounded hg fun n => ?_
    rcases Nat.lt_or_ge n 2 with h | h
    · interval_cases n <;> simp [Nat.factorial, gterm]
      ring
    · rw [gterm, if_neg (by omega)]
      have hf : (-1) ^ n * x ^ (2 * n) / (3 ^ n * ((2 * n).factorial : ℂ)) - (-1) ^ n * x ^ (2 * n) / ((2 * n + 1).factorial : ℂ) =
          (-1) ^ n * x ^ (2 * n) * ((((3 ^ n * ((2 * n).factorial : ℝ))⁻¹ - (((2 * n + 1).factorial : ℝ))⁻¹ : ℝ)) : ℂ) := by
        push_cast; ring
      rw [hf, norm_mul, norm_mul, norm_pow, norm_pow, norm_neg, norm_one, one_pow, one_mul, Complex.norm_real, pow_mul, div_eq_mul_inv]
      refine mul_le_mul_of_nonneg_left ?_ (by positivity)
      have h1 : (120 : ℝ) ≤ ((2 * n + 1).factorial : ℝ) := by
        have : (5).factorial ≤ (2 * n + 1).factorial := Nat.factorial_le (by omega)
        norm_num [Nat.factorial] at this ⊢
        exact_mod_cast this
      have h2 : ((2 * n + 1).factorial : ℝ) ≤ 3 ^ n * ((2 * n).factorial : ℝ) := by
        rw [Nat.factorial_succ]
        push_cast
        refine mul_le_mul_of_nonneg_right ?_ (by positivity)
        have := one_add_mul_le_pow (show (-2 : ℝ) ≤ 2 by norm_num) n
        norm_num at this
        linarith
      rw [Real.norm_eq_abs, abs_le]
      have h3 : (3 ^ n * ((2 * n).factorial : ℝ))⁻¹ ≤ (((2 * n + 1).factorial : ℝ))⁻¹ := by
        apply inv_anti₀ (by positivity) h2
      have h4 : (((2 * n + 1).factorial : ℝ))⁻¹ ≤ 120⁻¹ := inv_anti₀ (by norm_num) h1
      have h5 : 0 < (3 ^ n * ((2 * n).factorial : ℝ))⁻¹ := by positivity
      constructor <;> linarith
  refine hb.trans ?_
  have : (1 - ‖x‖ ^ 2)⁻¹ ≤ 2 := by
    rw [inv_le_comm₀ (by linarith) (by norm_num)]; linarith
  calc ‖x‖ ^ 4 / 120 * (1 - ‖x‖ ^ 2)⁻¹ ≤ ‖x‖ ^ 4 / 120 * 2 := mul_le_mul_of_nonneg_left this (by positivity)
    _ = _ := by ring

theorem misc_CSINC_eq {x : ℂ} (h : 1e-8 ≤ ‖x‖ ∨ x = 0) : misc_CSINC x = csinc x := by
  unfold misc_CSINC csinc
  rcases h with h | rfl
  · have : x ≠ 0 := by rintro rfl; norm_num at h
    rw [if_pos h, if_neg this]
  · norm_num

/-- `misc_CSINC` returns `sin x / x` (1 for `x = 0`) with an error below `1e-33`. -/
theorem misc_CSINC_near (x : ℂ) : ‖misc_CSINC x - csinc x‖ ≤ 1e-33 := by
  by_cases h : 1e-8 ≤ ‖x‖
  · rw [misc_CSINC_eq (Or.inl h), sub_self, norm_zero]; norm_num
  · rw [misc_CSINC, if_neg h]
    have hx : ‖x‖ ≤ 1e-8 := (not_le.mp h).le
    have h2 : ‖x‖ ^ 2 ≤ (1e-8) ^ 2 := pow_le_pow_left₀ (norm_nonneg _) hx 2
    have h4 : ‖x‖ ^ 4 ≤ (1e-8) ^ 4 := pow_le_pow_left₀ (norm_nonneg _) hx 4
    refine (sinc_taylor (h2.trans (by norm_num))).trans ?_
    norm_num at h4 ⊢
    linarith

/-- The error also decreases with `|x|`. -/
theorem misc_CSINC_near_min (x : ℂ) : ‖misc_CSINC x - csinc x‖ ≤ min 1e-33 (‖x‖ ^ 4) := by
  refine le_min (misc_CSINC_near x) ?_
  by_cases h : 1e-8 ≤ ‖x‖
  · rw [misc_CSINC_eq (Or.inl h), sub_self, norm_zero]; positivity
  · rw [misc_CSINC, if_neg h]
    have hx : ‖x‖ ≤ 1e-8 := (not_le.mp h).le
    have h2 : ‖x‖ ^ 2 ≤ (1e-8) ^ 2 := pow_le_pow_left₀ (norm_nonneg _) hx 2
    refine (sinc_taylor (h2.trans (by norm_num))).trans ?_
    have : 0 ≤ ‖x‖ ^ 4 := by positivity
    linarith

theorem csqrt_sq (x : ℂ) : csqrt x ^ 2 = x := by
  have := Complex.cpow_nat_inv_pow x (n := 2) (by norm_num)
  rw [csqrt, show ((1 : ℂ) / 2) = ((2 : ℕ) : ℂ)⁻¹ by norm_num]
  exact this

theorem csqrt_re (x : ℂ) : 0 ≤ (csqrt x).re := by
  by_cases hx : x = 0
  · rw [csqrt, hx, Complex.zero_cpow (by norm_num)]; simp
  · rw [csqrt, Complex.cpow_def_of_ne_zero hx, Complex.exp_re]
    refine mul_nonneg (Real.exp_pos _).le (Real.cos_nonneg_of_mem_Icc ?_)
    have h1 : (Complex.log x * (1 / 2)).im = x.arg / 2 := by
      rw [show (1 / 2 : ℂ) = ((1 / 2 : ℝ) : ℂ) by push_cast; rfl, Complex.im_mul_ofReal, Complex.log_im]; ring
    rw [h1]
    constructor <;> linarith [Complex.neg_pi_lt_arg x, Complex.arg_le_pi x]

theorem csqrt_norm (x : ℂ) : ‖csqrt x‖ = Real.sqrt ‖x‖ := by
  rw [← Real.sqrt_sq (norm_nonneg (csqrt x)), ← norm_pow, csqrt_sq]

theorem csqrt_eq_zero {x : ℂ} : csqrt x = 0 ↔ x = 0 := by
  rw [← norm_eq_zero, csqrt_norm, Real.sqrt_eq_zero (norm_nonneg _), norm_eq_zero]

/-- The matrix exponential of `[0,q;r,0]*eps` in closed form. -/
theorem exp_akB (eps : ℝ) (q r : ℂ) :
    NormedSpace.exp (Spec.akB eps q r) =
      !![Complex.cos (eps * csqrt (-q * r)), q * (eps * csinc (eps * csqrt (-q * r)));
         r * (eps * csinc (eps * csqrt (-q * r))), Complex.cos (eps * csqrt (-q * r))] := by
  rw [exp_of_sq (Spec.akB eps q r) (eps * csqrt (-q * r))]
  · ext i j
    fin_cases i <;> fin_cases j <;> simp [Spec.akB] <;> ring
  · rw [mul_pow, csqrt_sq]
    ext i j
    fin_cases i <;> fin_cases j <;> simp [Spec.akB, Matrix.mul_apply, Fin.sum_univ_two] <;> ring

/-- The matrix computed by `akns_fscatter_zero_freq_scatter_matrix` (`M[3]` is not stored, it equals
`M[0]`). -/
noncomputable def zfMat (eps : ℝ) (q r : ℂ) : Spec.M2 :=
  !![zeroFreq eps q r 0, zeroFreq eps q r 1; zeroFreq eps q r 2, zeroFreq eps q r 0]

theorem zfMat_exact {eps : ℝ} {q r : ℂ} (h : q * r = 0 ∨ 1e-8 ≤ |eps| * Real.sqrt ‖q * r‖) :
    zfMat eps q r = NormedSpace.exp (Spec.akB eps q r) := by
  have : misc_CSINC (eps * csqrt (-q * r)) = csinc (eps * csqrt (-q * r)) := by
    apply misc_CSINC_eq
    rcases h with h | h
    · right; rw [neg_mul, h, neg_zero, csqrt_eq_zero.mpr rfl, mul_zero]
    · left; rw [norm_mul, csqrt_norm, neg_mul, norm_neg, Complex.norm_real]; exact h
  rw [exp_akB, zfMat]
  simp only [zeroFreq, this]
  simp

theorem zfMat_near (eps : ℝ) (q r : ℂ) (i j : Fin 2) :
    ‖zfMat eps q r i j - NormedSpace.exp (Spec.akB eps q r) i j‖ ≤
      min 1e-33 ((eps ^ 2 * ‖q * r‖) ^ 2) * (|eps| * max ‖q‖ ‖r‖) := by
  have h : ‖misc_CSINC (eps * csqrt (-q * r)) - csinc (eps * csqrt (-q * r))‖ ≤ min 1e-33 ((eps ^ 2 * ‖q * r‖) ^ 2) := by
    have e : ‖(eps : ℂ) * csqrt (-q * r)‖ ^ 4 = (eps ^ 2 * ‖q * r‖) ^ 2 := by
      rw [show ‖(eps : ℂ) * csqrt (-q * r)‖ ^ 4 = (‖(eps : ℂ) * csqrt (-q * r)‖ ^ 2) ^ 2 by ring, ← norm_pow, mul_pow, csqrt_sq, norm_mul, neg_mul, norm_neg,
        norm_pow, Complex.norm_real, Real.norm_eq_abs, sq_abs]
    rw [← e]; exact misc_CSINC_near_min _
  have hm : (0 : ℝ) ≤ min 1e-33 ((eps ^ 2 * ‖q * r‖) ^ 2) := le_min (by norm_num) (by positivity)
  generalize min 1e-33 ((eps ^ 2 * ‖q * r‖) ^ 2) = m at h hm ⊢
  have key : ∀ c : ℂ, ‖c‖ ≤ max ‖q‖ ‖r‖ →
      ‖c * (eps * misc_CSINC (eps * csqrt (-q * r))) - c * (eps * csinc (eps * csqrt (-q * r)))‖ ≤
        m * (|eps| * max ‖q‖ ‖r‖) := by
    intro c hc
    rw [← mul_sub, ← mul_sub, norm_mul, norm_mul, Complex.norm_real, Real.norm_eq_abs]
    calc ‖c‖ * (|eps| * ‖_‖) ≤ max ‖q‖ ‖r‖ * (|eps| * m) :=
          mul_le_mul hc (mul_le_mul_of_nonneg_left h (abs_nonneg _)) (by positivity) ((norm_nonneg _).trans hc)
      _ = _ := by ring
  have h0 : 0 ≤ m * (|eps| * max ‖q‖ ‖r‖) := by positivity
  rw [exp_akB]
  fin_cases i <;> fin_cases j
  · simpa [zfMat, zeroFreq] using h0
  · simpa [zfMat, zeroFreq] using key q (le_max_left _ _)
  · simpa [zfMat, zeroFreq] using key r (le_max_right _ _)
  · simpa [zfMat, zeroFreq] using h0

end FNFT

import Verif.Spec.Manakov
import Verif.Proofs.Sinc
import Verif.Proofs.ExpS
import Verif.Proofs.ManTab
import Verif.Model.ManFscatter
import Mathlib.Tactic.FinCases
import Mathlib.Tactic.FieldSimp
/-!
# Exponentials of the 3x3 matrices of the Manakov scattering problem
-/
namespace FNFT
open Complex
local notation "mexp" => NormedSpace.exp

/-- The exponential series of `X` when `X^2 = -w^2 P` for an idempotent `P` with `P X = X`. -/
theorem hasSum_idem {A : Type*} [Ring A] [Algebra ℂ A] [TopologicalSpace A] [ContinuousAdd A]
    [ContinuousSMul ℂ A] (X P : A) (w : ℂ) (hP : P * P = P) (hPX : P * X = X) (h : X * X = (-(w ^ 2)) • P) :
    HasSum (fun n : ℕ => ((n.factorial : ℂ)⁻¹) • X ^ n) (cos w • P + (1 - P) + csinc w • X) := by
  have hp : ∀ n : ℕ, X ^ (2 * (n + 1)) = ((-1) ^ (n + 1) * w ^ (2 * (n + 1))) • P := by
    intro n
    induction n with
    | zero => rw [show 2 * (0 + 1) = 2 by rfl, pow_two, h]; simp
    | succ n ih =>
      rw [show 2 * (n + 1 + 1) = 2 * (n + 1) + 1 + 1 by ring, pow_succ, pow_succ, mul_assoc, ih, h,
        smul_mul_smul_comm, hP]
      congr 1; ring
  have hp1 : ∀ n : ℕ, X ^ (2 * n) = ((-1) ^ n * w ^ (2 * n)) • P + (if n = 0 then 1 - P else 0) := by
    intro n
    cases n with
    | zero => simp
    | succ n => rw [hp]; simp
  have hodd : ∀ n : ℕ, X ^ (2 * n + 1) = ((-1) ^ n * w ^ (2 * n)) • X := by
    intro n
    cases n with
    | zero => simp
    | succ n => rw [pow_succ, hp, smul_mul_assoc, hPX]
  have he : HasSum (fun n : ℕ => (((2 * n).factorial : ℂ)⁻¹) • X ^ (2 * n)) (cos w • P + (1 - P)) := by
    have h1 := (Complex.hasSum_cos w).smul_const P
    have h2 : HasSum (fun n : ℕ => if n = 0 then (1 - P : A) else 0) (1 - P) := by
      have := hasSum_single (f := fun n : ℕ => if n = 0 then (1 - P : A) else 0) 0
        (fun n hn => by simp [hn])
      simpa using this
    refine (h1.add h2).congr_fun ?_
    intro n
    rw [hp1, smul_add, smul_smul, div_eq_inv_mul]
    congr 1
    split_ifs with hn
    · subst hn; simp
    · simp
  have ho : HasSum (fun n : ℕ => (((2 * n + 1).factorial : ℂ)⁻¹) • X ^ (2 * n + 1)) (csinc w • X) := by
    refine ((csinc_hasSum w).smul_const X).congr_fun ?_
    intro n
    rw [hodd, smul_smul, div_eq_inv_mul]
  exact he.even_add_odd ho

section
variable {m : Type*} [Fintype m] [DecidableEq m]

/-- `exp X` when `X^2 = -w^2 P` for an idempotent `P` with `P X = X`. -/
theorem exp_of_idem (X P : Matrix m m ℂ) (w : ℂ) (hP : P * P = P) (hPX : P * X = X)
    (h : X * X = (-(w ^ 2)) • P) :
    mexp X = (1 - P) + cos w • P + csinc w • X := by
  rw [add_comm (1 - P)]
  exact (hasSum_matexp X).unique (hasSum_idem X P w hP hPX h)

/-- `exp (c Q)` for an idempotent `Q`. -/
theorem exp_smul_idem (Q : Matrix m m ℂ) (c : ℂ) (hQ : Q * Q = Q) : mexp (c • Q) = (1 - Q) + exp c • Q := by
  have := exp_of_idem (c • Q) Q (c * I) hQ (by rw [mul_smul_comm, hQ])
    (by rw [smul_mul_smul_comm, hQ]; congr 1; rw [mul_pow, I_sq]; ring)
  rw [this, add_assoc, smul_smul, ← add_smul]
  congr 2
  rw [Complex.cos_mul_I, csinc]
  by_cases hc : c = 0
  · simp [hc]
  · rw [if_neg (by simp [hc]), Complex.sin_mul_I, mul_div_mul_right _ _ I_ne_zero, div_mul_cancel₀ _ hc, Complex.cosh_add_sinh]
end

/-- The projection onto the part in which `B` is not zero. -/
noncomputable def manP (q1 q2 : ℂ) : Spec.M3 :=
  !![1, 0, 0;
     0, q1 * (starRingEnd ℂ) q1 / (q1 * (starRingEnd ℂ) q1 + q2 * (starRingEnd ℂ) q2),
        q2 * (starRingEnd ℂ) q1 / (q1 * (starRingEnd ℂ) q1 + q2 * (starRingEnd ℂ) q2);
     0, q1 * (starRingEnd ℂ) q2 / (q1 * (starRingEnd ℂ) q1 + q2 * (starRingEnd ℂ) q2),
        q2 * (starRingEnd ℂ) q2 / (q1 * (starRingEnd ℂ) q1 + q2 * (starRingEnd ℂ) q2)]

theorem qq_ne {q1 q2 : ℂ} (h : ¬ (q1 = 0 ∧ q2 = 0)) : q1 * (starRingEnd ℂ) q1 + q2 * (starRingEnd ℂ) q2 ≠ 0 := by
  rw [Complex.mul_conj, Complex.mul_conj, ← ofReal_add]
  intro h0
  have h1 : Complex.normSq q1 + Complex.normSq q2 = 0 := by exact_mod_cast h0
  have := Complex.normSq_nonneg q1
  have := Complex.normSq_nonneg q2
  exact h ⟨Complex.normSq_eq_zero.mp (by linarith), Complex.normSq_eq_zero.mp (by linarith)⟩

section
variable {κ : ℤ} {q1 q2 : ℂ} (h : ¬ (q1 = 0 ∧ q2 = 0))
include h

theorem manP_sq : manP q1 q2 * manP q1 q2 = manP q1 q2 := by
  have h0 := qq_ne h
  unfold manP
  generalize (starRingEnd ℂ) q1 = a at *
  generalize (starRingEnd ℂ) q2 = b at *
  obtain ⟨S, hS⟩ : ∃ S, S = q1 * a + q2 * b := ⟨_, rfl⟩
  rw [← hS] at h0 ⊢
  ext i j
  fin_cases i <;> fin_cases j <;> simp [Matrix.mul_apply, Fin.sum_univ_three] <;> field_simp <;> (subst hS; ring)

theorem manP_B (c : ℂ) : manP q1 q2 * (c • Spec.manB κ q1 q2) = c • Spec.manB κ q1 q2 := by
  have h0 := qq_ne h
  unfold manP Spec.manB
  generalize (starRingEnd ℂ) q1 = a at *
  generalize (starRingEnd ℂ) q2 = b at *
  obtain ⟨S, hS⟩ : ∃ S, S = q1 * a + q2 * b := ⟨_, rfl⟩
  rw [← hS] at h0 ⊢
  ext i j
  fin_cases i <;> fin_cases j <;> simp [Matrix.mul_apply, Fin.sum_univ_three] <;> field_simp <;> (subst hS; ring)

theorem manB_sq (c : ℂ) : (c • Spec.manB κ q1 q2) * (c • Spec.manB κ q1 q2) =
    (-(c ^ 2 * κ * (q1 * (starRingEnd ℂ) q1 + q2 * (starRingEnd ℂ) q2))) • manP q1 q2 := by
  have h0 := qq_ne h
  unfold manP Spec.manB
  generalize (starRingEnd ℂ) q1 = a at *
  generalize (starRingEnd ℂ) q2 = b at *
  obtain ⟨S, hS⟩ : ∃ S, S = q1 * a + q2 * b := ⟨_, rfl⟩
  rw [← hS] at h0 ⊢
  ext i j
  fin_cases i <;> fin_cases j <;> simp [Matrix.mul_apply, Fin.sum_univ_three] <;> field_simp <;> (subst hS; ring)

/-- `exp (c B)`. -/
theorem exp_manB (c w : ℂ) (hw : w ^ 2 = c ^ 2 * κ * (q1 * (starRingEnd ℂ) q1 + q2 * (starRingEnd ℂ) q2)) :
    mexp (c • Spec.manB κ q1 q2) = (1 - manP q1 q2) + cos w • manP q1 q2 + csinc w • (c • Spec.manB κ q1 q2) :=
  exp_of_idem _ _ w (manP_sq h) (manP_B h c) (by rw [manB_sq h, hw])
end

/-- The matrices of the code: `sinc` is replaced by some number. -/
noncomputable def manF (κ : ℤ) (q1 q2 c w s : ℂ) : Spec.M3 :=
  (1 - manP q1 q2) + cos w • manP q1 q2 + s • (c • Spec.manB κ q1 q2)

theorem manF_near {κ : ℤ} (hκ : |κ| = 1) (q1 q2 c w : ℂ) (i j : Fin 3) :
    ‖manF κ q1 q2 c w (misc_CSINC w) i j - manF κ q1 q2 c w (csinc w) i j‖ ≤ 1e-33 * (‖c‖ * max ‖q1‖ ‖q2‖) := by
  have e : manF κ q1 q2 c w (misc_CSINC w) i j - manF κ q1 q2 c w (csinc w) i j =
      (misc_CSINC w - csinc w) * (c * Spec.manB κ q1 q2 i j) := by
    simp only [manF, Matrix.add_apply, Matrix.smul_apply, smul_eq_mul]; ring
  have hB : ‖Spec.manB κ q1 q2 i j‖ ≤ max ‖q1‖ ‖q2‖ := by
    have h0 : (0 : ℝ) ≤ max ‖q1‖ ‖q2‖ := le_max_of_le_left (norm_nonneg _)
    have hk : |(κ : ℝ)| = 1 := by exact_mod_cast hκ
    fin_cases i <;> fin_cases j <;> simp [Spec.manB, hk]
  rw [e, norm_mul, norm_mul]
  exact mul_le_mul (misc_CSINC_near w) (mul_le_mul_of_nonneg_left hB (norm_nonneg _)) (by positivity) (by norm_num)

theorem kappa_sq {κ : ℤ} (hκ : |κ| = 1) : (κ : ℂ) * κ = 1 := by
  have : κ = 1 ∨ κ = -1 := by
    rcases abs_eq (by norm_num : (0 : ℤ) ≤ 1) |>.mp hκ with h | h <;> simp [h]
  rcases this with rfl | rfl <;> simp

theorem rq_eq (κ : ℤ) (q1 q2 : ℂ) : (starRingEnd ℂ) q1 * -1 * κ * q1 + (starRingEnd ℂ) q2 * -1 * κ * q2 =
    -(κ * (q1 * (starRingEnd ℂ) q1 + q2 * (starRingEnd ℂ) q2)) := by ring

theorem qq_real (q1 q2 : ℂ) : q1 * (starRingEnd ℂ) q1 + q2 * (starRingEnd ℂ) q2 = ((‖q1‖ ^ 2 + ‖q2‖ ^ 2 : ℝ) : ℂ) := by
  rw [Complex.mul_conj, Complex.mul_conj, Complex.normSq_eq_norm_sq, Complex.normSq_eq_norm_sq]; push_cast; rfl

/-- `conj x = ± x` for a number whose square is real. -/
theorem conj_of_sq {x : ℂ} (h : (starRingEnd ℂ) (x ^ 2) = x ^ 2) : (starRingEnd ℂ) x = x ∨ (starRingEnd ℂ) x = -x := by
  rw [map_pow] at h
  exact sq_eq_sq_iff_eq_or_eq_neg.mp h

theorem manZeroFreq_form {κ : ℤ} (hκ : |κ| = 1) {eps : ℝ} (he : eps ≠ 0) {q1 q2 : ℂ}
    (hq : ¬ (‖q1‖ < EPSILON ∧ ‖q2‖ < EPSILON)) :
    ∃ w : ℂ, w ^ 2 = (eps : ℂ) ^ 2 * κ * (q1 * (starRingEnd ℂ) q1 + q2 * (starRingEnd ℂ) q2) ∧
      Refl.matOf (manZeroFreq eps q1 q2 κ) = manF κ q1 q2 eps w (misc_CSINC w) := by
  have hne : ¬ (q1 = 0 ∧ q2 = 0) := by
    rintro ⟨rfl, rfl⟩
    exact hq (by simp [EPSILON])
  have h0 := qq_ne hne
  set S := q1 * (starRingEnd ℂ) q1 + q2 * (starRingEnd ℂ) q2 with hS
  have hSr : (starRingEnd ℂ) S = S := by rw [hS, qq_real, Complex.conj_ofReal]
  obtain ⟨x, hx⟩ : ∃ x : ℂ, x = csqrt ((starRingEnd ℂ) q1 * -1 * κ * q1 + (starRingEnd ℂ) q2 * -1 * κ * q2) * eps := ⟨_, rfl⟩
  have hx2 : x * x = -(κ * S) * eps ^ 2 := by
    rw [← pow_two, hx, mul_pow, csqrt_sq, rq_eq]
  have hw2 : (I * x) ^ 2 = (eps : ℂ) ^ 2 * κ * S := by rw [mul_pow, I_sq, pow_two x, hx2]; ring
  have hkk := kappa_sq hκ
  have hk0 : (κ : ℂ) ≠ 0 := by intro h; rw [h] at hkk; simp at hkk
  have he' : (eps : ℂ) ≠ 0 := by exact_mod_cast he
  have hwc : (starRingEnd ℂ) ((I * x) ^ 2) = (I * x) ^ 2 := by
    rw [hw2, map_mul, map_mul, map_pow, Complex.conj_ofReal, hSr, map_intCast]
  have hcs : (starRingEnd ℂ) (misc_CSINC (I * x)) = misc_CSINC (I * x) := by
    rw [← misc_CSINC_conj]
    rcases conj_of_sq hwc with h | h <;> rw [h]
    exact misc_CSINC_neg _
  have hcc : (starRingEnd ℂ) (cos (I * x)) = cos (I * x) := by
    rw [← Complex.cos_conj]
    rcases conj_of_sq hwc with h | h <;> rw [h]
    exact Complex.cos_neg _
  refine ⟨I * x, hw2, ?_⟩
  have hkinv : (κ : ℂ)⁻¹ = κ := by field_simp; rw [pow_two]; exact hkk.symm
  generalize hC : cos (I * x) = C at *
  generalize hM : misc_CSINC (I * x) = M at *
  have hxc : (starRingEnd ℂ) x * (starRingEnd ℂ) x = x * x := by
    rw [← map_mul, hx2, map_mul, map_neg, map_mul, map_pow, Complex.conj_ofReal, hSr, map_intCast]
  ext i j
  simp only [Refl.matOf, Matrix.of_apply, manZeroFreq, if_neg hq]
  rw [← hx, hC, hM]
  fin_cases i <;> fin_cases j <;> simp [manF, manP, Spec.manB, ← hS, hC, hcs, hcc]
  · ring
  · ring
  · ring
  · rw [hx2]; field_simp; rw [hS]; ring
  · rw [hx2]; field_simp; ring
  · ring
  · rw [hxc, hx2]; field_simp; ring
  · rw [hx2]; field_simp; rw [hS]; ring

theorem manGetE_form {κ : ℤ} (hκ : |κ| = 1) {s1 s2 : ℂ} (hq : ¬ (‖s1‖ < EPSILON ∧ ‖s2‖ < EPSILON)) :
    ∃ w : ℂ, w ^ 2 = (1 : ℂ) ^ 2 * κ * (s1 * (starRingEnd ℂ) s1 + s2 * (starRingEnd ℂ) s2) ∧
      Refl.matOf (manGetE s1 s2 (-κ * (starRingEnd ℂ) s1) (-κ * (starRingEnd ℂ) s2)) =
        manF κ s1 s2 1 w (misc_CSINC w) := by
  have hne : ¬ (s1 = 0 ∧ s2 = 0) := by
    rintro ⟨rfl, rfl⟩
    exact hq (by simp [EPSILON])
  have h0 := qq_ne hne
  set S := s1 * (starRingEnd ℂ) s1 + s2 * (starRingEnd ℂ) s2 with hS
  obtain ⟨x, hx⟩ : ∃ x : ℂ, x = csqrt (-κ * (starRingEnd ℂ) s1 * s1 + -κ * (starRingEnd ℂ) s2 * s2) := ⟨_, rfl⟩
  have hx2 : x * x = -(κ * S) := by
    rw [← pow_two, hx, csqrt_sq, hS]; ring
  have hkk := kappa_sq hκ
  have hk0 : (κ : ℂ) ≠ 0 := by intro h; rw [h] at hkk; simp at hkk
  refine ⟨I * x, by rw [mul_pow, I_sq, pow_two x, hx2]; ring, ?_⟩
  generalize hC : cos (I * x) = C at *
  generalize hM : misc_CSINC (I * x) = M at *
  have hq' : ¬ (‖s1‖ < EPSILON ∧ ‖s2‖ < EPSILON ∧ ‖-κ * (starRingEnd ℂ) s1‖ < EPSILON ∧
      ‖-κ * (starRingEnd ℂ) s2‖ < EPSILON) := fun h => hq ⟨h.1, h.2.1⟩
  ext i j
  simp only [Refl.matOf, Matrix.of_apply, manGetE, if_neg hq']
  rw [← hx, hC, hM]
  fin_cases i <;> fin_cases j <;> simp [manF, manP, Spec.manB, ← hS, hC]
  · ring
  · ring
  · ring
  · rw [hx2]; field_simp; rw [hS]; ring
  · rw [hx2]; field_simp; ring
  · ring
  · rw [hx2]; field_simp; ring
  · rw [hx2]; field_simp; rw [hS]; ring

theorem manB_zero (κ : ℤ) : Spec.manB κ 0 0 = 0 := by
  ext i j
  fin_cases i <;> fin_cases j <;> simp [Spec.manB]

theorem eps_pow : EPSILON = 2 ^ (-52 : ℤ) := by norm_num [EPSILON]

theorem manTrunc_tiny {q1 q2 : ℂ} (h : ‖q1‖ < EPSILON ∧ ‖q2‖ < EPSILON) : Spec.manTrunc q1 q2 = (0, 0) := by
  rw [eps_pow] at h
  rw [Spec.manTrunc, if_pos h]

theorem manTrunc_not {q1 q2 : ℂ} (h : ¬ (‖q1‖ < EPSILON ∧ ‖q2‖ < EPSILON)) : Spec.manTrunc q1 q2 = (q1, q2) := by
  rw [eps_pow] at h
  rw [Spec.manTrunc, if_neg h]

theorem matOf_one : Refl.matOf (fun c => if c = 0 ∨ c = 4 ∨ c = 8 then (1 : ℂ) else 0) = 1 := by
  ext i j
  fin_cases i <;> fin_cases j <;> simp [Refl.matOf]

theorem manClose_one {κ : ℤ} {c : ℝ} {q1 q2 : ℂ} (h : ‖q1‖ < EPSILON ∧ ‖q2‖ < EPSILON) : Spec.ManClose κ c q1 q2 1 := by
  have e : mexp ((c : ℂ) • Spec.manB κ (Spec.manTrunc q1 q2).1 (Spec.manTrunc q1 q2).2) = 1 := by
    rw [manTrunc_tiny h]
    simp only [manB_zero, smul_zero, NormedSpace.exp_zero]
  refine ⟨fun i j => ?_, fun _ => e.symm⟩
  rw [e, sub_self, norm_zero]
  have : (0 : ℝ) ≤ max ‖q1‖ ‖q2‖ := le_max_of_le_left (norm_nonneg _)
  positivity

theorem manClose_form {κ : ℤ} (hκ : |κ| = 1) {c : ℝ} {q1 q2 w : ℂ} (h : ¬ (‖q1‖ < EPSILON ∧ ‖q2‖ < EPSILON))
    (hw : w ^ 2 = (c : ℂ) ^ 2 * κ * (q1 * (starRingEnd ℂ) q1 + q2 * (starRingEnd ℂ) q2)) :
    Spec.ManClose κ c q1 q2 (manF κ q1 q2 c w (misc_CSINC w)) := by
  have hne : ¬ (q1 = 0 ∧ q2 = 0) := by
    rintro ⟨rfl, rfl⟩
    exact h (by simp [EPSILON])
  have e : mexp ((c : ℂ) • Spec.manB κ (Spec.manTrunc q1 q2).1 (Spec.manTrunc q1 q2).2) =
      manF κ q1 q2 c w (csinc w) := by
    rw [manTrunc_not h, exp_manB hne (c : ℂ) w hw, manF]
  refine ⟨fun i j => ?_, fun hc => ?_⟩
  · rw [e]
    have := manF_near hκ q1 q2 c w i j
    rwa [Complex.norm_real, Real.norm_eq_abs] at this
  · rw [e, misc_CSINC_eq (Or.inl _)]
    have hn : ‖w‖ ^ 2 = (|c| * Real.sqrt (‖q1‖ ^ 2 + ‖q2‖ ^ 2)) ^ 2 := by
      have hk : |(κ : ℝ)| = 1 := by exact_mod_cast hκ
      rw [← norm_pow, hw, qq_real, norm_mul, norm_mul, norm_pow, Complex.norm_real, Complex.norm_real,
        Complex.norm_intCast, hk, mul_pow, Real.sq_sqrt (by positivity), Real.norm_eq_abs, Real.norm_eq_abs,
        abs_of_nonneg (by positivity : (0 : ℝ) ≤ ‖q1‖ ^ 2 + ‖q2‖ ^ 2)]
      ring
    have := (sq_eq_sq₀ (norm_nonneg w) (by positivity)).mp hn
    rw [this]; exact hc

theorem manZeroFreq_close {κ : ℤ} (hκ : |κ| = 1) {eps : ℝ} (he : eps ≠ 0) (q1 q2 : ℂ) :
    Spec.ManClose κ eps q1 q2 (Refl.matOf (manZeroFreq eps q1 q2 κ)) := by
  by_cases h : ‖q1‖ < EPSILON ∧ ‖q2‖ < EPSILON
  · have : manZeroFreq eps q1 q2 κ = fun c => if c = 0 ∨ c = 4 ∨ c = 8 then (1 : ℂ) else 0 := by
      funext c; rw [manZeroFreq, if_pos h]
    rw [this, matOf_one]
    exact manClose_one h
  · obtain ⟨w, hw, e⟩ := manZeroFreq_form hκ he h
    rw [e]; exact manClose_form hκ h hw

theorem manGetE_close {κ : ℤ} (hκ : |κ| = 1) (s1 s2 : ℂ) :
    Spec.ManClose κ 1 s1 s2 (Refl.matOf (manGetE s1 s2 (-κ * (starRingEnd ℂ) s1) (-κ * (starRingEnd ℂ) s2))) := by
  by_cases h : ‖s1‖ < EPSILON ∧ ‖s2‖ < EPSILON
  · have hk : |(κ : ℝ)| = 1 := by exact_mod_cast hκ
    have : manGetE s1 s2 (-κ * (starRingEnd ℂ) s1) (-κ * (starRingEnd ℂ) s2) =
        fun c => if c = 0 ∨ c = 4 ∨ c = 8 then (1 : ℂ) else 0 := by
      funext c
      rw [manGetE, if_pos]
      simp [Complex.norm_intCast, hk, h.1, h.2]
    rw [this, matOf_one]
    exact manClose_one h
  · obtain ⟨w, hw, e⟩ := manGetE_form hκ h
    rw [e]; exact manClose_form hκ h (by simpa using hw)
end FNFT

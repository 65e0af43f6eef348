import Verif.Spec.AknsSlow
import Verif.Proofs.Sinc
import Verif.Model.AknsScatter
import Verif.Props.MiscNum
import Mathlib.LinearAlgebra.Matrix.Determinant.Basic
/-!
# The matrix exponential of traceless 2x2 matrices as implemented in fnft__akns_scatter.c
-/
namespace FNFT
open Complex Matrix NormedSpace

theorem csinc_neg (x : ℂ) : csinc (-x) = csinc x := by
  unfold csinc; by_cases h : x = 0
  · simp [h]
  · simp [h]

theorem misc_CSINC_neg (x : ℂ) : misc_CSINC (-x) = misc_CSINC x := by
  unfold misc_CSINC; rw [norm_neg, sin_neg, neg_div_neg_eq, neg_div, cos_neg]

theorem csinc_conj (x : ℂ) : csinc ((starRingEnd ℂ) x) = (starRingEnd ℂ) (csinc x) := by
  unfold csinc; by_cases h : x = 0
  · simp [h]
  · simp [h, sin_conj]

theorem misc_CSINC_conj (x : ℂ) : misc_CSINC ((starRingEnd ℂ) x) = (starRingEnd ℂ) (misc_CSINC x) := by
  unfold misc_CSINC
  rw [norm_conj]
  split_ifs
  · rw [sin_conj, map_div₀]
  · rw [← cos_conj, map_div₀, conj_ofReal]

/-- `cos w + CSINC w X` with `w^2 = det X`. -/
noncomputable def expS (X : Spec.M2) : Spec.M2 :=
  cos (csqrt X.det) • (1 : Spec.M2) + misc_CSINC (csqrt X.det) • X

/-- Any square root of the determinant may be used. -/
theorem expS_of_sq {X : Spec.M2} {w : ℂ} (hw : w ^ 2 = X.det) :
    expS X = cos w • (1 : Spec.M2) + misc_CSINC w • X := by
  have : csqrt X.det = w ∨ csqrt X.det = -w := sq_eq_sq_iff_eq_or_eq_neg.mp (by rw [csqrt_sq, hw])
  unfold expS
  rcases this with h | h <;> rw [h]
  rw [cos_neg, misc_CSINC_neg]

theorem traceless_sq {X : Spec.M2} (ht : X 1 1 = -X 0 0) : X * X = (-X.det) • (1 : Spec.M2) := by
  ext i j
  fin_cases i <;> fin_cases j <;> simp [Matrix.mul_apply, Fin.sum_univ_two, Matrix.det_fin_two, ht] <;> ring

theorem exp_traceless {X : Spec.M2} (ht : X 1 1 = -X 0 0) :
    exp X = cos (csqrt X.det) • (1 : Spec.M2) + csinc (csqrt X.det) • X :=
  exp_of_sq X _ (by rw [csqrt_sq]; exact traceless_sq ht)

theorem expS_exact {X : Spec.M2} (ht : X 1 1 = -X 0 0) (h : X.det = 0 ∨ 1e-16 ≤ ‖X.det‖) : expS X = exp X := by
  rw [exp_traceless ht, expS, misc_CSINC_eq]
  rcases h with h | h
  · right; rw [csqrt_eq_zero]; exact h
  · left; rw [csqrt_norm]; refine Real.le_sqrt_of_sq_le (le_trans ?_ h); norm_num

theorem expS_near {X : Spec.M2} (ht : X 1 1 = -X 0 0) (i j : Fin 2) :
    ‖expS X i j - exp X i j‖ ≤ min 1e-33 (‖X.det‖ ^ 2) * ‖X i j‖ := by
  have e : ‖csqrt X.det‖ ^ 4 = ‖X.det‖ ^ 2 := by
    rw [show ‖csqrt X.det‖ ^ 4 = (‖csqrt X.det‖ ^ 2) ^ 2 by ring, ← norm_pow, csqrt_sq]
  rw [exp_traceless ht, expS]
  simp only [Matrix.add_apply, Matrix.smul_apply, smul_eq_mul]
  rw [add_sub_add_left_eq_sub, ← sub_mul, norm_mul]
  rw [← e]
  exact mul_le_mul_of_nonneg_right (misc_CSINC_near_min _) (norm_nonneg _)

theorem expS_det {X : Spec.M2} (ht : X 1 1 = -X 0 0) :
    (expS X).det = cos (csqrt X.det) ^ 2 + X.det * misc_CSINC (csqrt X.det) ^ 2 := by
  rw [expS]
  generalize cos (csqrt X.det) = c
  generalize misc_CSINC (csqrt X.det) = s
  simp only [Matrix.det_fin_two, Matrix.add_apply, Matrix.smul_apply, smul_eq_mul, ht]
  simp
  ring

theorem cos_csinc (w : ℂ) : cos w ^ 2 + w ^ 2 * csinc w ^ 2 = 1 := by
  unfold csinc
  split_ifs with h
  · simp [h]
  · rw [div_pow, mul_div_cancel₀ _ (pow_ne_zero 2 h)]; exact cos_sq_add_sin_sq w

theorem expS_det_exact {X : Spec.M2} (ht : X 1 1 = -X 0 0) (h : X.det = 0 ∨ 1e-16 ≤ ‖X.det‖) : (expS X).det = 1 := by
  rw [expS_det ht, misc_CSINC_eq, ← csqrt_sq X.det]
  · simp only [csqrt_sq]; nth_rewrite 2 [← csqrt_sq X.det]; exact cos_csinc _
  rcases h with h | h
  · right; rw [csqrt_eq_zero]; exact h
  · left; rw [csqrt_norm]; refine Real.le_sqrt_of_sq_le (le_trans ?_ h); norm_num

theorem csinc_bound {x : ℂ} (hx : ‖x‖ ≤ 1e-8) : ‖csinc x‖ ≤ 2 := by
  have h2 : ‖x‖ ^ 2 ≤ 1 / 2 := le_trans (pow_le_pow_left₀ (norm_nonneg _) hx 2) (by norm_num)
  have h1 := csinc_hasSum x
  have hle : ∀ n : ℕ, ‖(-1) ^ n * x ^ (2 * n) / ((2 * n + 1).factorial : ℂ)‖ ≤ (1 / 2 : ℝ) ^ n := by
    intro n
    rw [norm_div, norm_mul, norm_pow, norm_neg, norm_one, one_pow, one_mul, norm_pow, pow_mul, norm_natCast]
    have : (1 : ℝ) ≤ ((2 * n + 1).factorial : ℝ) := by exact_mod_cast Nat.one_le_iff_ne_zero.mpr (Nat.factorial_ne_zero _)
    refine (div_le_self (by positivity) this).trans ?_
    exact pow_le_pow_left₀ (by positivity) h2 n
  have hs := hasSum_geometric_of_lt_one (r := (1 / 2 : ℝ)) (by norm_num) (by norm_num)
  have := h1.norm_le_of_bounded hs hle
  norm_num at this ⊢
  exact this

/-- The determinant is one up to `1e-48` even below the threshold. -/
theorem expS_det_near {X : Spec.M2} (ht : X 1 1 = -X 0 0) : ‖(expS X).det - 1‖ ≤ 1e-48 := by
  by_cases h : 1e-16 ≤ ‖X.det‖
  · rw [expS_det_exact ht (Or.inr h)]; norm_num
  · have hw := csqrt_sq X.det
    have hn : ‖csqrt X.det‖ ≤ 1e-8 := by
      rw [csqrt_norm]; refine Real.sqrt_le_iff.mpr ⟨by norm_num, ?_⟩
      refine (not_le.mp h).le.trans ?_; norm_num
    rw [expS_det ht]
    set w := csqrt X.det with hwd
    have hc := cos_csinc w
    have e : cos w ^ 2 + X.det * misc_CSINC w ^ 2 - 1 =
        X.det * ((misc_CSINC w - csinc w) * ((misc_CSINC w - csinc w) + 2 * csinc w)) := by
      rw [← hw]; linear_combination hc
    rw [e, norm_mul, norm_mul]
    have h1 := misc_CSINC_near w
    have h2 := csinc_bound hn
    have h3 : ‖(misc_CSINC w - csinc w) + 2 * csinc w‖ ≤ 5 := by
      refine (norm_add_le _ _).trans ?_
      rw [norm_mul]
      simp only [RCLike.norm_ofNat]
      linarith [show (1e-33 : ℝ) ≤ 1 by norm_num]
    calc ‖X.det‖ * (‖misc_CSINC w - csinc w‖ * ‖(misc_CSINC w - csinc w) + 2 * csinc w‖)
        ≤ 1e-16 * (1e-33 * 5) := by
          refine mul_le_mul (not_le.mp h).le (mul_le_mul h1 h3 (norm_nonneg _) (by norm_num)) (by positivity) (by norm_num)
      _ ≤ 1e-48 := by norm_num

/-- `E(X) E(-X) = det E(X)`. -/
theorem expS_neg {X : Spec.M2} (ht : X 1 1 = -X 0 0) : expS X * expS (-X) = (expS X).det • (1 : Spec.M2) := by
  have hd : (-X).det = X.det := by simp [Matrix.det_fin_two]
  rw [expS_det ht, expS, expS, hd]
  have := traceless_sq ht
  rw [add_mul, mul_add, mul_add]
  simp only [smul_mul_smul_comm, one_mul, mul_one, mul_neg, smul_neg, this, smul_smul]
  rw [← sub_eq_zero]
  ext i j
  simp
  ring

/-- Scattering matrices with the symmetry `S = [a, b; -κ conj b, conj a]`. -/
def Spec.Sym (κ : ℝ) (M : Spec.M2) : Prop :=
  M 1 1 = (starRingEnd ℂ) (M 0 0) ∧ M 1 0 = -κ * (starRingEnd ℂ) (M 0 1)

theorem Sym.mul {κ : ℝ} {A B : Spec.M2} (hA : Spec.Sym κ A) (hB : Spec.Sym κ B) : Spec.Sym κ (A * B) := by
  obtain ⟨a1, a2⟩ := hA
  obtain ⟨b1, b2⟩ := hB
  constructor
  · simp only [Matrix.mul_apply, Fin.sum_univ_two, a1, a2, b1, b2]
    simp; ring
  · simp only [Matrix.mul_apply, Fin.sum_univ_two, a1, a2, b1, b2]
    simp; ring

theorem Sym.one {κ : ℝ} : Spec.Sym κ (1 : Spec.M2) := by
  constructor <;> simp

theorem Sym.smul {κ : ℝ} {A : Spec.M2} (hA : Spec.Sym κ A) {c : ℂ} (hc : (starRingEnd ℂ) c = c) : Spec.Sym κ (c • A) := by
  obtain ⟨a1, a2⟩ := hA
  constructor
  · simp [a1, hc]
  · simp [a2, hc]; ring

theorem Sym.add {κ : ℝ} {A B : Spec.M2} (hA : Spec.Sym κ A) (hB : Spec.Sym κ B) : Spec.Sym κ (A + B) := by
  obtain ⟨a1, a2⟩ := hA
  obtain ⟨b1, b2⟩ := hB
  constructor
  · simp [a1, b1]
  · simp [a2, b2]; ring

theorem Sym.det {κ : ℝ} {A : Spec.M2} (hA : Spec.Sym κ A) : ((‖A 0 0‖ ^ 2 + κ * ‖A 0 1‖ ^ 2 : ℝ) : ℂ) = A.det := by
  obtain ⟨a1, a2⟩ := hA
  rw [Matrix.det_fin_two, a1, a2]
  push_cast
  rw [← mul_conj' , ← mul_conj']
  ring

theorem Sym.expS {κ : ℝ} {X : Spec.M2} (hX : Spec.Sym κ X) : Spec.Sym κ (expS X) := by
  have hd : (starRingEnd ℂ) X.det = X.det := by rw [← Sym.det hX, conj_ofReal]
  set w := csqrt X.det with hw
  have hsq : ((starRingEnd ℂ) w) ^ 2 = w ^ 2 := by rw [← map_pow, hw, csqrt_sq, hd]
  have hs : (starRingEnd ℂ) (misc_CSINC w) = misc_CSINC w := by
    rw [← misc_CSINC_conj]
    rcases sq_eq_sq_iff_eq_or_eq_neg.mp hsq with h | h <;> rw [h]
    rw [misc_CSINC_neg]
  have hc : (starRingEnd ℂ) (cos w) = cos w := by
    rw [← cos_conj]
    rcases sq_eq_sq_iff_eq_or_eq_neg.mp hsq with h | h <;> rw [h]
    rw [cos_neg]
  exact Sym.add (Sym.smul Sym.one hc) (Sym.smul hX hs)

theorem Sym.zfMat {κ : ℝ} (eps : ℝ) {q r : ℂ} (hr : r = -κ * (starRingEnd ℂ) q) : Spec.Sym κ (zfMat eps q r) := by
  have hd : (starRingEnd ℂ) (-q * r) = -q * r := by
    rw [hr]; simp only [map_mul, map_neg, conj_conj, conj_ofReal]; ring
  set w := (eps : ℂ) * csqrt (-q * r) with hw
  have hsq : ((starRingEnd ℂ) w) ^ 2 = w ^ 2 := by
    rw [← map_pow, hw, mul_pow, csqrt_sq, map_mul, hd, map_pow, conj_ofReal]
  have hs : (starRingEnd ℂ) (misc_CSINC w) = misc_CSINC w := by
    rw [← misc_CSINC_conj]
    rcases sq_eq_sq_iff_eq_or_eq_neg.mp hsq with h | h <;> rw [h]
    rw [misc_CSINC_neg]
  have hc : (starRingEnd ℂ) (cos w) = cos w := by
    rw [← cos_conj]
    rcases sq_eq_sq_iff_eq_or_eq_neg.mp hsq with h | h <;> rw [h]
    rw [cos_neg]
  constructor
  · simp only [FNFT.zfMat, zeroFreq, ← hw]
    simp [hc]
  · simp only [FNFT.zfMat, zeroFreq, ← hw]
    simp [hs, hr]
    ring

/-! ## The arrays computed by the code -/

theorem stores_U_BO (q r l h : ℂ) : Spec.Stores (Buf.ofList (U_BO q r l h)) (expS (h • Spec.aknsP q r l)) := by
  have hw : (I * csqrt (q * r - l * l) * h) ^ 2 = (h • Spec.aknsP q r l).det := by
    rw [mul_pow, mul_pow, csqrt_sq, I_sq, Matrix.det_fin_two]
    simp [Spec.aknsP]
    linear_combination (h ^ 2 * l ^ 2) * I_mul_I
  rw [expS_of_sq hw]
  have hc : cos (I * csqrt (q * r - l * l) * h) = cosh (csqrt (q * r - l * l) * h) := by
    rw [← cos_mul_I]; congr 1; ring
  rw [hc]
  intro i j
  fin_cases i <;> fin_cases j <;> simp [Buf.rd_ofList, U_BO, Spec.aknsP] <;> ring

theorem stores_U_ES4 (a1 a2 a3 : ℂ) :
    Spec.Stores (Buf.ofList (U_ES4 a1 a2 a3)) (expS !![a3, a1 - I * a2; a1 + I * a2, -a3]) := by
  have hw : (csqrt (-(a1 * a1) - (a2 * a2) - (a3 * a3))) ^ 2 = (!![a3, a1 - I * a2; a1 + I * a2, -a3] : Spec.M2).det := by
    rw [csqrt_sq, Matrix.det_fin_two]
    simp
    linear_combination (-a2 ^ 2) * I_mul_I
  rw [expS_of_sq hw]
  intro i j
  fin_cases i <;> fin_cases j <;> simp [Buf.rd_ofList, U_ES4] <;> ring

end FNFT

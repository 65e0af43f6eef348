import Mathlib.Analysis.SpecialFunctions.Exponential
import Mathlib.Analysis.ODE.ExistUnique
import Mathlib.Analysis.ODE.Gronwall
import Mathlib.Analysis.Calculus.MeanValue
import Mathlib.Analysis.Calculus.Deriv.Mul
import Mathlib.Tactic.NoncommRing
import Mathlib.Tactic.Linarith
import Mathlib.Tactic.Positivity
/-!
# Linear differential equations in a Banach algebra and one-step methods
-/
set_option linter.unusedSectionVars false
set_option linter.unusedVariables false
namespace FNFT.Conv
open NormedSpace Set
open scoped Nat NNReal

variable {𝔸 : Type*} [NormedRing 𝔸] [NormedAlgebra ℝ 𝔸] [CompleteSpace 𝔸] [NormOneClass 𝔸]

/-! ## Exponentials and their products -/

/-- `e^x - 1 - x - x²/2`. -/
noncomputable def tail (x : ℝ) : ℝ := Real.exp x - 1 - x - x ^ 2 / 2

/-- `F = 1 + X + Y + …`, dominated by the series of `e^x`. -/
structure Maj (F X Y : 𝔸) (x : ℝ) : Prop where
  one : ‖X‖ ≤ x
  two : ‖Y‖ ≤ x ^ 2 / 2
  rest : ‖F - 1 - X - Y‖ ≤ tail x

theorem real_exp_hasSum (x : ℝ) : HasSum (fun n : ℕ => x ^ n / (n ! : ℝ)) (Real.exp x) := by
  have := expSeries_div_hasSum_exp (𝔸 := ℝ) x
  rwa [← Real.exp_eq_exp_ℝ] at this

theorem tail_hasSum (x : ℝ) : HasSum (fun n : ℕ => x ^ (n + 3) / ((n + 3) ! : ℝ)) (tail x) := by
  have := (hasSum_nat_add_iff' 3).mpr (real_exp_hasSum x)
  have e : Real.exp x - ∑ i ∈ Finset.range 3, x ^ i / (i ! : ℝ) = tail x := by
    simp [Finset.sum_range_succ, tail, Nat.factorial]; ring
  rwa [e] at this

theorem tail_nonneg {x : ℝ} (hx : 0 ≤ x) : 0 ≤ tail x :=
  (tail_hasSum x).nonneg fun n => by positivity

theorem tail_le {x : ℝ} (hx : 0 ≤ x) : tail x ≤ x ^ 3 / 6 * Real.exp x := by
  refine hasSum_le (fun n => ?_) (tail_hasSum x) ((real_exp_hasSum x).mul_left (x ^ 3 / 6))
  have h1 : (6 * n ! : ℕ) ≤ (n + 3) ! := by
    have : (n + 3)! = (n + 3) * ((n + 2) * ((n + 1) * n !)) := by simp [Nat.factorial_succ]
    rw [this]
    nlinarith [Nat.factorial_pos n, Nat.zero_le n, Nat.zero_le (n * n !), Nat.zero_le (n * n * n !), Nat.zero_le (n * n * n * n !)]
  have h2 : (6 * (n ! : ℝ)) ≤ ((n + 3) ! : ℝ) := by exact_mod_cast h1
  have h3 : (0 : ℝ) < n ! := by exact_mod_cast Nat.factorial_pos n
  calc x ^ (n + 3) / ((n + 3) ! : ℝ) ≤ x ^ (n + 3) / (6 * n !) := by gcongr
    _ = _ := by rw [pow_add]; field_simp

theorem exp_sub_le {x : ℝ} (hx : 0 ≤ x) : Real.exp x - 1 ≤ x * Real.exp x := by
  have := Real.add_one_le_exp (-x)
  have h2 : Real.exp (-x) * Real.exp x = 1 := by rw [← Real.exp_add]; simp
  nlinarith [Real.exp_pos x]

theorem tail_one_le {x : ℝ} (hx : 0 ≤ x) : tail x + x ^ 2 / 2 ≤ x ^ 2 * Real.exp x := by
  have h1 := exp_sub_le hx
  have h2 := Real.add_one_le_exp x
  unfold tail
  have h3 : Real.exp x - 1 - x ≤ x * (Real.exp x - 1) := by linarith
  nlinarith

namespace Maj
variable {F G X X' Y Y' : 𝔸} {x y : ℝ}

theorem nonneg (h : Maj F X Y x) : 0 ≤ x := (norm_nonneg _).trans h.one

theorem sub_one_sub (h : Maj F X Y x) : ‖F - 1 - X‖ ≤ tail x + x ^ 2 / 2 := by
  have : F - 1 - X = (F - 1 - X - Y) + Y := by abel
  rw [this]
  exact (norm_add_le _ _).trans (add_le_add h.rest h.two)

theorem sub_one (h : Maj F X Y x) : ‖F - 1‖ ≤ Real.exp x - 1 := by
  have : F - 1 = (F - 1 - X) + X := by abel
  rw [this]
  refine (norm_add_le _ _).trans ((add_le_add h.sub_one_sub h.one).trans (le_of_eq ?_))
  unfold tail; ring

theorem norm_le (h : Maj F X Y x) : ‖F‖ ≤ Real.exp x := by
  have : F = (F - 1) + 1 := by abel
  rw [this]
  refine (norm_add_le _ _).trans ?_
  rw [norm_one]
  linarith [h.sub_one]

theorem mul (h : Maj F X Y x) (h' : Maj G X' Y' y) : Maj (F * G) (X + X') (Y + Y' + X * X') (x + y) := by
  have hx := h.nonneg
  have hy := h'.nonneg
  refine ⟨(norm_add_le _ _).trans (add_le_add h.one h'.one), ?_, ?_⟩
  · calc ‖Y + Y' + X * X'‖ ≤ ‖Y‖ + ‖Y'‖ + ‖X‖ * ‖X'‖ := (norm_add_le _ _).trans (add_le_add (norm_add_le _ _) (norm_mul_le _ _))
      _ ≤ x ^ 2 / 2 + y ^ 2 / 2 + x * y := add_le_add (add_le_add h.two h'.two) (mul_le_mul h.one h'.one (norm_nonneg _) hx)
      _ = _ := by ring
  · have e : F * G - 1 - (X + X') - (Y + Y' + X * X') =
        X * Y' + Y * X' + Y * Y' + (F - 1 - X - Y) * G + (1 + X + Y) * (G - 1 - X' - Y') := by noncomm_ring
    have h1 : ‖X * Y'‖ ≤ x * (y ^ 2 / 2) := (norm_mul_le _ _).trans (mul_le_mul h.one h'.two (norm_nonneg _) hx)
    have h2 : ‖Y * X'‖ ≤ x ^ 2 / 2 * y := (norm_mul_le _ _).trans (mul_le_mul h.two h'.one (norm_nonneg _) (by positivity))
    have h3 : ‖Y * Y'‖ ≤ x ^ 2 / 2 * (y ^ 2 / 2) := (norm_mul_le _ _).trans (mul_le_mul h.two h'.two (norm_nonneg _) (by positivity))
    have h4 : ‖(F - 1 - X - Y) * G‖ ≤ tail x * Real.exp y :=
      (norm_mul_le _ _).trans (mul_le_mul h.rest h'.norm_le (norm_nonneg _) (tail_nonneg hx))
    have h5 : ‖(1 + X + Y) * (G - 1 - X' - Y')‖ ≤ (1 + x + x ^ 2 / 2) * tail y := by
      refine (norm_mul_le _ _).trans (mul_le_mul ?_ h'.rest (norm_nonneg _) (by positivity))
      refine (norm_add_le _ _).trans (add_le_add ((norm_add_le _ _).trans ?_) h.two)
      rw [norm_one]; linarith [h.one]
    rw [e]
    have h6 : ‖X * Y' + Y * X' + Y * Y' + (F - 1 - X - Y) * G + (1 + X + Y) * (G - 1 - X' - Y')‖ ≤
        ‖X * Y'‖ + ‖Y * X'‖ + ‖Y * Y'‖ + ‖(F - 1 - X - Y) * G‖ + ‖(1 + X + Y) * (G - 1 - X' - Y')‖ :=
      (norm_add_le _ _).trans (add_le_add_left ((norm_add_le _ _).trans (add_le_add_left ((norm_add_le _ _).trans
        (add_le_add_left (norm_add_le _ _) _)) _)) _)
    refine h6.trans ((add_le_add (add_le_add (add_le_add (add_le_add h1 h2) h3) h4) h5).trans (le_of_eq ?_))
    unfold tail
    rw [Real.exp_add]
    ring

theorem id : Maj (1 : 𝔸) 0 0 0 := ⟨by simp, by simp, by simp [tail]⟩

theorem exp {X : 𝔸} {x : ℝ} (h : ‖X‖ ≤ x) : Maj (exp X) X ((1 / 2 : ℝ) • (X * X)) x := by
  have hx : 0 ≤ x := (norm_nonneg _).trans h
  refine ⟨h, ?_, ?_⟩
  · rw [norm_smul]
    have := (norm_mul_le X X).trans (mul_le_mul h h (norm_nonneg _) hx)
    norm_num
    linarith
  · have hs := (hasSum_nat_add_iff' 3).mpr (exp_series_hasSum_exp' (𝕂 := ℝ) X)
    have e : NormedSpace.exp X - ∑ i ∈ Finset.range 3, ((i ! : ℝ)⁻¹) • X ^ i = NormedSpace.exp X - 1 - X - (1 / 2 : ℝ) • (X * X) := by
      simp [Finset.sum_range_succ, Nat.factorial, sq]; abel
    rw [e] at hs
    refine hs.norm_le_of_bounded (tail_hasSum x) fun n => ?_
    rw [norm_smul, norm_inv, Real.norm_natCast, div_eq_inv_mul]
    gcongr
    exact (norm_pow_le' _ (by omega)).trans (pow_le_pow_left₀ (norm_nonneg _) h _)

/-- A small perturbation. -/
theorem perturb (h : Maj F X Y x) (hG : ‖G - F‖ ≤ x ^ 3) : Maj G X Y (2 * x) := by
  have hx := h.nonneg
  refine ⟨h.one.trans (by linarith), h.two.trans (by nlinarith), ?_⟩
  have e : G - 1 - X - Y = (G - F) + (F - 1 - X - Y) := by abel
  rw [e]
  refine (norm_add_le _ _).trans ((add_le_add hG h.rest).trans ?_)
  have h1 := (tail_hasSum x).add (hasSum_ite_eq (0 : ℕ) (x ^ 3))
  rw [add_comm]
  refine hasSum_le (fun n => ?_) h1 (tail_hasSum (2 * x))
  by_cases hn : n = 0
  · subst hn
    simp [Nat.factorial]
    nlinarith [pow_nonneg hx 3]
  · rw [if_neg hn, add_zero]
    gcongr
    linarith
end Maj

theorem exp_add_smul (X : 𝔸) (s t : ℝ) : exp ((s + t) • X) = exp (s • X) * exp (t • X) := by
  let _ : NormedAlgebra ℚ 𝔸 := NormedAlgebra.restrictScalars ℚ ℝ 𝔸
  rw [add_smul]
  exact exp_add_of_commute ((Commute.refl X).smul_left s |>.smul_right t)

theorem norm_exp_le {X : 𝔸} {x : ℝ} (h : ‖X‖ ≤ x) : ‖exp X‖ ≤ Real.exp x := (Maj.exp h).norm_le

theorem norm_exp_sub_one_le {X : 𝔸} {x : ℝ} (h : ‖X‖ ≤ x) : ‖exp X - 1‖ ≤ x * Real.exp x :=
  (Maj.exp h).sub_one.trans (exp_sub_le ((norm_nonneg _).trans h))

/-! ## The differential equation `V' = P V` -/

/-- `V` solves `V' = P V` on `[a, b]`. -/
def Sol (P V : ℝ → 𝔸) (a b : ℝ) : Prop := ∀ t ∈ Icc a b, HasDerivWithinAt V (P t * V t) (Icc a b) t

section
variable {P V : ℝ → 𝔸} {a b c m k M B δ : ℝ} {Q : 𝔸}

theorem Sol.cont (h : Sol P V a b) : ContinuousOn V (Icc a b) := fun t ht => (h t ht).continuousWithinAt

theorem Sol.mono (h : Sol P V a b) {a' b' : ℝ} (ha : a ≤ a') (hb : b' ≤ b) : Sol P V a' b' :=
  fun t ht => (h t ⟨ha.trans ht.1, ht.2.trans hb⟩).mono (Icc_subset_Icc ha hb)

theorem Sol.growth (h : Sol P V a b) (hP : ∀ t ∈ Icc a b, ‖P t‖ ≤ M) {t : ℝ} (ht : t ∈ Icc a b) :
    ‖V t‖ ≤ Real.exp (M * (t - a)) * ‖V a‖ := by
  have := norm_le_gronwallBound_of_norm_deriv_right_le (f := V) (f' := fun t => P t * V t) (δ := ‖V a‖) (K := M) (ε := 0) (a := a) (b := b)
    h.cont (fun t ht => (h t ⟨ht.1, ht.2.le⟩).mono_of_mem_nhdsWithin (Icc_mem_nhdsGE_of_mem ht)) le_rfl
    (fun t ht => by
      rw [add_zero]
      exact (norm_mul_le _ _).trans (mul_le_mul_of_nonneg_right (hP t ⟨ht.1, ht.2.le⟩) (norm_nonneg _))) t ht
  rw [gronwallBound_ε0] at this
  rwa [mul_comm] at this

theorem factor_deriv (Q : 𝔸) (m : ℝ) (h : Sol P V a b) {t : ℝ} (ht : t ∈ Icc a b) :
    HasDerivWithinAt (fun t => exp (-(t - m) • Q) * V t) (exp (-(t - m) • Q) * ((P t - Q) * V t)) (Icc a b) t := by
  have h1 : HasDerivAt (fun u : ℝ => exp (u • Q)) (exp (-(t - m) • Q) * Q) (-(t - m)) :=
    hasDerivAt_exp_smul_const (𝕂 := ℝ) Q _
  have h2 : HasDerivAt (fun t : ℝ => -(t - m)) (-1) t := ((hasDerivAt_id t).sub_const m).neg
  have h3 := (h1.scomp t h2).hasDerivWithinAt (s := Icc a b)
  refine (h3.mul (h t ht)).congr_deriv ?_
  simp only [Function.comp]
  rw [neg_one_smul]
  noncomm_ring

/-- First order estimate on one (part of a) cell around `m`. -/
theorem local_one (h : Sol P V a b) (hab : a ≤ b) (hQ : ‖Q‖ ≤ M) (hk : ∀ t ∈ Icc a b, |t - m| ≤ k) (hP : ∀ t ∈ Icc a b, ‖P t - Q‖ ≤ δ)
    (hV : ∀ t ∈ Icc a b, ‖V t‖ ≤ B) :
    ‖exp (-(b - m) • Q) * V b - exp (-(a - m) • Q) * V a‖ ≤ Real.exp (M * k) * (δ * B) * (b - a) := by
  have hM : 0 ≤ M := (norm_nonneg _).trans hQ
  have key := (convex_Icc a b).norm_image_sub_le_of_norm_hasDerivWithin_le (f := fun t => exp (-(t - m) • Q) * V t)
    (f' := fun t => exp (-(t - m) • Q) * ((P t - Q) * V t)) (C := Real.exp (M * k) * (δ * B))
    (fun t ht => factor_deriv Q m h ht) (fun t ht => ?_) (left_mem_Icc.mpr hab) (right_mem_Icc.mpr hab)
  · rw [Real.norm_eq_abs, abs_of_nonneg (by linarith)] at key
    exact key
  · have hδ : 0 ≤ δ := (norm_nonneg _).trans (hP t ht)
    refine (norm_mul_le _ _).trans (mul_le_mul (norm_exp_le ?_) ((norm_mul_le _ _).trans (mul_le_mul (hP t ht) (hV t ht) (norm_nonneg _) hδ))
      (norm_nonneg _) (Real.exp_pos _).le)
    rw [norm_smul, Real.norm_eq_abs, abs_neg, mul_comm]
    exact mul_le_mul hQ (hk t ht) (abs_nonneg _) hM

/-- Second order estimate on the cell `[m-k, m+k]`. -/
theorem local_two {L K1 : ℝ} {P1 : 𝔸} (hk : 0 ≤ k) (h : Sol P V (m - k) (m + k)) (hQ : ‖Q‖ ≤ M) (hPM : ∀ t ∈ Icc (m - k) (m + k), ‖P t‖ ≤ M)
    (hP : ∀ t ∈ Icc (m - k) (m + k), ‖P t - Q - (t - m) • P1‖ ≤ L * (t - m) ^ 2) (hL : 0 ≤ L) (hP1 : ‖P1‖ ≤ K1)
    (hV : ∀ t ∈ Icc (m - k) (m + k), ‖V t‖ ≤ B) :
    ‖V (m + k) - exp ((2 * k) • Q) * V (m - k)‖ ≤ Real.exp (2 * (M * k)) * ((L + 2 * K1 * M) * k ^ 2 * B) * (2 * k) := by
  have hM : 0 ≤ M := (norm_nonneg _).trans hQ
  have hK : 0 ≤ K1 := (norm_nonneg _).trans hP1
  have hm : m ∈ Icc (m - k) (m + k) := ⟨by linarith, by linarith⟩
  have hB : 0 ≤ B := (norm_nonneg _).trans (hV m hm)
  have ha : ∀ t ∈ Icc (m - k) (m + k), |t - m| ≤ k := fun t ht => by rw [abs_le]; exact ⟨by linarith [ht.1], by linarith [ht.2]⟩
  have hE : ∀ t ∈ Icc (m - k) (m + k), ‖-(t - m) • Q‖ ≤ M * k := by
    intro t ht
    rw [norm_smul, Real.norm_eq_abs, abs_neg, mul_comm]
    exact mul_le_mul hQ (ha t ht) (abs_nonneg _) hM
  have hVm : ∀ t ∈ Icc (m - k) (m + k), ‖V t - V m‖ ≤ M * B * k := by
    intro t ht
    have := (convex_Icc (m - k) (m + k)).norm_image_sub_le_of_norm_hasDerivWithin_le (f := V) (f' := fun t => P t * V t) (C := M * B)
      (fun t ht => h t ht) (fun t ht => (norm_mul_le _ _).trans (mul_le_mul (hPM t ht) (hV t ht) (norm_nonneg _) hM)) hm ht
    refine this.trans (mul_le_mul_of_nonneg_left ?_ (by positivity))
    exact ha t ht
  have key := (convex_Icc (m - k) (m + k)).norm_image_sub_le_of_norm_hasDerivWithin_le
    (f := fun t => exp (-(t - m) • Q) * V t - ((t - m) ^ 2 / 2) • (P1 * V m))
    (f' := fun t => exp (-(t - m) • Q) * ((P t - Q) * V t) - (t - m) • (P1 * V m)) (C := Real.exp (M * k) * ((L + 2 * K1 * M) * k ^ 2 * B))
    (fun t ht => ?_) (fun t ht => ?_) (x := m - k) (y := m + k) ⟨le_rfl, by linarith⟩ ⟨by linarith, le_rfl⟩
  · have e1 : (m + k - m) ^ 2 / 2 = (m - k - m) ^ 2 / 2 := by ring
    have e2 : -(m + k - m) = -k := by ring
    have e3 : -(m - k - m) = k := by ring
    have e4 : m + k - (m - k) = 2 * k := by ring
    rw [e1, e2, e3, e4, sub_sub_sub_cancel_right, Real.norm_eq_abs, abs_of_nonneg (by linarith)] at key
    have e5 : V (m + k) - exp ((2 * k) • Q) * V (m - k) = exp (k • Q) * (exp (-k • Q) * V (m + k) - exp (k • Q) * V (m - k)) := by
      rw [mul_sub, ← mul_assoc, ← mul_assoc, ← exp_add_smul, ← exp_add_smul, add_neg_cancel, zero_smul, NormedSpace.exp_zero, one_mul, two_mul]
    have hkQ : ‖k • Q‖ ≤ M * k := by
      rw [norm_smul, Real.norm_eq_abs, abs_of_nonneg hk, mul_comm]
      exact mul_le_mul_of_nonneg_right hQ hk
    rw [e5]
    refine (norm_mul_le _ _).trans ((mul_le_mul (norm_exp_le hkQ) key (norm_nonneg _) (Real.exp_pos _).le).trans (le_of_eq ?_))
    rw [two_mul (M * k), Real.exp_add]; ring
  · have h1 : HasDerivAt (fun t : ℝ => (t - m) ^ 2 / 2) (t - m) t := by
      have := (((hasDerivAt_id t).sub_const m).pow 2).div_const 2
      refine this.congr_deriv ?_
      simp
    exact (factor_deriv Q m h ht).sub (h1.smul_const (P1 * V m)).hasDerivWithinAt
  · have e : exp (-(t - m) • Q) * ((P t - Q) * V t) - (t - m) • (P1 * V m) =
        exp (-(t - m) • Q) * ((P t - Q - (t - m) • P1) * V t) + (t - m) • ((exp (-(t - m) • Q) - 1) * (P1 * V t) + P1 * (V t - V m)) := by
      simp only [sub_mul, mul_sub, smul_add, smul_sub, smul_mul_assoc, mul_smul_comm, one_mul]
      abel
    have hE1 := norm_exp_le (hE t ht)
    have hE2 := norm_exp_sub_one_le (hE t ht)
    have hexp : 1 ≤ Real.exp (M * k) := Real.one_le_exp (by positivity)
    have hsq : (t - m) ^ 2 ≤ k ^ 2 := by rw [← sq_abs]; exact pow_le_pow_left₀ (abs_nonneg _) (ha t ht) 2
    rw [e]
    have n1 : ‖exp (-(t - m) • Q) * ((P t - Q - (t - m) • P1) * V t)‖ ≤ Real.exp (M * k) * (L * k ^ 2 * B) := by
      refine (norm_mul_le _ _).trans (mul_le_mul hE1 ((norm_mul_le _ _).trans (mul_le_mul ((hP t ht).trans ?_) (hV t ht) (norm_nonneg _) (by positivity)))
        (norm_nonneg _) (Real.exp_pos _).le)
      exact mul_le_mul_of_nonneg_left hsq hL
    have n2 : ‖(exp (-(t - m) • Q) - 1) * (P1 * V t) + P1 * (V t - V m)‖ ≤ M * k * Real.exp (M * k) * (K1 * B) + K1 * (M * B * k) := by
      refine (norm_add_le _ _).trans (add_le_add ?_ ?_)
      · exact (norm_mul_le _ _).trans (mul_le_mul hE2 ((norm_mul_le _ _).trans (mul_le_mul hP1 (hV t ht) (norm_nonneg _) hK)) (norm_nonneg _) (by positivity))
      · exact (norm_mul_le _ _).trans (mul_le_mul hP1 (hVm t ht) (norm_nonneg _) hK)
    have n3 : ‖(t - m) • ((exp (-(t - m) • Q) - 1) * (P1 * V t) + P1 * (V t - V m))‖ ≤
        k * (M * k * Real.exp (M * k) * (K1 * B) + K1 * (M * B * k)) := by
      rw [norm_smul, Real.norm_eq_abs]
      exact mul_le_mul (ha t ht) n2 (norm_nonneg _) hk
    refine (norm_add_le _ _).trans ((add_le_add n1 n3).trans ?_)
    have : 0 ≤ K1 * M * B * k ^ 2 := by positivity
    nlinarith [mul_le_mul_of_nonneg_left hexp this]

/-! ## Existence of solutions -/

theorem Sol.glue {V2 : ℝ → 𝔸} (h1 : Sol P V a c) (h2 : Sol P V2 c b) (hac : a ≤ c) (hcb : c ≤ b) (hc : V c = V2 c) :
    Sol P (fun t => if t ≤ c then V t else V2 t) a b := by
  intro t ht
  have hU : Icc a b = Icc a c ∪ Icc c b := (Icc_union_Icc_eq_Icc hac hcb).symm
  have e1 : ∀ t ∈ Icc a c, (if t ≤ c then V t else V2 t) = V t := fun t ht => if_pos ht.2
  have e2 : ∀ t ∈ Icc c b, (if t ≤ c then V t else V2 t) = V2 t := by
    intro t ht
    rcases eq_or_lt_of_le ht.1 with rfl | hlt
    · rw [if_pos le_rfl, hc]
    · rw [if_neg (not_le.mpr hlt)]
  rcases lt_trichotomy t c with hlt | rfl | hlt
  · have ht1 : t ∈ Icc a c := ⟨ht.1, hlt.le⟩
    have := ((h1 t ht1).congr e1 (e1 t ht1))
    refine HasDerivWithinAt.congr_deriv ?_ (congrArg (P t * ·) (e1 t ht1).symm)
    refine this.mono_of_mem_nhdsWithin ?_
    rw [mem_nhdsWithin]
    exact ⟨Iio c, isOpen_Iio, hlt, fun u hu => ⟨hu.2.1, (le_of_lt hu.1)⟩⟩
  · have ht1 : t ∈ Icc a t := ⟨ht.1, le_rfl⟩
    have ht2 : t ∈ Icc t b := ⟨le_rfl, ht.2⟩
    have k1 := ((h1 t ht1).congr e1 (e1 t ht1))
    have k2 := ((h2 t ht2).congr e2 (e2 t ht2))
    rw [hU]
    refine HasDerivWithinAt.union ?_ ?_
    · exact k1.congr_deriv (congrArg (P t * ·) (e1 t ht1).symm)
    · exact k2.congr_deriv (congrArg (P t * ·) (e2 t ht2).symm)
  · have ht2 : t ∈ Icc c b := ⟨hlt.le, ht.2⟩
    have := ((h2 t ht2).congr e2 (e2 t ht2))
    refine HasDerivWithinAt.congr_deriv ?_ (congrArg (P t * ·) (e2 t ht2).symm)
    refine this.mono_of_mem_nhdsWithin ?_
    rw [mem_nhdsWithin]
    exact ⟨Ioi c, isOpen_Ioi, hlt, fun u hu => ⟨le_of_lt hu.1, hu.2.2⟩⟩

theorem exists_short (hab : a ≤ b) (hM : 0 ≤ M) (hP : ContinuousOn P (Icc a b)) (hPM : ∀ t ∈ Icc a b, ‖P t‖ ≤ M) (hl : 2 * M * (b - a) ≤ 1) (V0 : 𝔸) :
    ∃ V, V a = V0 ∧ Sol P V a b := by
  let A : ℝ≥0 := ⟨‖V0‖ + 1, by positivity⟩
  let M' : ℝ≥0 := ⟨M, hM⟩
  have hpl : IsPicardLindelof (fun t x => P t * x) (tmin := a) (tmax := b) ⟨a, left_mem_Icc.mpr hab⟩ V0 A 0 (M' * (2 * A)) M' := by
    refine ⟨fun t ht => ?_, fun x _ => ?_, fun t ht x hx => ?_, ?_⟩
    · refine LipschitzOnWith.of_dist_le_mul fun x _ y _ => ?_
      rw [dist_eq_norm, dist_eq_norm, ← mul_sub]
      exact (norm_mul_le _ _).trans (mul_le_mul_of_nonneg_right (hPM t ht) (norm_nonneg _))
    · exact hP.mul continuousOn_const
    · refine (norm_mul_le _ _).trans ?_
      have hx2 : ‖x‖ ≤ 2 * (‖V0‖ + 1) := by
        rw [Metric.mem_closedBall, dist_eq_norm] at hx
        have hx' : ‖x - V0‖ ≤ ‖V0‖ + 1 := hx
        have := norm_add_le (x - V0) V0
        rw [sub_add_cancel] at this
        linarith [norm_nonneg V0]
      exact mul_le_mul (hPM t ht) hx2 (norm_nonneg _) hM
    · have : max (b - a) (a - a) = b - a := by rw [sub_self]; exact max_eq_left (by linarith)
      change M * (2 * (‖V0‖ + 1)) * max (b - a) (a - a) ≤ (‖V0‖ + 1) - 0
      rw [this]
      nlinarith [norm_nonneg V0]
  obtain ⟨V, h1, h2⟩ := hpl.exists_eq_forall_mem_Icc_hasDerivWithinAt₀
  exact ⟨V, h1, h2⟩

theorem exists_sol (hab : a ≤ b) (hP : ContinuousOn P (Icc a b)) (V0 : 𝔸) : ∃ V, V a = V0 ∧ Sol P V a b := by
  obtain ⟨M, hM⟩ := isCompact_Icc.exists_bound_of_continuousOn hP
  have hM' : ∀ t ∈ Icc a b, ‖P t‖ ≤ |M| + 1 := fun t ht => (hM t ht).trans (by linarith [le_abs_self M])
  have hp : 0 < |M| + 1 := by positivity
  have key : ∀ n : ℕ, ∀ c, a ≤ c → c ≤ b → 2 * (|M| + 1) * (c - a) ≤ n → ∃ V, V a = V0 ∧ Sol P V a c := by
    intro n
    induction n with
    | zero =>
      intro c hac hcb hc
      rw [Nat.cast_zero] at hc
      exact exists_short hac hp.le (hP.mono (Icc_subset_Icc le_rfl hcb)) (fun t ht => hM' t ⟨ht.1, ht.2.trans hcb⟩) (by linarith) V0
    | succ n ih =>
      intro c hac hcb hc
      let d := max a (c - 1 / (2 * (|M| + 1)))
      have hd1 : a ≤ d := le_max_left _ _
      have hd2 : d ≤ c := max_le hac (by have : 0 < 1 / (2 * (|M| + 1)) := by positivity
                                         linarith)
      have hd3 : 2 * (|M| + 1) * (c - d) ≤ 1 := by
        have : c - d ≤ 1 / (2 * (|M| + 1)) := by have := le_max_right a (c - 1 / (2 * (|M| + 1))); linarith
        calc 2 * (|M| + 1) * (c - d) ≤ 2 * (|M| + 1) * (1 / (2 * (|M| + 1))) := by gcongr
          _ = 1 := by field_simp
      have hd4 : 2 * (|M| + 1) * (d - a) ≤ n := by
        rcases max_choice a (c - 1 / (2 * (|M| + 1))) with e | e
        · have : d = a := e
          rw [this, sub_self, mul_zero]; positivity
        · have : d = c - 1 / (2 * (|M| + 1)) := e
          rw [this]
          push_cast at hc
          have : 2 * (|M| + 1) * (c - 1 / (2 * (|M| + 1)) - a) = 2 * (|M| + 1) * (c - a) - 1 := by field_simp; ring
          rw [this]; linarith
      obtain ⟨V1, h1, h2⟩ := ih d hd1 (hd2.trans hcb) hd4
      obtain ⟨V2, h3, h4⟩ := exists_short hd2 hp.le (hP.mono (Icc_subset_Icc hd1 hcb)) (fun t ht => hM' t ⟨hd1.trans ht.1, ht.2.trans hcb⟩) hd3 (V1 d)
      exact ⟨_, (if_pos hd1).trans h1, h2.glue h4 hd1 hd2 h3.symm⟩
  obtain ⟨n, hn⟩ := exists_nat_ge (2 * (|M| + 1) * (b - a))
  exact key n b hab le_rfl hn
end

/-! ## One-step methods -/

theorem global {x w U : ℕ → 𝔸} {τ : ℕ → ℝ} {g : ℝ} (hg : 1 ≤ g) {N : ℕ} (hw : ∀ n < N, w (n + 1) = U n * w n) (hU : ∀ n < N, ‖U n‖ ≤ g)
    (hx : ∀ n < N, ‖x (n + 1) - U n * x n‖ ≤ τ n) (h0 : w 0 = x 0) : ‖w N - x N‖ ≤ g ^ N * ∑ n ∈ Finset.range N, τ n := by
  induction N with
  | zero => simp [h0]
  | succ N ih =>
    have ih := ih (fun n hn => hw n (by omega)) (fun n hn => hU n (by omega)) (fun n hn => hx n (by omega))
    have hτ : ∀ n < N + 1, 0 ≤ τ n := fun n hn => (norm_nonneg _).trans (hx n hn)
    have e : w (N + 1) - x (N + 1) = U N * (w N - x N) - (x (N + 1) - U N * x N) := by
      rw [hw N (by omega), mul_sub]; abel
    rw [e, Finset.sum_range_succ]
    have hs : 0 ≤ ∑ n ∈ Finset.range N, τ n := Finset.sum_nonneg fun n hn => hτ n (by have := Finset.mem_range.mp hn; omega)
    calc ‖U N * (w N - x N) - (x (N + 1) - U N * x N)‖ ≤ ‖U N‖ * ‖w N - x N‖ + ‖x (N + 1) - U N * x N‖ :=
          (norm_sub_le _ _).trans (add_le_add_left (norm_mul_le _ _) _)
      _ ≤ g * (g ^ N * ∑ n ∈ Finset.range N, τ n) + 1 * τ N := by
          rw [one_mul]
          exact add_le_add (mul_le_mul (hU N (by omega)) ih (norm_nonneg _) (by linarith)) (hx N (by omega))
      _ ≤ g * (g ^ N * ∑ n ∈ Finset.range N, τ n) + g ^ (N + 1) * τ N :=
          add_le_add_right (mul_le_mul_of_nonneg_right (one_le_pow₀ hg) (hτ N (by omega))) _
      _ = _ := by ring
end FNFT.Conv

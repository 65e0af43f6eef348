import Verif.Proofs.ExpS
import Mathlib.Analysis.SpecialFunctions.Pow.Deriv
import Mathlib.Analysis.SpecialFunctions.Trigonometric.Deriv
import Mathlib.Analysis.SpecialFunctions.Complex.LogDeriv
/-!
# Derivative of the cardinal sine, and of the matrix exponential of traceless matrices
-/
namespace FNFT
open Complex

/-! ## `misc_CSINC_derivative` -/

/-- Derivative of `csinc` away from 0. -/
noncomputable def csincD (x : ℂ) : ℂ := (cos x - csinc x) / x

noncomputable def csd (n : ℕ) : ℝ := 1 / ((2 * n).factorial : ℝ) - 1 / ((2 * n + 1).factorial : ℝ)

theorem csd_eq (n : ℕ) : csd n = 2 * n / ((2 * n + 1).factorial : ℝ) := by
  rw [csd, Nat.factorial_succ]
  have : ((2 * n).factorial : ℝ) ≠ 0 := by positivity
  push_cast
  field_simp
  ring

theorem csd_bound (n : ℕ) : csd (n + 10) ≤ 20 / 51090942171709440000 * (1 / 100) ^ n := by
  induction n with
  | zero => rw [csd_eq]; norm_num [Nat.factorial]
  | succ n ih =>
    have h : csd (n + 1 + 10) ≤ csd (n + 10) * (1 / 100) := by
      rw [csd_eq, csd_eq, show 2 * (n + 1 + 10) + 1 = (2 * (n + 10) + 1) + 1 + 1 by ring, Nat.factorial_succ, Nat.factorial_succ]
      have hp : (0 : ℝ) < ((2 * (n + 10) + 1).factorial : ℝ) := Nat.cast_pos.mpr (Nat.factorial_pos _)
      rw [Nat.cast_mul, Nat.cast_mul]
      generalize ((2 * (n + 10) + 1).factorial : ℝ) = F at hp
      push_cast
      rw [div_le_iff₀ (by positivity)]
      have : (2 * ((n : ℝ) + 1 + 10)) ≤ 2 * (n + 10) / 100 * ((2 * (n + 10) + 1 + 1 + 1) * (2 * (n + 10) + 1 + 1)) := by
        nlinarith [Nat.cast_nonneg (α := ℝ) n, sq_nonneg (n : ℝ), mul_nonneg (Nat.cast_nonneg (α := ℝ) n) (sq_nonneg (n : ℝ))]
      calc (2 * ((n : ℝ) + 1 + 10)) ≤ 2 * (n + 10) / 100 * ((2 * (n + 10) + 1 + 1 + 1) * (2 * (n + 10) + 1 + 1)) := this
        _ = _ := by field_simp; ring
    calc _ ≤ csd (n + 10) * (1 / 100) := h
      _ ≤ 20 / 51090942171709440000 * (1 / 100) ^ n * (1 / 100) := by linarith
      _ = _ := by ring

theorem csd_nonneg (n : ℕ) : 0 ≤ csd n := by rw [csd_eq]; positivity

theorem cos_sub_csinc_hasSum (x : ℂ) : HasSum (fun n : ℕ => (-1) ^ n * x ^ (2 * n) * (csd n : ℂ)) (cos x - csinc x) := by
  refine ((Complex.hasSum_cos x).sub (csinc_hasSum x)).congr_fun fun n => ?_
  rw [csd]; push_cast; ring

/-- `misc_CSINC_derivative` has an error of less than `4e-19` (relative to `|x|` near 0). -/
theorem CSINC_derivative_near (x : ℂ) (hx : x ≠ 0) : ‖misc_CSINC_derivative x - csincD x‖ ≤ 4e-19 := by
  by_cases h : 1 ≤ ‖x‖
  · rw [misc_CSINC_derivative, if_pos h, misc_CSINC_eq (Or.inl (by norm_num at h ⊢; linarith)), csincD, sub_self, norm_zero]
    norm_num
  rw [misc_CSINC_derivative, if_neg h]
  push Not at h
  have hs := cos_sub_csinc_hasSum x
  have htail := (hasSum_nat_add_iff (f := fun n : ℕ => (-1) ^ n * x ^ (2 * n) * (csd n : ℂ)) 10).mpr
    (by simpa only [sub_add_cancel] using hs :
      HasSum (fun n : ℕ => (-1) ^ n * x ^ (2 * n) * (csd n : ℂ)) ((cos x - csinc x -
        ∑ i ∈ Finset.range 10, (-1) ^ i * x ^ (2 * i) * (csd i : ℂ)) + ∑ i ∈ Finset.range 10, (-1) ^ i * x ^ (2 * i) * (csd i : ℂ)))
  have hfin : ∑ i ∈ Finset.range 10, (-1) ^ i * x ^ (2 * i) * (csd i : ℂ) = csincDerivHorner (x * x) 9 * x * x := by
    simp only [Finset.sum_range_succ, Finset.sum_range_zero, csd, csincDerivHorner]
    norm_num [Nat.factorial]
    ring
  rw [hfin] at htail
  have hb : ‖cos x - csinc x - csincDerivHorner (x * x) 9 * x * x‖ ≤ 20 / 51090942171709440000 * ‖x‖ * (1 - 1 / 100)⁻¹ := by
    refine htail.norm_le_of_bounded ((hasSum_geometric_of_lt_one (by norm_num) (by norm_num : (1 / 100 : ℝ) < 1)).mul_left _) fun n => ?_
    rw [norm_mul, norm_mul, norm_pow, norm_pow, norm_neg, norm_one, one_pow, one_mul, norm_real, Real.norm_eq_abs,
      abs_of_nonneg (csd_nonneg _)]
    have h1 : ‖x‖ ^ (2 * (n + 10)) ≤ ‖x‖ := by
      calc ‖x‖ ^ (2 * (n + 10)) ≤ ‖x‖ ^ 1 := pow_le_pow_of_le_one (norm_nonneg _) h.le (by omega)
        _ = ‖x‖ := pow_one _
    calc _ ≤ ‖x‖ * (20 / 51090942171709440000 * (1 / 100) ^ n) :=
          mul_le_mul h1 (csd_bound n) (csd_nonneg _) (norm_nonneg _)
      _ = _ := by ring
  have hx0 : 0 < ‖x‖ := norm_pos_iff.mpr hx
  have e : csincDerivHorner (x * x) 9 * x - csincD x = -(cos x - csinc x - csincDerivHorner (x * x) 9 * x * x) / x := by
    rw [csincD]; field_simp; ring
  rw [e, norm_div, norm_neg, div_le_iff₀ hx0]
  refine hb.trans ?_
  norm_num
  nlinarith

/-! ## Derivatives of `cos √z` and `csinc √z` -/

/-- A differentiable square root near `z0 ≠ 0`. -/
theorem local_sqrt {z0 : ℂ} (hz : z0 ≠ 0) : ∃ s : ℂ → ℂ, s z0 = csqrt z0 ∧ (∀ z, s z ^ 2 = z) ∧
    HasDerivAt s (1 / (2 * csqrt z0)) z0 := by
  have hc : csqrt z0 ≠ 0 := by rw [Ne, csqrt_eq_zero]; exact hz
  refine ⟨fun z => csqrt z0 * csqrt (z / z0), ?_, ?_, ?_⟩
  · simp only [div_self hz]; simp [csqrt]
  · intro z
    rw [mul_pow, csqrt_sq, csqrt_sq]; field_simp
  · have h1 : HasDerivAt (fun z : ℂ => z / z0) (1 / z0) z0 := (hasDerivAt_id z0).div_const z0
    have h2 : HasDerivAt (fun z : ℂ => (z / z0) ^ ((1 : ℂ) / 2)) ((1 : ℂ) / 2 * (z0 / z0) ^ ((1 : ℂ) / 2 - 1) * (1 / z0)) z0 :=
      h1.cpow_const (by rw [div_self hz]; exact one_mem_slitPlane)
    have h3 := h2.const_mul (csqrt z0)
    have e : csqrt z0 * ((1 : ℂ) / 2 * (z0 / z0) ^ ((1 : ℂ) / 2 - 1) * (1 / z0)) = 1 / (2 * csqrt z0) := by
      rw [div_self hz, one_cpow]
      have := csqrt_sq z0
      field_simp
      linear_combination this
    rw [e] at h3
    exact h3

theorem csinc_hasDerivAt {x : ℂ} (hx : x ≠ 0) : HasDerivAt csinc (csincD x) x := by
  have h : HasDerivAt (fun y => sin y / y) ((cos x * x - sin x * 1) / x ^ 2) x := (hasDerivAt_sin x).div (hasDerivAt_id x) hx
  have e : csincD x = (cos x * x - sin x * 1) / x ^ 2 := by
    rw [csincD, csinc, if_neg hx]; field_simp
  rw [e]
  refine h.congr_of_eventuallyEq ?_
  filter_upwards [isOpen_ne.mem_nhds hx] with y hy
  exact if_neg hy

theorem csinc_sq {w v : ℂ} (h : w ^ 2 = v ^ 2) : csinc w = csinc v ∧ cos w = cos v := by
  rcases sq_eq_sq_iff_eq_or_eq_neg.mp h with h | h <;> rw [h]
  · exact ⟨rfl, rfl⟩
  · exact ⟨csinc_neg v, cos_neg v⟩

theorem cosq_hasDerivAt {f : ℂ → ℂ} {f' l w : ℂ} (hf : HasDerivAt f f' l) (h0 : f l ≠ 0) (hw : w ^ 2 = f l) :
    HasDerivAt (fun z => cos (csqrt (f z))) (-csinc w * (f' / 2)) l ∧
    HasDerivAt (fun z => csinc (csqrt (f z))) (csincD w * (f' / (2 * w))) l := by
  obtain ⟨s, s1, s2, s3⟩ := local_sqrt h0
  have hc : csqrt (f l) ≠ 0 := by rw [Ne, csqrt_eq_zero]; exact h0
  have hw0 : w ≠ 0 := by rintro rfl; apply h0; rw [← hw]; ring
  have e1 : (fun z => cos (csqrt (f z))) = fun z => cos (s (f z)) := by
    funext z; exact (csinc_sq (by rw [csqrt_sq, s2])).2
  have e2 : (fun z => csinc (csqrt (f z))) = fun z => csinc (s (f z)) := by
    funext z; exact (csinc_sq (by rw [csqrt_sq, s2])).1
  have hs : HasDerivAt (fun z => s (f z)) (1 / (2 * csqrt (f l)) * f') l := s3.comp l hf
  have hs1 : s (f l) = csqrt (f l) := s1
  have hww : csqrt (f l) = w ∨ csqrt (f l) = -w := sq_eq_sq_iff_eq_or_eq_neg.mp (by rw [csqrt_sq, hw])
  rw [e1, e2]
  constructor
  · have h := hs.ccos
    rw [hs1] at h
    have e : -sin (csqrt (f l)) * (1 / (2 * csqrt (f l)) * f') = -csinc w * (f' / 2) := by
      rw [csinc, if_neg hw0]
      rcases hww with h | h <;> rw [h]
      · field_simp
      · rw [sin_neg]; field_simp
    rwa [e] at h
  · have h := HasDerivAt.comp l (by rw [hs1]; exact csinc_hasDerivAt hc : HasDerivAt csinc (csincD (csqrt (f l))) (s (f l))) hs
    have e : csincD (csqrt (f l)) * (1 / (2 * csqrt (f l)) * f') = csincD w * (f' / (2 * w)) := by
      simp only [csincD]
      rcases hww with h | h <;> rw [h]
      · field_simp
      · rw [cos_neg, csinc_neg]; field_simp
    rw [e] at h
    exact h

end FNFT

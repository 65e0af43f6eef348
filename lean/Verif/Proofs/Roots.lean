import Mathlib.Analysis.SpecialFunctions.Complex.Log
import Mathlib.Analysis.SpecialFunctions.Trigonometric.Basic
import Mathlib.Tactic.FieldSimp
/-! Roots of unity used by the FFT. -/
namespace FNFT
open Complex

/-- Sign of the exponent: `-1` for the forward, `+1` for the inverse transform. -/
noncomputable def sgn (inv : Bool) : ℝ := if inv then 1 else -1

/-- `exp(±2πi/n)`. -/
noncomputable def zeta (n : ℕ) (inv : Bool) : ℂ := exp ((sgn inv * 2 * Real.pi : ℝ) * I / n)

theorem sgn_sq (inv : Bool) : sgn inv * sgn inv = 1 := by unfold sgn; split <;> norm_num

theorem zeta_pow (n : ℕ) (inv : Bool) (k : ℕ) :
    zeta n inv ^ k = exp ((sgn inv * 2 * Real.pi : ℝ) * I * k / n) := by
  rw [zeta, ← Complex.exp_nat_mul]; congr 1; ring

theorem zeta_ne_zero (n : ℕ) (inv : Bool) : zeta n inv ≠ 0 := Complex.exp_ne_zero _

theorem zeta_pow_self {n : ℕ} (hn : 0 < n) (inv : Bool) : zeta n inv ^ n = 1 := by
  have hn' : (n : ℂ) ≠ 0 := by exact_mod_cast hn.ne'
  rw [zeta_pow, mul_div_cancel_right₀ _ hn', Complex.exp_eq_one_iff]
  unfold sgn
  split
  · exact ⟨1, by push_cast; ring⟩
  · exact ⟨-1, by push_cast; ring⟩

theorem zeta_mul_pow {p k : ℕ} (hk : 0 < k) (inv : Bool) : zeta (p * k) inv ^ k = zeta p inv := by
  have hk' : (k : ℂ) ≠ 0 := by exact_mod_cast hk.ne'
  rw [zeta_pow, zeta]; congr 1
  push_cast
  rw [mul_div_mul_right _ _ hk']

theorem zeta_pow_mod {n : ℕ} (hn : 0 < n) (inv : Bool) {a b : ℕ} (h : a % n = b % n) :
    zeta n inv ^ a = zeta n inv ^ b := by
  rw [← Nat.div_add_mod a n, ← Nat.div_add_mod b n, h]
  simp [pow_add, pow_mul, zeta_pow_self hn]

theorem zeta_eq (n : ℕ) (inv : Bool) (k : ℕ) :
    zeta n inv ^ k = ⟨Real.cos (sgn inv * 2 * Real.pi * k / n),
      Real.sin (sgn inv * 2 * Real.pi * k / n)⟩ := by
  have h : zeta n inv ^ k = exp ((sgn inv * 2 * Real.pi * k / n : ℝ) * I) := by
    rw [zeta_pow]; congr 1; push_cast; ring
  rw [h]
  apply Complex.ext
  · rw [Complex.exp_ofReal_mul_I_re]
  · rw [Complex.exp_ofReal_mul_I_im]

theorem zeta_two (inv : Bool) : zeta 2 inv = -1 := by
  have h := zeta_eq 2 inv 1
  rw [pow_one] at h
  rw [h]
  have e2 : (-(2 * Real.pi) / 2) = -Real.pi := by ring
  cases inv <;> apply Complex.ext <;> simp [sgn, e2]

theorem zeta_four (inv : Bool) : zeta 4 inv = ⟨0, sgn inv⟩ := by
  have h := zeta_eq 4 inv 1
  rw [pow_one] at h
  rw [h]
  have e1 : (2 * Real.pi / 4) = Real.pi / 2 := by ring
  have e2 : (-(2 * Real.pi) / 4) = -(Real.pi / 2) := by ring
  cases inv
  · apply Complex.ext <;> simp [sgn, e2]
  · apply Complex.ext <;> simp [sgn, e1]

theorem zeta_three_re (inv : Bool) : (zeta 3 inv).re = -(1/2) := by
  have h := zeta_eq 3 inv 1
  rw [pow_one] at h
  rw [h]
  have e1 : (2 * Real.pi / 3) = Real.pi - Real.pi / 3 := by ring
  have e2 : (-(2 * Real.pi) / 3) = -(Real.pi - Real.pi / 3) := by ring
  cases inv
  · simp [sgn, e2, Real.cos_pi_div_three]
  · simp [sgn, e1, Real.cos_pi_sub, Real.cos_pi_div_three]

/-- `ζ^(n-k)` is the conjugate of `ζ^k`. -/
theorem zeta_conj {n : ℕ} (hn : 0 < n) (inv : Bool) {k l : ℕ} (h : k + l = n) :
    zeta n inv ^ l = ⟨(zeta n inv ^ k).re, -(zeta n inv ^ k).im⟩ := by
  have hn' : (n : ℝ) ≠ 0 := by exact_mod_cast hn.ne'
  have e : sgn inv * 2 * Real.pi * l / n = -(sgn inv * 2 * Real.pi * k / n) + sgn inv * (2 * Real.pi) := by
    have : (l : ℝ) = n - k := by rw [← h]; push_cast; ring
    rw [this]; field_simp; ring
  rw [zeta_eq, zeta_eq, e]
  cases inv
  · apply Complex.ext <;> simp [sgn, ← sub_eq_add_neg]
  · apply Complex.ext <;> simp [sgn]

end FNFT

import Verif.Proofs.ExpTo
import Mathlib.Analysis.Calculus.Deriv.Star
import Mathlib.Analysis.Calculus.Deriv.Mul
import Mathlib.Analysis.Calculus.Deriv.Add
import Mathlib.Analysis.Calculus.Deriv.Inv
import Mathlib.Tactic.FieldSimp
import Mathlib.Tactic.LinearCombination
/-!
# The Darboux transform of the Zakharov-Shabat system
-/
namespace FNFT
open Complex Filter Spec

local notation "conj" => starRingEnd ℂ

/-- `|v1|^2 + |v2|^2` -/
noncomputable def dN (v : ℂ × ℂ) : ℂ := v.1 * conj v.1 + v.2 * conj v.2

theorem dN_ofReal (v : ℂ × ℂ) : dN v = ((‖v.1‖ ^ 2 + ‖v.2‖ ^ 2 : ℝ) : ℂ) := by
  unfold dN
  rw [mul_conj', mul_conj']
  push_cast
  rfl

theorem dN_ne {v : ℂ × ℂ} (hv : v ≠ 0) : dN v ≠ 0 := by
  rw [dN_ofReal]
  intro h
  have h' : ‖v.1‖ ^ 2 + ‖v.2‖ ^ 2 = 0 := by exact_mod_cast h
  have h1 : ‖v.1‖ = 0 := by nlinarith [sq_nonneg ‖v.1‖, sq_nonneg ‖v.2‖]
  have h2 : ‖v.2‖ = 0 := by nlinarith [sq_nonneg ‖v.1‖, sq_nonneg ‖v.2‖]
  exact hv (Prod.ext (norm_eq_zero.mp h1) (norm_eq_zero.mp h2))

theorem dN_conj (v : ℂ × ℂ) : conj (dN v) = dN v := by
  unfold dN; simp only [map_add, map_mul, conj_conj]; ring

/-- The entry (1,1) of the Darboux matrix for the eigenvalue `m` and the solution `v`. -/
noncomputable def dS1 (m : ℂ) (v : ℂ × ℂ) : ℂ := (m * (v.1 * conj v.1) + conj m * (v.2 * conj v.2)) / dN v

/-- The entry (1,2). -/
noncomputable def dS2 (m : ℂ) (v : ℂ × ℂ) : ℂ := (m - conj m) * (v.1 * conj v.2) / dN v

theorem dS1_conj (m : ℂ) (v : ℂ × ℂ) : conj (dS1 m v) = (conj m * (v.1 * conj v.1) + m * (v.2 * conj v.2)) / dN v := by
  unfold dS1
  rw [map_div₀, dN_conj]
  simp only [map_add, map_mul, conj_conj]
  congr 1; ring

theorem dS2_conj (m : ℂ) (v : ℂ × ℂ) : conj (dS2 m v) = (conj m - m) * (v.2 * conj v.1) / dN v := by
  unfold dS2
  rw [map_div₀, dN_conj]
  simp only [map_sub, map_mul, conj_conj]
  congr 1; ring

/-- `(l - S) w` -/
noncomputable def dApp (l S1 S2 : ℂ) (w : ℂ × ℂ) : ℂ × ℂ := ((l - S1) * w.1 - S2 * w.2, conj S2 * w.1 + (l - conj S1) * w.2)

/-- The system at one point. -/
def ZSAt (q l : ℂ) (v : ℝ → ℂ × ℂ) (t : ℝ) : Prop :=
  HasDerivAt (fun t => (v t).1) (-I * l * (v t).1 + q * (v t).2) t ∧
    HasDerivAt (fun t => (v t).2) (-conj q * (v t).1 + I * l * (v t).2) t

theorem ZSAt.conj {q m : ℂ} {v : ℝ → ℂ × ℂ} {t : ℝ} (h : ZSAt q m v t) :
    HasDerivAt (fun t => conj (v t).1) (I * conj m * conj (v t).1 + conj q * conj (v t).2) t ∧
    HasDerivAt (fun t => conj (v t).2) (-q * conj (v t).1 - I * conj m * conj (v t).2) t := by
  have h1 := h.1.star
  have h2 := h.2.star
  simp only [star_def] at h1 h2
  refine ⟨HasDerivAt.congr_deriv h1 ?_, HasDerivAt.congr_deriv h2 ?_⟩
  · simp only [map_add, map_mul, map_neg, conj_I]; ring
  · simp only [map_add, map_mul, map_neg, conj_I, conj_conj]; ring

theorem ZSAt.dS {q m : ℂ} {v : ℝ → ℂ × ℂ} {t : ℝ} (h : ZSAt q m v t) (hv : v t ≠ 0) :
    HasDerivAt (fun t => dS1 m (v t)) (2 * I * (dS2 m (v t) * conj (dS2 m (v t))) - q * conj (dS2 m (v t)) + dS2 m (v t) * conj q) t ∧
    HasDerivAt (fun t => dS2 m (v t)) (-2 * I * dS2 m (v t) * conj (dS1 m (v t)) + q * (conj (dS1 m (v t)) - dS1 m (v t))) t := by
  have hN := dN_ne hv
  obtain ⟨c1, c2⟩ := h.conj
  have e1 := HasDerivAt.mul h.1 c1
  have e2 := HasDerivAt.mul h.2 c2
  have e3 := HasDerivAt.mul h.1 c2
  have eN := HasDerivAt.add e1 e2
  have n1 := HasDerivAt.add (HasDerivAt.const_mul m e1) (HasDerivAt.const_mul (conj m) e2)
  have n2 := HasDerivAt.const_mul (m - conj m) e3
  constructor
  · have := HasDerivAt.div n1 eN (by simpa [dN] using hN)
    refine HasDerivAt.congr_deriv (f' := _) (HasDerivAt.congr_of_eventuallyEq this (Eventually.of_forall fun s => ?_)) ?_
    · rfl
    · simp only [Pi.add_apply, Pi.mul_apply]
      rw [dS2_conj]
      unfold dS2
      unfold dN at hN ⊢
      field_simp
      ring
  · have := HasDerivAt.div n2 eN (by simpa [dN] using hN)
    refine HasDerivAt.congr_deriv (f' := _) (HasDerivAt.congr_of_eventuallyEq this (Eventually.of_forall fun s => ?_)) ?_
    · rfl
    · simp only [Pi.add_apply, Pi.mul_apply]
      rw [dS1_conj]
      unfold dS2 dS1
      unfold dN at hN ⊢
      field_simp
      ring

/-- The transform of a solution solves the system with the transformed potential. -/
theorem ZSAt.darboux {q m l : ℂ} {v w : ℝ → ℂ × ℂ} {t : ℝ} (h : ZSAt q m v t) (hv : v t ≠ 0) (hw : ZSAt q l w t) :
    ZSAt (q - 2 * I * dS2 m (v t)) l (fun t => dApp l (dS1 m (v t)) (dS2 m (v t)) (w t)) t := by
  obtain ⟨s1, s2⟩ := h.dS hv
  have s1c := s1.star
  have s2c := s2.star
  simp only [star_def] at s1c s2c
  constructor
  · have := HasDerivAt.sub (HasDerivAt.mul (HasDerivAt.const_sub l s1) hw.1) (HasDerivAt.mul s2 hw.2)
    refine HasDerivAt.congr_deriv this ?_
    unfold dApp
    simp only [map_sub, map_mul, conj_I]
    ring
  · have := HasDerivAt.add (HasDerivAt.mul s2c hw.1) (HasDerivAt.mul (HasDerivAt.const_sub l s1c) hw.2)
    refine HasDerivAt.congr_deriv this ?_
    unfold dApp
    simp only [map_sub, map_mul, map_add, map_neg, conj_I, conj_conj, map_ofNat]
    ring

theorem dApp_det (l m : ℂ) {v : ℂ × ℂ} (hv : v ≠ 0) :
    (l - dS1 m v) * (l - conj (dS1 m v)) + dS2 m v * conj (dS2 m v) = (l - m) * (l - conj m) := by
  have hN := dN_ne hv
  rw [dS1_conj, dS2_conj]
  unfold dS1 dS2
  unfold dN at hN ⊢
  field_simp
  ring

theorem dApp_wronski (l S1 S2 : ℂ) (w w' : ℂ × ℂ) :
    (dApp l S1 S2 w).1 * (dApp l S1 S2 w').2 - (dApp l S1 S2 w).2 * (dApp l S1 S2 w').1 =
      ((l - S1) * (l - conj S1) + S2 * conj S2) * (w.1 * w'.2 - w.2 * w'.1) := by
  unfold dApp; ring

/-- The solution itself is mapped to zero. -/
theorem dApp_kernel (m : ℂ) {v : ℂ × ℂ} (hv : v ≠ 0) : dApp m (dS1 m v) (dS2 m v) v = 0 := by
  have hN := dN_ne hv
  unfold dApp
  refine Prod.ext ?_ ?_
  · show (m - dS1 m v) * v.1 - dS2 m v * v.2 = 0
    unfold dS1 dS2
    unfold dN at hN ⊢
    field_simp
    ring
  · show conj (dS2 m v) * v.1 + (m - conj (dS1 m v)) * v.2 = 0
    rw [dS1_conj, dS2_conj]
    have e : (conj m - m) * (v.2 * conj v.1) / dN v * v.1 + (m - (conj m * (v.1 * conj v.1) + m * (v.2 * conj v.2)) / dN v) * v.2 =
        ((conj m - m) * (v.2 * conj v.1) * v.1 + m * v.2 * dN v - (conj m * (v.1 * conj v.1) + m * (v.2 * conj v.2)) * v.2) / dN v := by
      field_simp
      ring
    rw [e, div_eq_zero_iff]
    left
    unfold dN
    ring

theorem dApp_sub (l S1 S2 : ℂ) (w w' : ℂ × ℂ) (b : ℂ) :
    dApp l S1 S2 (w.1 - b * w'.1, w.2 - b * w'.2) =
      ((dApp l S1 S2 w).1 - b * (dApp l S1 S2 w').1, (dApp l S1 S2 w).2 - b * (dApp l S1 S2 w').2) := by
  unfold dApp
  refine Prod.ext ?_ ?_ <;> dsimp only <;> ring

end FNFT

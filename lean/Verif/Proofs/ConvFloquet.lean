import Verif.Spec.Floquet
import Verif.Spec.Nsep
import Verif.Proofs.ConvZS
import Mathlib.Analysis.Calculus.MeanValue
/-!
# Convergence of the numerical monodromy matrix
-/
set_option linter.unusedSectionVars false
set_option linter.unusedVariables false
namespace FNFT.Conv
open Set Complex
attribute [local instance] Matrix.linftyOpNormedRing
noncomputable local instance m2AlgebraF : NormedAlgebra ℂ Spec.M2 := Matrix.linftyOpNormedAlgebra

theorem Sol.entry {P V : ℝ → Spec.M2} {a b : ℝ} (h : Sol P V a b) (i j : Fin 2) (t : ℝ) (ht : t ∈ Icc a b) :
    HasDerivWithinAt (fun t => V t i j) ((P t * V t) i j) (Icc a b) t := by
  let f : Spec.M2 →ₗ[ℝ] ℂ := 
    { toFun := fun X => X i j, map_add' := fun _ _ => rfl, map_smul' := fun c X => by
        rw [← Complex.coe_smul]; simp }
  have hb : ∀ X : Spec.M2, ‖f X‖ ≤ 1 * ‖X‖ := fun X => by rw [one_mul]; exact entry_le X i j
  exact (f.mkContinuous 1 hb).hasFDerivAt.comp_hasDerivWithinAt t (h t ht)

theorem m2_eq (X : Spec.M2) : X = X 0 0 • !![1, 0; 0, 0] + X 0 1 • !![0, 1; 0, 0] + X 1 0 • !![0, 0; 1, 0] + X 1 1 • !![0, 0; 0, 1] := by
  ext i j; fin_cases i <;> fin_cases j <;> simp

theorem sol_of_entries {P V : ℝ → Spec.M2} {a b : ℝ} (h : ∀ t ∈ Icc a b, ∀ i j, HasDerivWithinAt (fun t => V t i j) ((P t * V t) i j) (Icc a b) t) : Sol P V a b := by
  intro t ht
  have key := ((((h t ht 0 0).smul_const (!![1, 0; 0, 0] : Spec.M2)).add ((h t ht 0 1).smul_const (!![0, 1; 0, 0] : Spec.M2))).add
    ((h t ht 1 0).smul_const (!![0, 0; 1, 0] : Spec.M2))).add ((h t ht 1 1).smul_const (!![0, 0; 0, 1] : Spec.M2))
  rw [← m2_eq (P t * V t)] at key
  exact key.congr (fun s _ => m2_eq (V s)) (m2_eq (V t))

theorem monodromy_sol {q r : ℝ → ℂ} {t0 T : ℝ} {l : ℂ} {M : Spec.M2} (h : Spec.Monodromy q r t0 T l M) :
    ∃ X, Sol (fun t => Spec.aknsP (q t) (r t) l) X t0 (t0 + T) ∧ X t0 = 1 ∧ X (t0 + T) = M := by
  obtain ⟨X, h1, h2, h3⟩ := h
  refine ⟨X, sol_of_entries fun t ht i j => ?_, h2, h3⟩
  obtain ⟨d0, d1⟩ := h1 t ht j
  rw [Matrix.mul_apply, Fin.sum_univ_two]
  fin_cases i
  · simpa [Spec.aknsP] using d0
  · simpa [Spec.aknsP] using d1

theorem Sol.unique {P V V' : ℝ → Spec.M2} {a b M : ℝ} (h : Sol P V a b) (h' : Sol P V' a b) (hP : ∀ t ∈ Icc a b, ‖P t‖ ≤ M) (hab : a ≤ b) (e : V a = V' a) :
    V b = V' b := by
  have h4 : Sol P (fun t => V t - V' t) a b := fun t ht => ((h t ht).sub (h' t ht)).congr_deriv (by rw [mul_sub])
  have h5 := h4.growth hP (right_mem_Icc.mpr hab)
  rw [e, sub_self, norm_zero, mul_zero, norm_le_zero_iff, sub_eq_zero] at h5
  exact h5

/-- Solutions with the initial value one stay invertible. -/
theorem Sol.det {q r : ℝ → ℂ} {V : ℝ → Spec.M2} {a b : ℝ} {l : ℂ} (h : Sol (fun t => Spec.aknsP (q t) (r t) l) V a b) (e : V a = 1) (hab : a ≤ b) : (V b).det = 1 := by
  have hd : ∀ t ∈ Icc a b, HasDerivWithinAt (fun t => V t 0 0 * V t 1 1 - V t 0 1 * V t 1 0) 0 (Icc a b) t := by
    intro t ht
    refine (((h.entry 0 0 t ht).mul (h.entry 1 1 t ht)).sub ((h.entry 0 1 t ht).mul (h.entry 1 0 t ht))).congr_deriv ?_
    simp only [Matrix.mul_apply, Fin.sum_univ_two]
    simp [Spec.aknsP]
    ring
  have key := (convex_Icc a b).norm_image_sub_le_of_norm_hasDerivWithin_le (C := 0) hd (fun t _ => by simp) (left_mem_Icc.mpr hab) (right_mem_Icc.mpr hab)
  rw [zero_mul, norm_le_zero_iff, sub_eq_zero] at key
  rw [Matrix.det_fin_two]
  refine key.trans ?_
  rw [e]; simp

theorem Sol.mul_right {P V : ℝ → Spec.M2} {a b : ℝ} (h : Sol P V a b) (F : Spec.M2) : Sol P (fun t => V t * F) a b := fun t ht =>
  ((h t ht).mul_const F).congr_deriv (by rw [mul_assoc])

theorem Sol.shift {P V : ℝ → Spec.M2} {a b T : ℝ} (h : Sol P V a b) (hp : ∀ t, P (t + T) = P t) : Sol P (fun t => V (t - T)) (a + T) (b + T) := by
  intro t ht
  have h1 : HasDerivWithinAt (fun t : ℝ => t - T) 1 (Icc (a + T) (b + T)) t := ((hasDerivAt_id t).sub_const T).hasDerivWithinAt
  have h2 := (h (t - T) ⟨by linarith [ht.1], by linarith [ht.2]⟩).scomp t h1 (t' := Icc a b) (fun s hs => ⟨by linarith [hs.1], by linarith [hs.2]⟩)
  refine h2.congr_deriv ?_
  rw [one_smul]
  have := hp (t - T)
  rw [sub_add_cancel] at this
  rw [this]

/-- The monodromy matrices for two starting points have the same trace. -/
theorem floquet_base {q r : ℝ → ℂ} {t0 k T B : ℝ} {l : ℂ} {M : Spec.M2} (hM : Spec.Monodromy q r t0 T l M) (hk : 0 ≤ k) (hkT : k ≤ T)
    (hq : ∀ t, q (t + T) = q t) (hr : ∀ t, r (t + T) = r t) (hP : ∀ t, ‖Spec.aknsP (q t) (r t) l‖ ≤ B) {W : ℝ → Spec.M2}
    (hW : Sol (fun t => Spec.aknsP (q t) (r t) l) W (t0 - k) (t0 + T)) (e : W (t0 - k) = 1) : Spec.floquet (W (t0 + T - k)) = Spec.floquet M := by
  obtain ⟨X, x1, x2, x3⟩ := monodromy_sol hM
  have hp : ∀ t, (fun t => Spec.aknsP (q t) (r t) l) (t + T) = (fun t => Spec.aknsP (q t) (r t) l) t := fun t => by dsimp only; rw [hq, hr]
  have c1 : W (t0 + T) = M * W t0 := by
    rw [← x3]
    exact (hW.mono (by linarith) le_rfl).unique (x1.mul_right (W t0)) (fun t _ => hP t) (by linarith) (by rw [x2, one_mul])
  have c2 : W (t0 + T) = W t0 * W (t0 + T - k) := by
    have s1 := ((hW.mono (a' := t0 - k) (b' := t0) le_rfl (by linarith)).shift hp).mul_right (W (t0 + T - k))
    have := (hW.mono (a' := t0 - k + T) (b' := t0 + T) (by linarith) le_rfl).unique s1 (fun t _ => hP t) (by linarith) (by
      rw [show t0 - k + T - T = t0 - k by ring, e, one_mul, show t0 - k + T = t0 + T - k by ring])
    rw [this, add_sub_cancel_right]
  have hdet : IsUnit (W t0).det := by rw [(hW.mono (b' := t0) le_rfl (by linarith)).det e (by linarith)]; exact isUnit_one
  have hM' : M = W t0 * W (t0 + T - k) * (W t0)⁻¹ := by
    rw [← c2, c1, mul_assoc, Matrix.mul_nonsing_inv _ hdet, mul_one]
  have tr : ∀ X : Spec.M2, Spec.floquet X = X.trace := fun X => by rw [Matrix.trace_fin_two]; rfl
  rw [tr, tr, hM', Matrix.trace_mul_comm, ← mul_assoc, Matrix.nonsing_inv_mul _ hdet, one_mul]

theorem norm_floquet_sub (X Y : Spec.M2) : ‖Spec.floquet X - Spec.floquet Y‖ ≤ 2 * ‖X - Y‖ := by
  have e : Spec.floquet X - Spec.floquet Y = (X - Y) 0 0 + (X - Y) 1 1 := by simp [Spec.floquet]; ring
  rw [e]
  have h1 := entry_le (X - Y) 0 0
  have h2 := entry_le (X - Y) 1 1
  exact (norm_add_le _ _).trans (by linarith)

theorem c11_of_periodic {q q' : ℝ → ℂ} {T Q K L : ℝ} (h : Spec.SmoothPeriodic q q' T Q K L) : C11 q q' Q K L := ⟨h.deriv, h.bound, h.bound', h.lip⟩

theorem aknsP_cont {q r : ℝ → ℂ} {s : Set ℝ} (hq : ContinuousOn q s) (hr : ContinuousOn r s) (l : ℂ) : ContinuousOn (fun t => Spec.aknsP (q t) (r t) l) s := by
  have e : (fun t => Spec.aknsP (q t) (r t) l) = fun t => Spec.aknsP 0 0 l + q t • (!![0, 1; 0, 0] : Spec.M2) + r t • (!![0, 0; 1, 0] : Spec.M2) := by
    funext t; ext i j; fin_cases i <;> fin_cases j <;> simp [Spec.aknsP]
  rw [e]
  exact (continuousOn_const.add (hq.smul continuousOn_const)).add (hr.smul continuousOn_const)

/-- Error of the Floquet discriminant: the samples are taken at the centres of the steps, `t0` is the first of them. -/
theorem floquet_conv {q q' r r' : ℝ → ℂ} {t0 T Q K L : ℝ} {D : ℕ} {U : ℕ → Spec.M2} {l : ℂ} {M : Spec.M2} (hD : 1 ≤ D) (hT : 0 < T)
    (hq : Spec.SmoothPeriodic q q' T Q K L) (hr : Spec.SmoothPeriodic r r' T Q K L) (hL : 0 ≤ L) (hM : Spec.Monodromy q r t0 T l M)
    {h : ℝ} (hh : h = T / D)
    (hU : ∀ n < D, ‖U n - NormedSpace.exp ((h : ℂ) • Spec.aknsP (q (t0 + n * h)) (r (t0 + n * h)) l)‖ ≤ 8 * tail (h * ‖l‖ + h * (2 * Q))) :
    ‖Spec.floquet (Spec.chain U D) - Spec.floquet M‖ ≤ 2 * Spec.err2 (T - h) Q K L h ‖l‖ := by
  have hD' : (1 : ℝ) ≤ D := by exact_mod_cast hD
  have hpos : 0 < h := by rw [hh]; exact div_pos hT (by linarith)
  have hDh : (D : ℝ) * h = T := by rw [hh, mul_comm]; exact div_mul_cancel₀ _ (by linarith : (0 : ℝ) < D).ne'
  have hle : h / 2 ≤ T := by nlinarith
  have hqc : Continuous q := continuous_iff_continuousAt.mpr fun t => (hq.deriv t).continuousAt
  have hrc : Continuous r := continuous_iff_continuousAt.mpr fun t => (hr.deriv t).continuousAt
  obtain ⟨W, w1, w2⟩ := exists_sol (a := t0 - h / 2) (b := t0 + T) (by linarith) (aknsP_cont hqc.continuousOn hrc.continuousOn l) 1
  have hP : ∀ t, ‖Spec.aknsP (q t) (r t) l‖ ≤ ‖l‖ + Q := fun t => norm_aknsP (hq.bound t) (hr.bound t)
  rw [← floquet_base hM (by linarith) hle hq.period hr.period hP w2 w1]
  refine (norm_floquet_sub _ _).trans (mul_le_mul_of_nonneg_left ?_ (by norm_num))
  have ht : t0 - h / 2 + D * h = t0 + T - h / 2 := by rw [hDh]; ring
  have key := core_two (U := U) (t0 := t0 - h / 2) hD (c11_of_periodic hq) (c11_of_periodic hr) hL hpos.le (V := W)
    (by rw [ht]; exact w2.mono le_rfl (by linarith)) (fun n hn => by
      rw [show t0 - h / 2 + n * h + h / 2 = t0 + n * h by ring]; exact hU n hn)
  rw [ht, w1, mul_one, hDh] at key
  refine key.trans (le_of_eq ?_)
  have : ‖(1 : Spec.M2)‖ = 1 := by
    refine le_antisymm (linf_le fun i => ?_) ?_
    · fin_cases i <;> simp [Matrix.one_apply]
    · have := entry_le (1 : Spec.M2) 0 0; simp
  rw [this, mul_one]

end FNFT.Conv

import Verif.Proofs.ConvFloquet
/-!
# Convergence of the entries of the numerical monodromy matrix
-/
namespace FNFT.Conv
open Set Complex
attribute [local instance] Matrix.linftyOpNormedRing
noncomputable local instance m2AlgebraAux : NormedAlgebra ℂ Spec.M2 := Matrix.linftyOpNormedAlgebra

theorem norm_one_m2 : ‖(1 : Spec.M2)‖ = 1 := by
  refine le_antisymm (linf_le fun i => ?_) ?_
  · fin_cases i <;> simp [Matrix.one_apply]
  · have := entry_le (1 : Spec.M2) 0 0; rwa [Matrix.one_apply_eq, norm_one] at this

/-- Error of the monodromy matrix for the interval that starts half a step before the first sample. -/
theorem monodromy_half {q q' r r' : ℝ → ℂ} {t0 T Q K L : ℝ} {D : ℕ} {U : ℕ → Spec.M2} {l : ℂ} {M : Spec.M2} (hD : 1 ≤ D) (hT : 0 < T)
    (hq : Spec.SmoothPeriodic q q' T Q K L) (hr : Spec.SmoothPeriodic r r' T Q K L) (hL : 0 ≤ L)
    {h : ℝ} (hh : h = T / D) (hM : Spec.Monodromy q r (t0 - h / 2) T l M)
    (hU : ∀ n < D, ‖U n - NormedSpace.exp ((h : ℂ) • Spec.aknsP (q (t0 + n * h)) (r (t0 + n * h)) l)‖ ≤ 8 * tail (h * ‖l‖ + h * (2 * Q))) :
    ‖Spec.chain U D - M‖ ≤ Spec.err2 (T - h) Q K L h ‖l‖ := by
  have hD' : (1 : ℝ) ≤ D := by exact_mod_cast hD
  have hpos : 0 < h := by rw [hh]; exact div_pos hT (by linarith)
  have hDh : (D : ℝ) * h = T := by rw [hh, mul_comm]; exact div_mul_cancel₀ _ (by linarith : (0 : ℝ) < D).ne'
  obtain ⟨W, w1, w2, w3⟩ := monodromy_sol hM
  have ht : t0 - h / 2 + D * h = t0 - h / 2 + T := by rw [hDh]
  have key := core_two (U := U) (t0 := t0 - h / 2) hD (c11_of_periodic hq) (c11_of_periodic hr) hL hpos.le (V := W)
    (by rw [ht]; exact w1) (fun n hn => by
      rw [show t0 - h / 2 + n * h + h / 2 = t0 + n * h by ring]; exact hU n hn)
  rwa [ht, w3, w2, mul_one, hDh, norm_one_m2, mul_one] at key

theorem near_one {P V : ℝ → Spec.M2} {a b B : ℝ} (h : Sol P V a b) (hP : ∀ t ∈ Icc a b, ‖P t‖ ≤ B) (hab : a ≤ b) (e : V a = 1) : ‖V b - 1‖ ≤ B * (b - a) * Real.exp (B * (b - a)) := by
  have hB : 0 ≤ B := (norm_nonneg _).trans (hP a (left_mem_Icc.mpr hab))
  have key := (convex_Icc a b).norm_image_sub_le_of_norm_hasDerivWithin_le (C := B * Real.exp (B * (b - a))) h (fun t ht => by
    have g := h.growth hP ht
    rw [e, norm_one_m2, mul_one] at g
    refine (norm_mul_le _ _).trans (mul_le_mul (hP t ht) (g.trans (Real.exp_le_exp.mpr ?_)) (norm_nonneg _) hB)
    exact mul_le_mul_of_nonneg_left (by linarith [ht.2]) hB) (left_mem_Icc.mpr hab) (right_mem_Icc.mpr hab)
  rw [e, Real.norm_of_nonneg (by linarith)] at key
  refine key.trans (le_of_eq (by ring))

/-- The monodromy matrices for two starting points. -/
theorem monodromy_base {q r : ℝ → ℂ} {t0 k T B : ℝ} {l : ℂ} {M M' : Spec.M2} (hM : Spec.Monodromy q r t0 T l M) (hM' : Spec.Monodromy q r (t0 - k) T l M') (hk : 0 ≤ k) (hkT : k ≤ T)
    (hqc : Continuous q) (hrc : Continuous r) (hq : ∀ t, q (t + T) = q t) (hr : ∀ t, r (t + T) = r t) (hP : ∀ t, ‖Spec.aknsP (q t) (r t) l‖ ≤ B) :
    ‖M' - M‖ ≤ 2 * Real.exp (B * T) * (B * k * Real.exp (B * k)) := by
  obtain ⟨X, x1, x2, x3⟩ := monodromy_sol hM
  obtain ⟨Y, y1, y2, y3⟩ := monodromy_sol hM'
  obtain ⟨W, e, hW⟩ := exists_sol (a := t0 - k) (b := t0 + T) (by linarith) (aknsP_cont hqc.continuousOn hrc.continuousOn l) 1
  have hp : ∀ t, (fun t => Spec.aknsP (q t) (r t) l) (t + T) = (fun t => Spec.aknsP (q t) (r t) l) t := fun t => by dsimp only; rw [hq, hr]
  have c1 : W (t0 + T) = M * W t0 := by
    rw [← x3]
    exact (hW.mono (by linarith) le_rfl).unique (x1.mul_right (W t0)) (fun t _ => hP t) (by linarith) (by rw [x2, one_mul])
  have c0 : W (t0 - k + T) = M' := by
    rw [← y3]
    exact (hW.mono le_rfl (by linarith)).unique y1 (fun t _ => hP t) (by linarith) (by rw [y2, e])
  have c2 : W (t0 + T) = W t0 * M' := by
    have s1 := ((hW.mono (a' := t0 - k) (b' := t0) le_rfl (by linarith)).shift hp).mul_right M'
    have := (hW.mono (a' := t0 - k + T) (b' := t0 + T) (by linarith) le_rfl).unique s1 (fun t _ => hP t) (by linarith) (by
      rw [show t0 - k + T - T = t0 - k by ring, e, one_mul, c0])
    rw [this, add_sub_cancel_right]
  have eq : M' - M = M * (W t0 - 1) - (W t0 - 1) * M' := by
    rw [mul_sub, sub_mul, one_mul, mul_one, ← c1, c2]; abel
  have n0 : ‖W t0 - 1‖ ≤ B * k * Real.exp (B * k) := by
    have := near_one (hW.mono (b' := t0) le_rfl (by linarith)) (fun t _ => hP t) (by linarith) e
    rwa [sub_sub_cancel] at this
  have nM : ‖M‖ ≤ Real.exp (B * T) := by
    have := x1.growth (fun t _ => hP t) (right_mem_Icc.mpr (by linarith))
    rwa [x2, x3, norm_one_m2, mul_one, add_sub_cancel_left] at this
  have nM' : ‖M'‖ ≤ Real.exp (B * T) := by
    have := y1.growth (fun t _ => hP t) (right_mem_Icc.mpr (by linarith))
    rwa [y2, y3, norm_one_m2, mul_one, add_sub_cancel_left] at this
  rw [eq]
  have h0 := norm_nonneg (W t0 - 1)
  have hE := (Real.exp_pos (B * T)).le
  calc ‖M * (W t0 - 1) - (W t0 - 1) * M'‖ ≤ ‖M‖ * ‖W t0 - 1‖ + ‖W t0 - 1‖ * ‖M'‖ :=
        (norm_sub_le _ _).trans (add_le_add (norm_mul_le _ _) (norm_mul_le _ _))
    _ ≤ Real.exp (B * T) * ‖W t0 - 1‖ + ‖W t0 - 1‖ * Real.exp (B * T) :=
        add_le_add (mul_le_mul_of_nonneg_right nM h0) (mul_le_mul_of_nonneg_left nM' h0)
    _ = 2 * Real.exp (B * T) * ‖W t0 - 1‖ := by ring
    _ ≤ _ := mul_le_mul_of_nonneg_left n0 (by positivity)

end FNFT.Conv

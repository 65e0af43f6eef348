import Verif.Spec.Cells
import Verif.Proofs.ConvFloquet
import Verif.Proofs.NsevEval
/-!
# Solutions for piecewise constant signals
-/
namespace FNFT
open Complex Set
open FNFT.Conv

attribute [local instance] Matrix.linftyOpNormedRing
noncomputable local instance m2AlgebraS : NormedAlgebra ℂ Spec.M2 := Matrix.linftyOpNormedAlgebra

theorem exp_sol (P V0 : Spec.M2) (a b : ℝ) : Sol (fun _ => P) (fun t => NormedSpace.exp (((t - a : ℝ) : ℂ) • P) * V0) a b := by
  intro t _
  have h1 : HasDerivAt (fun u : ℝ => NormedSpace.exp (u • P)) (NormedSpace.exp ((t - a) • P) * P) (t - a) := hasDerivAt_exp_smul_const (𝕂 := ℝ) P _
  have h2 : HasDerivAt (fun t : ℝ => t - a) 1 t := (hasDerivAt_id t).sub_const a
  have h3 := ((h1.scomp t h2).mul_const V0).hasDerivWithinAt (s := Icc a b)
  have e : ∀ u : ℝ, ((u : ℝ) : ℂ) • P = u • P := fun u => Complex.coe_smul u P
  simp only [e]
  refine h3.congr_deriv ?_
  rw [one_smul, ← mul_assoc]
  congr 1
  exact ((Commute.refl P).smul_right (t - a)).exp_right.eq.symm

/-- One interval. -/
theorem cell_step {v1 v2 : ℝ → ℂ} {q r l : ℂ} {a b : ℝ} (hab : a ≤ b)
    (h : ∀ t ∈ Icc a b, HasDerivWithinAt v1 (-I * l * v1 t + q * v2 t) (Icc a b) t ∧ HasDerivWithinAt v2 (r * v1 t + I * l * v2 t) (Icc a b) t) :
    ![v1 b, v2 b] = (NormedSpace.exp (((b - a : ℝ) : ℂ) • Spec.aknsP q r l)).mulVec ![v1 a, v2 a] := by
  have hV : Sol (fun _ => Spec.aknsP q r l) (fun t => !![v1 t, 0; v2 t, 0]) a b := by
    refine sol_of_entries fun t ht i j => ?_
    obtain ⟨d1, d2⟩ := h t ht
    rw [Matrix.mul_apply, Fin.sum_univ_two]
    fin_cases i <;> fin_cases j <;> simp [Spec.aknsP]
    · simpa using d1
    · exact hasDerivWithinAt_const _ _ _
    · exact d2
    · exact hasDerivWithinAt_const _ _ _
  have := hV.unique (exp_sol (Spec.aknsP q r l) !![v1 a, 0; v2 a, 0] a b) (M := ‖Spec.aknsP q r l‖) (fun _ _ => le_rfl) hab (by simp)
  have e := fun i => congrFun (congrFun this i) 0
  ext i
  have ei := e i
  rw [Matrix.mul_apply, Fin.sum_univ_two] at ei
  fin_cases i <;> simpa [Matrix.mulVec, dotProduct, Fin.sum_univ_two] using ei

/-- The scattering coefficients are those of the chain of exponentials. -/
theorem cells_chain {q r : ℕ → ℂ} {T0 T1 eps : ℝ} (he : 0 < eps) {D : ℕ} (hT : T1 = T0 + (D - 1) * eps) {l A B : ℂ} (h : Spec.CellScattering q r T0 eps D l A B)
    {U : ℕ → Spec.M2} (hU : ∀ n, n < D → U n = NormedSpace.exp ((eps : ℂ) • Spec.aknsP (q n) (r n) l)) :
    Spec.jostA (Spec.chain U D) T0 T1 eps l = A ∧ Spec.jostB (Spec.chain U D) T0 T1 eps l = B := by
  obtain ⟨v1, v2, h1, h2, h3, h4, h5⟩ := h
  have key : ∀ n, n ≤ D → ![v1 (T0 - eps / 2 + n * eps), v2 (T0 - eps / 2 + n * eps)] = (Spec.chain U n).mulVec ![exp (-I * l * (T0 - eps / 2 : ℝ)), 0] := by
    intro n
    induction n with
    | zero =>
      intro _
      simp only [Spec.chain, List.range_zero, List.map_nil, List.prod_nil, Matrix.one_mulVec]
      rw [h2, h3]
      simp
    | succ n ih =>
      intro hn
      have := cell_step (by push_cast; linarith) (h1 n (by omega))
      rw [this, ih (by omega), Matrix.mulVec_mulVec, chain_succ, hU n (by omega)]
      congr 4
      push_cast; ring
  have kD := key D le_rfl
  have hT' : T1 + eps / 2 = T0 - eps / 2 + D * eps := by rw [hT]; ring
  unfold Spec.jostA Spec.jostB
  rw [← kD, hT', div_eq_iff (exp_ne_zero _), div_eq_iff (exp_ne_zero _)]
  exact ⟨h4, h5⟩

/-- A solution for all intervals. -/
theorem cells_exist (q r : ℕ → ℂ) (T0 : ℝ) {eps : ℝ} (he : 0 < eps) (D : ℕ) (l : ℂ) : ∃ A B, Spec.CellScattering q r T0 eps D l A B := by
  -- the vector function, interval by interval
  have key : ∀ n : ℕ, ∃ v1 v2 : ℝ → ℂ, (∀ k, k < n → ∀ t ∈ Icc (T0 - eps / 2 + k * eps) (T0 - eps / 2 + (k + 1 : ℕ) * eps),
      HasDerivWithinAt v1 (-I * l * v1 t + q k * v2 t) (Icc (T0 - eps / 2 + k * eps) (T0 - eps / 2 + (k + 1 : ℕ) * eps)) t ∧
      HasDerivWithinAt v2 (r k * v1 t + I * l * v2 t) (Icc (T0 - eps / 2 + k * eps) (T0 - eps / 2 + (k + 1 : ℕ) * eps)) t) ∧
      v1 (T0 - eps / 2 + (0 : ℕ) * eps) = exp (-I * l * (T0 - eps / 2 + (0 : ℕ) * eps : ℝ)) ∧ v2 (T0 - eps / 2 + (0 : ℕ) * eps) = 0 := by
    intro n
    induction n with
    | zero => exact ⟨fun _ => exp (-I * l * (T0 - eps / 2 + (0 : ℕ) * eps : ℝ)), fun _ => 0, fun k hk => by omega, rfl, rfl⟩
    | succ n ih =>
      obtain ⟨v1, v2, k1, k2, k3⟩ := ih
      obtain ⟨c, hc⟩ : ∃ c : ℝ, c = T0 - eps / 2 + n * eps := ⟨_, rfl⟩
      have hS := exp_sol (Spec.aknsP (q n) (r n) l) !![v1 c, 0; v2 c, 0] c (T0 - eps / 2 + (n + 1 : ℕ) * eps)
      obtain ⟨w, hw⟩ : ∃ w : ℝ → Spec.M2, w = fun t => NormedSpace.exp (((t - c : ℝ) : ℂ) • Spec.aknsP (q n) (r n) l) * !![v1 c, 0; v2 c, 0] := ⟨_, rfl⟩
      rw [← hw] at hS
      have hwc : w c = !![v1 c, 0; v2 c, 0] := by rw [hw]; simp
      refine ⟨fun t => if t ≤ c then v1 t else w t 0 0, fun t => if t ≤ c then v2 t else w t 1 0, fun k hk t ht => ?_, ?_, ?_⟩
      · rcases Nat.lt_succ_iff_lt_or_eq.mp hk with hk' | rfl
        · have hle : ∀ u ∈ Icc (T0 - eps / 2 + k * eps) (T0 - eps / 2 + (k + 1 : ℕ) * eps), u ≤ c := by
            intro u hu
            rw [hc]
            refine hu.2.trans ?_
            have : ((k + 1 : ℕ) : ℝ) ≤ n := by exact_mod_cast hk'
            nlinarith
          obtain ⟨d1, d2⟩ := k1 k hk' t ht
          refine ⟨?_, ?_⟩
          · beta_reduce
            rw [if_pos (hle t ht), if_pos (hle t ht)]
            exact d1.congr (fun u hu => if_pos (hle u hu)) (if_pos (hle t ht))
          · beta_reduce
            rw [if_pos (hle t ht), if_pos (hle t ht)]
            exact d2.congr (fun u hu => if_pos (hle u hu)) (if_pos (hle t ht))
        · rw [← hc] at ht ⊢
          have hval : ∀ u ∈ Icc c (T0 - eps / 2 + (k + 1 : ℕ) * eps), (if u ≤ c then v1 u else w u 0 0) = w u 0 0 ∧ (if u ≤ c then v2 u else w u 1 0) = w u 1 0 := by
            intro u hu
            by_cases e : u ≤ c
            · obtain rfl : u = c := le_antisymm e hu.1
              rw [if_pos le_rfl, if_pos le_rfl, hwc]; simp
            · rw [if_neg e, if_neg e]; simp
          have d1 := hS.entry 0 0 t ht
          have d2 := hS.entry 1 0 t ht
          rw [Matrix.mul_apply, Fin.sum_univ_two] at d1 d2
          refine ⟨?_, ?_⟩
          · beta_reduce
            rw [(hval t ht).1, (hval t ht).2]
            refine (d1.congr (fun u hu => (hval u hu).1) (hval t ht).1).congr_deriv ?_
            simp [Spec.aknsP]
          · beta_reduce
            rw [(hval t ht).1, (hval t ht).2]
            refine (d2.congr (fun u hu => (hval u hu).2) (hval t ht).2).congr_deriv ?_
            simp [Spec.aknsP]
      · have : T0 - eps / 2 + (0 : ℕ) * eps ≤ c := by rw [hc]; push_cast; nlinarith [Nat.cast_nonneg (α := ℝ) n]
        simp only [if_pos this, k2]
      · have : T0 - eps / 2 + (0 : ℕ) * eps ≤ c := by rw [hc]; push_cast; nlinarith [Nat.cast_nonneg (α := ℝ) n]
        simp only [if_pos this, k3]
  obtain ⟨v1, v2, k1, k2, k3⟩ := key D
  exact ⟨v1 (T0 - eps / 2 + D * eps) / exp (-I * l * (T0 - eps / 2 + D * eps : ℝ)), v2 (T0 - eps / 2 + D * eps) / exp (I * l * (T0 - eps / 2 + D * eps : ℝ)), v1, v2, k1, k2, k3,
    by rw [div_mul_cancel₀ _ (exp_ne_zero _)], by rw [div_mul_cancel₀ _ (exp_ne_zero _)]⟩

end FNFT

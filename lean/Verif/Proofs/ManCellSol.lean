import Verif.Spec.ManCells
import Verif.Proofs.ConvMan
/-!
# Solutions of the Manakov system for piecewise constant signals
-/
namespace FNFT
open Complex Set
open FNFT.Conv

attribute [local instance] Matrix.linftyOpNormedRing
noncomputable local instance m3AlgebraC : NormedAlgebra ℂ Spec.M3 := Matrix.linftyOpNormedAlgebra

theorem exp_sol3 (P V0 : Spec.M3) (a b : ℝ) : Sol (fun _ => P) (fun t => NormedSpace.exp (((t - a : ℝ) : ℂ) • P) * V0) a b := by
  intro t _
  have h1 : HasDerivAt (fun u : ℝ => NormedSpace.exp (u • P)) (NormedSpace.exp ((t - a) • P) * P) (t - a) := hasDerivAt_exp_smul_const (𝕂 := ℝ) P _
  have h2 : HasDerivAt (fun t : ℝ => t - a) 1 t := (hasDerivAt_id t).sub_const a
  have h3 := ((h1.scomp t h2).mul_const V0).hasDerivWithinAt (s := Icc a b)
  have e : ∀ u : ℝ, ((u : ℝ) : ℂ) • P = u • P := fun u => Complex.coe_smul u P
  simp only [e]
  refine h3.congr_deriv ?_
  rw [one_smul, ← mul_assoc]
  congr 1
  exact ((Commute.refl P).smul_right (t - a)).exp_right.eq.symm

theorem sol3_unique {P : Spec.M3} {V V' : ℝ → Spec.M3} {a b : ℝ} (hab : a ≤ b) (h : Sol (fun _ => P) V a b) (h' : Sol (fun _ => P) V' a b) (e : V a = V' a) : V b = V' b := by
  have h4 : Sol (fun _ => P) (fun t => V t - V' t) a b := fun t ht => ((h t ht).sub (h' t ht)).congr_deriv (by rw [mul_sub])
  have h5 := h4.growth (M := ‖P‖) (fun _ _ => le_rfl) (right_mem_Icc.mpr hab)
  rw [e, sub_self, norm_zero, mul_zero, norm_le_zero_iff, sub_eq_zero] at h5
  exact h5

/-- One interval. -/
theorem man_cell_step {κ : ℤ} {v1 v2 v3 : ℝ → ℂ} {q1 q2 l : ℂ} {a b : ℝ} (hab : a ≤ b)
    (h : ∀ t ∈ Icc a b, HasDerivWithinAt v1 (-I * l * v1 t + q1 * v2 t + q2 * v3 t) (Icc a b) t ∧
      HasDerivWithinAt v2 (-κ * (starRingEnd ℂ) q1 * v1 t + I * l * v2 t) (Icc a b) t ∧ HasDerivWithinAt v3 (-κ * (starRingEnd ℂ) q2 * v1 t + I * l * v3 t) (Icc a b) t) :
    col3 (v1 b) (v2 b) (v3 b) = NormedSpace.exp (((b - a : ℝ) : ℂ) • Conv.manP κ q1 q2 l) * col3 (v1 a) (v2 a) (v3 a) := by
  refine sol3_unique hab (sol3_of (q1 := fun _ => q1) (q2 := fun _ => q2) h) (exp_sol3 _ (col3 (v1 a) (v2 a) (v3 a)) a b) ?_
  simp

/-- All intervals. -/
theorem man_cells_chain {κ : ℤ} {q1 q2 : ℕ → ℂ} {T0 eps : ℝ} (he : 0 < eps) {D : ℕ} {l A B1 B2 : ℂ} (h : Spec.ManCellScattering κ q1 q2 T0 eps D l A B1 B2)
    {U : ℕ → Spec.M3} (hU : ∀ n, n < D → U n = NormedSpace.exp ((eps : ℂ) • Conv.manP κ (q1 n) (q2 n) l)) :
    Spec.chain U D * col3 (exp (-I * l * (T0 - eps / 2 : ℝ))) 0 0 =
      col3 (A * exp (-I * l * (T0 - eps / 2 + D * eps : ℝ))) (B1 * exp (I * l * (T0 - eps / 2 + D * eps : ℝ))) (B2 * exp (I * l * (T0 - eps / 2 + D * eps : ℝ))) := by
  obtain ⟨v1, v2, v3, h1, h2, h3, h3', h4, h5, h5'⟩ := h
  have key : ∀ n, n ≤ D → col3 (v1 (T0 - eps / 2 + n * eps)) (v2 (T0 - eps / 2 + n * eps)) (v3 (T0 - eps / 2 + n * eps)) =
      Spec.chain U n * col3 (exp (-I * l * (T0 - eps / 2 : ℝ))) 0 0 := by
    intro n
    induction n with
    | zero =>
      intro _
      simp only [Spec.chain, List.range_zero, List.map_nil, List.prod_nil, one_mul]
      rw [h2, h3, h3']
      simp
    | succ n ih =>
      intro hn
      have := man_cell_step (by push_cast; linarith) (h1 n (by omega))
      rw [this, ih (by omega), ← mul_assoc, chain_succ, hU n (by omega)]
      congr 4
      push_cast; ring
  rw [← key D le_rfl, h4, h5, h5']

/-- The components at the right end determine the coefficients. -/
theorem col3_inj {x y z x' y' z' : ℂ} (h : col3 x y z = col3 x' y' z') : x = x' ∧ y = y' ∧ z = z' := by
  rw [col3_eq, col3_eq] at h
  have e := fun i => congrFun (congrFun h i) 0
  exact ⟨by simpa using e 0, by simpa using e 1, by simpa using e 2⟩

/-- A solution for all intervals. -/
theorem man_cells_exist (κ : ℤ) (q1 q2 : ℕ → ℂ) (T0 : ℝ) {eps : ℝ} (he : 0 < eps) (D : ℕ) (l : ℂ) : ∃ A B1 B2, Spec.ManCellScattering κ q1 q2 T0 eps D l A B1 B2 := by
  have ent : ∀ (X : ℝ → Spec.M3) (X' : Spec.M3) (s : Set ℝ) (t : ℝ), HasDerivWithinAt X X' s t → ∀ i j, HasDerivWithinAt (fun t => X t i j) (X' i j) s t := by
    intro X X' s t h i j
    let f : Spec.M3 →ₗ[ℝ] ℂ :=
      { toFun := fun X => X i j, map_add' := fun _ _ => rfl, map_smul' := fun c X => by
          rw [← Complex.coe_smul]; simp }
    have hb : ∀ X : Spec.M3, ‖f X‖ ≤ 1 * ‖X‖ := fun X => by rw [one_mul]; exact entry3_le X i j
    exact ((f.mkContinuous 1 hb).hasFDerivAt.comp_hasDerivWithinAt t h)
  have key : ∀ n : ℕ, ∃ v1 v2 v3 : ℝ → ℂ, (∀ k, k < n → ∀ t ∈ Icc (T0 - eps / 2 + k * eps) (T0 - eps / 2 + (k + 1 : ℕ) * eps),
      HasDerivWithinAt v1 (-I * l * v1 t + q1 k * v2 t + q2 k * v3 t) (Icc (T0 - eps / 2 + k * eps) (T0 - eps / 2 + (k + 1 : ℕ) * eps)) t ∧
      HasDerivWithinAt v2 (-κ * (starRingEnd ℂ) (q1 k) * v1 t + I * l * v2 t) (Icc (T0 - eps / 2 + k * eps) (T0 - eps / 2 + (k + 1 : ℕ) * eps)) t ∧
      HasDerivWithinAt v3 (-κ * (starRingEnd ℂ) (q2 k) * v1 t + I * l * v3 t) (Icc (T0 - eps / 2 + k * eps) (T0 - eps / 2 + (k + 1 : ℕ) * eps)) t) ∧
      v1 (T0 - eps / 2 + (0 : ℕ) * eps) = exp (-I * l * (T0 - eps / 2 + (0 : ℕ) * eps : ℝ)) ∧ v2 (T0 - eps / 2 + (0 : ℕ) * eps) = 0 ∧
      v3 (T0 - eps / 2 + (0 : ℕ) * eps) = 0 := by
    intro n
    induction n with
    | zero => exact ⟨fun _ => exp (-I * l * (T0 - eps / 2 + (0 : ℕ) * eps : ℝ)), fun _ => 0, fun _ => 0, fun k hk => by omega, rfl, rfl, rfl⟩
    | succ n ih =>
      obtain ⟨v1, v2, v3, k1, k2, k3, k3'⟩ := ih
      obtain ⟨c, hc⟩ : ∃ c : ℝ, c = T0 - eps / 2 + n * eps := ⟨_, rfl⟩
      have hS := exp_sol3 (Conv.manP κ (q1 n) (q2 n) l) (col3 (v1 c) (v2 c) (v3 c)) c (T0 - eps / 2 + (n + 1 : ℕ) * eps)
      obtain ⟨w, hw⟩ : ∃ w : ℝ → Spec.M3, w = fun t => NormedSpace.exp (((t - c : ℝ) : ℂ) • Conv.manP κ (q1 n) (q2 n) l) * col3 (v1 c) (v2 c) (v3 c) := ⟨_, rfl⟩
      rw [← hw] at hS
      have hwc : w c = !![v1 c, 0, 0; v2 c, 0, 0; v3 c, 0, 0] := by rw [hw, ← col3_eq]; simp
      refine ⟨fun t => if t ≤ c then v1 t else w t 0 0, fun t => if t ≤ c then v2 t else w t 1 0, fun t => if t ≤ c then v3 t else w t 2 0, fun k hk t ht => ?_, ?_, ?_, ?_⟩
      · rcases Nat.lt_succ_iff_lt_or_eq.mp hk with hk' | rfl
        · have hle : ∀ u ∈ Icc (T0 - eps / 2 + k * eps) (T0 - eps / 2 + (k + 1 : ℕ) * eps), u ≤ c := by
            intro u hu
            rw [hc]
            refine hu.2.trans ?_
            have : ((k + 1 : ℕ) : ℝ) ≤ n := by exact_mod_cast hk'
            nlinarith
          obtain ⟨d1, d2, d3⟩ := k1 k hk' t ht
          refine ⟨?_, ?_, ?_⟩
          · beta_reduce
            rw [if_pos (hle t ht), if_pos (hle t ht), if_pos (hle t ht)]
            exact d1.congr (fun u hu => if_pos (hle u hu)) (if_pos (hle t ht))
          · beta_reduce
            rw [if_pos (hle t ht), if_pos (hle t ht)]
            exact d2.congr (fun u hu => if_pos (hle u hu)) (if_pos (hle t ht))
          · beta_reduce
            rw [if_pos (hle t ht), if_pos (hle t ht)]
            exact d3.congr (fun u hu => if_pos (hle u hu)) (if_pos (hle t ht))
        · rw [← hc] at ht ⊢
          have hval : ∀ u ∈ Icc c (T0 - eps / 2 + (k + 1 : ℕ) * eps), (if u ≤ c then v1 u else w u 0 0) = w u 0 0 ∧ (if u ≤ c then v2 u else w u 1 0) = w u 1 0 ∧
              (if u ≤ c then v3 u else w u 2 0) = w u 2 0 := by
            intro u hu
            by_cases e : u ≤ c
            · obtain rfl : u = c := le_antisymm e hu.1
              rw [if_pos le_rfl, if_pos le_rfl, if_pos le_rfl, hwc]; simp
            · rw [if_neg e, if_neg e, if_neg e]; simp
          have d1 := ent _ _ _ _ (hS t ht) 0 0
          have d2 := ent _ _ _ _ (hS t ht) 1 0
          have d3 := ent _ _ _ _ (hS t ht) 2 0
          rw [Matrix.mul_apply, Fin.sum_univ_three] at d1 d2 d3
          refine ⟨?_, ?_, ?_⟩
          · beta_reduce
            rw [(hval t ht).1, (hval t ht).2.1, (hval t ht).2.2]
            refine (d1.congr (fun u hu => (hval u hu).1) (hval t ht).1).congr_deriv ?_
            simp [Conv.manP, Spec.manA, Spec.manB]
          · beta_reduce
            rw [(hval t ht).1, (hval t ht).2.1]
            refine (d2.congr (fun u hu => (hval u hu).2.1) (hval t ht).2.1).congr_deriv ?_
            simp [Conv.manP, Spec.manA, Spec.manB]
          · beta_reduce
            rw [(hval t ht).1, (hval t ht).2.2]
            refine (d3.congr (fun u hu => (hval u hu).2.2) (hval t ht).2.2).congr_deriv ?_
            simp [Conv.manP, Spec.manA, Spec.manB]
      · have : T0 - eps / 2 + (0 : ℕ) * eps ≤ c := by rw [hc]; push_cast; nlinarith [Nat.cast_nonneg (α := ℝ) n]
        simp only [if_pos this, k2]
      · have : T0 - eps / 2 + (0 : ℕ) * eps ≤ c := by rw [hc]; push_cast; nlinarith [Nat.cast_nonneg (α := ℝ) n]
        simp only [if_pos this, k3]
      · have : T0 - eps / 2 + (0 : ℕ) * eps ≤ c := by rw [hc]; push_cast; nlinarith [Nat.cast_nonneg (α := ℝ) n]
        simp only [if_pos this, k3']
  obtain ⟨v1, v2, v3, k1, k2, k3, k3'⟩ := key D
  exact ⟨v1 (T0 - eps / 2 + D * eps) / exp (-I * l * (T0 - eps / 2 + D * eps : ℝ)), v2 (T0 - eps / 2 + D * eps) / exp (I * l * (T0 - eps / 2 + D * eps : ℝ)),
    v3 (T0 - eps / 2 + D * eps) / exp (I * l * (T0 - eps / 2 + D * eps : ℝ)), v1, v2, v3, k1, k2, k3, k3',
    by rw [div_mul_cancel₀ _ (exp_ne_zero _)], by rw [div_mul_cancel₀ _ (exp_ne_zero _)], by rw [div_mul_cancel₀ _ (exp_ne_zero _)]⟩

end FNFT

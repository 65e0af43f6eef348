import Verif.Proofs.ManCellSol
import Verif.Props.ManConv
/-!
# `fnft_manakovv` with the exponential method is exact for piecewise constant signals
-/
set_option linter.unusedSectionVars false
namespace FNFT
open Complex Set
open FNFT.Conv

attribute [local instance] Matrix.linftyOpNormedRing
noncomputable local instance m3AlgebraCC : NormedAlgebra ℂ Spec.M3 := Matrix.linftyOpNormedAlgebra

variable {D : ℕ} {u1 u2 : Buf ℂ} {x1 x2 : ℕ → ℂ} {T0 T1 : ℝ} {κ : ℤ} {o : ManvOpts}

/-- C83. Every piecewise constant signal has scattering coefficients, and they are unique. -/
theorem C83_exists (κ : ℤ) (q1 q2 : ℕ → ℂ) (T0 : ℝ) {eps : ℝ} (he : 0 < eps) (D : ℕ) (l : ℂ) :
    ∃ A B1 B2, Spec.ManCellScattering κ q1 q2 T0 eps D l A B1 B2 ∧
      ∀ A' B1' B2', Spec.ManCellScattering κ q1 q2 T0 eps D l A' B1' B2' → A' = A ∧ B1' = B1 ∧ B2' = B2 := by
  obtain ⟨A, B1, B2, h⟩ := man_cells_exist κ q1 q2 T0 he D l
  refine ⟨A, B1, B2, h, fun A' B1' B2' h' => ?_⟩
  have k1 := man_cells_chain he h (fun _ _ => rfl)
  have k2 := man_cells_chain he h' (fun _ _ => rfl)
  obtain ⟨e1, e2, e3⟩ := col3_inj (k2.symm.trans k1)
  exact ⟨mul_right_cancel₀ (exp_ne_zero _) e1, mul_right_cancel₀ (exp_ne_zero _) e2, mul_right_cancel₀ (exp_ne_zero _) e3⟩

/-- C83. Let the signal have the constant values `x1 n`, `x2 n` on the interval of length `h` around the `n`-th sample point. Whenever `fnft_manakovv` reports success with the discretization `BO`
(and no Richardson extrapolation), the values it wrote for the grid point `ξ_i` are exactly those for the scattering coefficients `A`, `B1`, `B2` of this signal at `ξ_i`.
Exception: samples that are not zero but both smaller than `2^-52` in absolute value. -/
theorem C83_continuous_spectrum (h : Spec.ManvArgs D u1 u2 x1 x2 T0 T1 κ o) {M : ℕ} {XI0 XI1 : ℝ} {c : Buf ℂ} (hc : Spec.ManContReq D M XI0 XI1 o c) (hrich : o.rich ≠ 1)
    {K : Option ℕ} {bs : Option (Buf ℂ)} (hbs : bs = none ∨ κ = -1 ∧ K ≠ none) (hd : o.disc = .BO) (hns : Spec.ManNonsing o.disc κ D M XI0 XI1 x1 x2)
    (hx : ∀ n, n < D → (x1 n = 0 ∧ x2 n = 0) ∨ 2 ^ (-52 : ℤ) ≤ ‖x1 n‖ ∨ 2 ^ (-52 : ℤ) ≤ ‖x2 n‖) (roots : RootFinder) (s' : ManvSt) (o' : ManvOpts)
    (hrun : fnft_manakovv roots D (some u1) (some u2) (some (T0, T1)) M (some (XI0, XI1)) κ o ⟨some c, K, bs⟩ = some (SUCCESS, s', o')) :
    ∃ c', s'.contspec = some c' ∧ ∀ i, i < M → ∀ A B1 B2, Spec.ManCellScattering κ x1 x2 T0 ((T1 - T0) / (D - 1)) D (Spec.grid XI0 XI1 M i : ℝ) A B1 B2 →
      Spec.ManContClose o.cs M i A B1 B2 0 c' := by
  obtain ⟨p1, p2, U, c', e1, e2, e3, e4⟩ := man_written h hc hrich hbs (by rw [hd]; simp [Spec.manSecond]) hns hrun
  refine ⟨c', e3, fun i hi A B1 B2 hS => ?_⟩
  have hD' : (2 : ℝ) ≤ D := by exact_mod_cast h.hD
  have hpos : 0 < (T1 - T0) / ((D : ℝ) - 1) := div_pos (by linarith [h.hT]) (by linarith)
  obtain ⟨eps, he⟩ : ∃ eps, eps = (T1 - T0) / ((D : ℝ) - 1) := ⟨_, rfl⟩
  rw [← he] at hS e2 e4 hpos
  have hT : T0 - eps / 2 + D * eps = T1 + eps / 2 := by
    rw [he]
    have : (D : ℝ) - 1 ≠ 0 := by linarith
    field_simp; ring
  have key := man_cells_chain hpos hS (U := U (Spec.grid XI0 XI1 M i : ℝ)) fun n hn => ?_
  · rw [hT] at key
    have := coef_err (d := o.disc) (e := 0) (T0 := T0) (T1 := T1) (h := eps) (xi := Spec.grid XI0 XI1 M i) (by rw [hd]; rfl) rfl rfl (S := Spec.chain (U (Spec.grid XI0 XI1 M i : ℝ)) D)
      (a := A) (b1 := B1) (b2 := B2) (by rw [key, sub_self, norm_zero])
    exact manWritten_close e4 hi this.1 this.2.1 this.2.2
  · rw [Spec.ManSteps, if_pos (Or.inl hd)] at e2
    have ht : Spec.manTrunc (p1 n) (p2 n) = (x1 n, x2 n) := by
      rw [(e1 n hn).1, (e1 n hn).2, Spec.manTrunc]
      split_ifs with hlt
      · rcases hx n hn with hz | hz | hz
        · rw [hz.1, hz.2]
        · exact absurd hlt.1 (not_lt.mpr hz)
        · exact absurd hlt.2 (not_lt.mpr hz)
      · rfl
    rw [e2, Spec.manStep, ht, hd]
    norm_num [man_upsampling_factor, Conv.manP]

/-- The hypotheses hold, for instance, for five samples of two constant components. -/
example : Spec.ManvArgs 5 (Buf.ofFn 5 fun _ => 1) (Buf.ofFn 5 fun _ => I) (fun _ => 1) (fun _ => I) (-1) 1 (-1) { manakovv_default_opts with disc := .BO } ∧
    Spec.ManContReq 5 3 (-1) 1 { manakovv_default_opts with disc := .BO } (Buf.malloc 6) ∧
    Spec.ManNonsing .BO (-1) 5 3 (-1) 1 (fun _ => 1) (fun _ => I) ∧ (∀ n : ℕ, n < 5 → (2 : ℝ) ^ (-52 : ℤ) ≤ ‖(fun _ : ℕ => (1 : ℂ)) n‖) := by
  refine ⟨⟨by norm_num, by simp [man_upsampling_factor], fun _ => by norm_num, Buf.holds_ofFn _ _, Buf.holds_ofFn _ _, by norm_num, by norm_num,
    by left; rfl⟩, ⟨by norm_num, by norm_num, by simp [man_upsampling_factor, man_degree],
    fun n => by simp [manakovv_default_opts], by simp [Spec.manCsLen, manakovv_default_opts]⟩, ?_, fun n _ => by norm_num⟩
  intro _ _ i hi n _
  right
  have h3 : i = 0 ∨ i = 1 ∨ i = 2 := by omega
  rcases h3 with rfl | rfl | rfl <;> norm_num [Spec.grid, man_upsampling_factor]

end FNFT

import Verif.Proofs.ConvMan
import Verif.Props.Manakovv
import Verif.Props.NsevConv
import Mathlib.Analysis.Complex.ExponentialBounds
/-!
# The continuous spectrum computed by `fnft_manakovv` converges to that of the continuous-time signal
-/
set_option linter.unusedSectionVars false
namespace FNFT
open Complex Set
open FNFT.Conv

attribute [local instance] Matrix.linftyOpNormedRing
noncomputable local instance m3Algebra' : NormedAlgebra ℂ Spec.M3 := Matrix.linftyOpNormedAlgebra

/-- C80. The scattering coefficients exist and are unique. -/
theorem C80_scattering_exists (κ : ℤ) {q1 q2 : ℝ → ℂ} {T0 T1 : ℝ} (hT : T0 ≤ T1) (hq1 : ContinuousOn q1 (Icc T0 T1)) (hq2 : ContinuousOn q2 (Icc T0 T1)) (l : ℂ) :
    ∃ a b1 b2, Spec.ManScattering κ q1 q2 T0 T1 l a b1 b2 ∧ ∀ a' b1' b2', Spec.ManScattering κ q1 q2 T0 T1 l a' b1' b2' → a' = a ∧ b1' = b1 ∧ b2' = b2 := by
  have hP : ContinuousOn (fun t => Conv.manP κ (q1 t) (q2 t) l) (Icc T0 T1) := by
    have c1 : ContinuousOn (fun t => (starRingEnd ℂ) (q1 t)) (Icc T0 T1) := Complex.continuous_conj.comp_continuousOn hq1
    have c2 : ContinuousOn (fun t => (starRingEnd ℂ) (q2 t)) (Icc T0 T1) := Complex.continuous_conj.comp_continuousOn hq2
    refine continuousOn_pi.mpr fun i => continuousOn_pi.mpr fun j => ?_
    fin_cases i <;> fin_cases j <;> simp [Conv.manP, Spec.manA, Spec.manB] <;> fun_prop
  obtain ⟨V, h1, h2⟩ := exists_sol hT hP (col3 (exp (-I * l * T0)) 0 0)
  have hent : ∀ (i j : Fin 3) (t : ℝ), t ∈ Icc T0 T1 → HasDerivWithinAt (fun t => V t i j) ((Conv.manP κ (q1 t) (q2 t) l * V t) i j) (Icc T0 T1) t := by
    intro i j t ht
    let f : Spec.M3 →ₗ[ℝ] ℂ :=
      { toFun := fun X => X i j, map_add' := fun _ _ => rfl, map_smul' := fun c X => by
          rw [← Complex.coe_smul]; simp }
    have hb : ∀ X : Spec.M3, ‖f X‖ ≤ 1 * ‖X‖ := fun X => by rw [one_mul]; exact entry3_le X i j
    exact ((f.mkContinuous 1 hb).hasFDerivAt.comp_hasDerivWithinAt t (h2 t ht))
  refine ⟨V T1 0 0 / exp (-I * l * T1), V T1 1 0 / exp (I * l * T1), V T1 2 0 / exp (I * l * T1),
    ⟨fun t => V t 0 0, fun t => V t 1 0, fun t => V t 2 0, fun t ht => ⟨?_, ?_, ?_⟩, ?_, ?_, ?_, ?_, ?_, ?_⟩, ?_⟩
  · refine (hent 0 0 t ht).congr_deriv ?_
    rw [Matrix.mul_apply, Fin.sum_univ_three]; simp [Conv.manP, Spec.manA, Spec.manB]
  · refine (hent 1 0 t ht).congr_deriv ?_
    rw [Matrix.mul_apply, Fin.sum_univ_three]; simp [Conv.manP, Spec.manA, Spec.manB]
  · refine (hent 2 0 t ht).congr_deriv ?_
    rw [Matrix.mul_apply, Fin.sum_univ_three]; simp [Conv.manP, Spec.manA, Spec.manB]
  · dsimp only; rw [h1, col3_eq]; simp
  · dsimp only; rw [h1, col3_eq]; simp
  · dsimp only; rw [h1, col3_eq]; simp
  · rw [div_mul_cancel₀ _ (exp_ne_zero _)]
  · rw [div_mul_cancel₀ _ (exp_ne_zero _)]
  · rw [div_mul_cancel₀ _ (exp_ne_zero _)]
  · rintro a' b1' b2' ⟨v1, v2, v3, k1, k2, k3, k3', k4, k5, k5'⟩
    have h3 := sol3_of k1
    obtain ⟨M, hM⟩ := isCompact_Icc.exists_bound_of_continuousOn hP
    have h4 : Sol (fun t => Conv.manP κ (q1 t) (q2 t) l) (fun t => V t - col3 (v1 t) (v2 t) (v3 t)) T0 T1 := fun t ht =>
      ((h2 t ht).sub (h3 t ht)).congr_deriv (by rw [mul_sub])
    have h5 := h4.growth hM (right_mem_Icc.mpr hT)
    rw [h1, k2, k3, k3', sub_self, norm_zero, mul_zero, norm_le_zero_iff, sub_eq_zero] at h5
    rw [h5, col3_eq, k4, k5, k5']
    refine ⟨?_, ?_, ?_⟩ <;> simp

/-- The values for grid point `i` in `c` are those for `a`, `b1`, `b2`, up to the error `e` of these coefficients. -/
structure Spec.ManContClose (cs : CsType) (M i : ℕ) (a b1 b2 : ℂ) (e : ℝ) (c : Buf ℂ) : Prop where
  ab : cs = .AB → ∃ x y z, c.rd i = some x ∧ c.rd (M + i) = some y ∧ c.rd (2 * M + i) = some z ∧ ‖x - a‖ ≤ e ∧ ‖y - b1‖ ≤ e ∧ ‖z - b2‖ ≤ e
  rho : cs = .REFLECTION_COEFFICIENT → e < ‖a‖ → ∃ y z, c.rd i = some y ∧ c.rd (M + i) = some z ∧
    ‖y - b1 / a‖ ≤ e * (1 + ‖b1 / a‖) / (‖a‖ - e) ∧ ‖z - b2 / a‖ ≤ e * (1 + ‖b2 / a‖) / (‖a‖ - e)
  both : cs = .BOTH → ∃ r1 r2 x y z, c.rd i = some r1 ∧ c.rd (M + i) = some r2 ∧ c.rd (2 * M + i) = some x ∧ c.rd (3 * M + i) = some y ∧ c.rd (4 * M + i) = some z ∧
    ‖x - a‖ ≤ e ∧ ‖y - b1‖ ≤ e ∧ ‖z - b2‖ ≤ e ∧
    (e < ‖a‖ → ‖r1 - b1 / a‖ ≤ e * (1 + ‖b1 / a‖) / (‖a‖ - e) ∧ ‖r2 - b2 / a‖ ≤ e * (1 + ‖b2 / a‖) / (‖a‖ - e))

theorem manWritten_close {cs : CsType} {M : ℕ} {av bv1 bv2 : ℕ → ℂ} {c c' : Buf ℂ} (h : Spec.ManContWritten cs M av bv1 bv2 c c') {i : ℕ} (hi : i < M)
    {a b1 b2 : ℂ} {e : ℝ} (ha : ‖av i - a‖ ≤ e) (hb1 : ‖bv1 i - b1‖ ≤ e) (hb2 : ‖bv2 i - b2‖ ≤ e) : Spec.ManContClose cs M i a b1 b2 e c' := by
  have hv := h.2.1
  refine ⟨?_, ?_, ?_⟩
  · rintro rfl
    have h1 := hv i (by simp only [Spec.manCsLen]; omega)
    have h2 := hv (M + i) (by simp only [Spec.manCsLen]; omega)
    have h3 := hv (2 * M + i) (by simp only [Spec.manCsLen]; omega)
    simp only [Nat.zero_add, Spec.manCsOut, if_pos hi, Nat.add_sub_cancel_left, if_neg (by omega : ¬ M + i < M), if_pos (by omega : M + i < 2 * M),
      if_neg (by omega : ¬ 2 * M + i < M), if_neg (by omega : ¬ 2 * M + i < 2 * M)] at h1 h2 h3
    exact ⟨_, _, _, h1, h2, h3, ha, hb1, hb2⟩
  · rintro rfl he
    have h1 := hv i (by simp only [Spec.manCsLen]; omega)
    have h2 := hv (M + i) (by simp only [Spec.manCsLen]; omega)
    simp only [Nat.zero_add, Spec.manCsOut, if_pos hi, Nat.add_sub_cancel_left, if_neg (by omega : ¬ M + i < M)] at h1 h2
    exact ⟨_, _, h1, h2, quot_close ha hb1 he, quot_close ha hb2 he⟩
  · rintro rfl
    have h1 := hv i (by simp only [Spec.manCsLen]; omega)
    have h2 := hv (M + i) (by simp only [Spec.manCsLen]; omega)
    have h3 := hv (2 * M + i) (by simp only [Spec.manCsLen]; omega)
    have h4 := hv (3 * M + i) (by simp only [Spec.manCsLen]; omega)
    have h5 := hv (4 * M + i) (by simp only [Spec.manCsLen]; omega)
    simp only [Nat.zero_add, Spec.manCsOut, if_pos hi, Nat.add_sub_cancel_left, if_neg (by omega : ¬ M + i < M), if_pos (by omega : M + i < 2 * M), if_pos (by omega : i < 2 * M),
      if_neg (by omega : ¬ 2 * M + i < 2 * M), if_neg (by omega : ¬ 3 * M + i < 2 * M), if_neg (by omega : ¬ 4 * M + i < 2 * M),
      show 3 * M + i - 2 * M = M + i by omega, show 4 * M + i - 2 * M = 2 * M + i by omega, if_neg (by omega : ¬ 2 * M + i < M)] at h1 h2 h3 h4 h5
    exact ⟨_, _, _, _, _, h1, h2, h3, h4, h5, ha, hb1, hb2, fun he => ⟨quot_close ha hb1 he, quot_close ha hb2 he⟩⟩

variable {D : ℕ} {u1 u2 : Buf ℂ} {x1 x2 : ℕ → ℂ} {T0 T1 : ℝ} {κ : ℤ} {o : ManvOpts}

theorem manSecond_up {d : ManDisc} (h : d ∈ Spec.manSecond) : man_upsampling_factor d = 1 := by
  simp only [Spec.manSecond, List.mem_cons, List.not_mem_nil, or_false] at h
  rcases h with rfl | rfl | rfl | rfl | rfl | rfl <;> rfl

/-- What a successful call wrote. -/
theorem man_written (h : Spec.ManvArgs D u1 u2 x1 x2 T0 T1 κ o) {M : ℕ} {XI0 XI1 : ℝ} {c : Buf ℂ} (hc : Spec.ManContReq D M XI0 XI1 o c) (hrich : o.rich ≠ 1)
    {K : Option ℕ} {bs : Option (Buf ℂ)} (hbs : bs = none ∨ κ = -1 ∧ K ≠ none) (hd : o.disc ∈ Spec.manSecond) (hns : Spec.ManNonsing o.disc κ D M XI0 XI1 x1 x2)
    {roots : RootFinder} {s' : ManvSt} {o' : ManvOpts}
    (hrun : fnft_manakovv roots D (some u1) (some u2) (some (T0, T1)) M (some (XI0, XI1)) κ o ⟨some c, K, bs⟩ = some (SUCCESS, s', o')) :
    let eps := (T1 - T0) / (D - 1)
    ∃ (p1 p2 : ℕ → ℂ) (U : ℂ → ℕ → Spec.M3) (c' : Buf ℂ), (∀ n, n < D → p1 n = x1 n ∧ p2 n = x2 n) ∧ Spec.ManSteps o.disc κ eps D p1 p2 U ∧ s'.contspec = some c' ∧
      Spec.ManContWritten o.cs M (fun i => Spec.manCoefA o.disc (Spec.chain (U (Spec.grid XI0 XI1 M i : ℝ)) D) T0 T1 eps (Spec.grid XI0 XI1 M i : ℝ))
        (fun i => Spec.manCoefB o.disc (Spec.chain (U (Spec.grid XI0 XI1 M i : ℝ)) D) T0 T1 eps 1 (Spec.grid XI0 XI1 M i : ℝ))
        (fun i => Spec.manCoefB o.disc (Spec.chain (U (Spec.grid XI0 XI1 M i : ℝ)) D) T0 T1 eps 2 (Spec.grid XI0 XI1 M i : ℝ)) c c' := by
  intro eps
  have hu := manSecond_up hd
  obtain ⟨p1, p2, U, h1, h2, h3, h4⟩ := C57_continuous_spectrum h hc hrich K bs hbs
  rw [Spec.ManProcessed, if_pos hu] at h1 h2
  rw [hu, Nat.mul_one] at h3 h4
  have hns' : Spec.ManNonsing o.disc κ D M XI0 XI1 p1 p2 := by
    intro g1 g2 i hi n hn
    have := hns g1 g2 i hi n hn
    rwa [h1 n hn, h2 n hn]
  obtain ⟨k1, k2⟩ := h4 hns' roots
  refine ⟨p1, p2, U, ?_⟩
  by_cases h0 : o.cs = .AB ∨ ∀ i, i < M → Spec.manCoefA o.disc (Spec.chain (U (Spec.grid XI0 XI1 M i : ℝ)) D) T0 T1 eps (Spec.grid XI0 XI1 M i : ℝ) ≠ 0
  · obtain ⟨c', e1, e2⟩ := k1 h0
    rw [hrun] at e1
    have : s' = ⟨some c', K, bs⟩ := by
      have := Option.some.inj e1
      simpa using congrArg (fun x => x.2.1) this
    exact ⟨c', fun n hn => ⟨h1 n hn, h2 n hn⟩, h3, by rw [this], e2⟩
  · exfalso
    push Not at h0
    obtain ⟨c', e1, -⟩ := k2 h0.1 h0.2
    rw [hrun] at e1
    have hc' : SUCCESS = E_SUBROUTINE EC_DIV_BY_ZERO := congrArg Prod.fst (Option.some.inj e1)
    revert hc'; decide

/-- C80 (first order). Let `(q1, q2)` be a Lipschitz continuous signal on `[T0, T1]` (zero outside); let the samples be its values, and let `a`, `b1`, `b2` be the scattering coefficients of the continuous-time
problem at the grid point `ξ_i`. Whenever `fnft_manakovv` reports success with one of the second-order methods, the values it wrote for `ξ_i` differ from them by at most `C h` plus a number
that is of the order of the machine precision (the routine replaces samples below `2^-52` by zero). -/
theorem C80_first_order (h : Spec.ManvArgs D u1 u2 x1 x2 T0 T1 κ o) {M : ℕ} {XI0 XI1 : ℝ} {c : Buf ℂ} (hc : Spec.ManContReq D M XI0 XI1 o c) (hrich : o.rich ≠ 1)
    {K : Option ℕ} {bs : Option (Buf ℂ)} (hbs : bs = none ∨ κ = -1 ∧ K ≠ none) (hd : o.disc ∈ Spec.manSecond) (hns : Spec.ManNonsing o.disc κ D M XI0 XI1 x1 x2)
    {q1 q2 : ℝ → ℂ} {Q L : ℝ} (hL : 0 ≤ L) (hq1 : Spec.Lip q1 T0 T1 Q L) (hq2 : Spec.Lip q2 T0 T1 Q L)
    (hx : ∀ n, n < D → x1 n = q1 (T0 + n * ((T1 - T0) / (D - 1))) ∧ x2 n = q2 (T0 + n * ((T1 - T0) / (D - 1)))) (roots : RootFinder) (s' : ManvSt) (o' : ManvOpts)
    (hrun : fnft_manakovv roots D (some u1) (some u2) (some (T0, T1)) M (some (XI0, XI1)) κ o ⟨some c, K, bs⟩ = some (SUCCESS, s', o')) :
    ∃ c', s'.contspec = some c' ∧ ∀ i, i < M → ∀ a b1 b2, Spec.ManScattering κ q1 q2 T0 T1 (Spec.grid XI0 XI1 M i : ℝ) a b1 b2 →
      Spec.ManContClose o.cs M i a b1 b2 (Spec.err1 (T1 - T0) (2 * Q) (2 * L) ((T1 - T0) / (D - 1)) (Spec.grid XI0 XI1 M i) +
        Spec.manFloor (T1 - T0) Q ((T1 - T0) / (D - 1)) (Spec.grid XI0 XI1 M i)) c' := by
  obtain ⟨p1, p2, U, c', e1, e2, e3, e4⟩ := man_written h hc hrich hbs hd hns hrun
  refine ⟨c', e3, fun i hi a b1 b2 hS => ?_⟩
  have hD' : (2 : ℝ) ≤ D := by exact_mod_cast h.hD
  have hpos : 0 < (T1 - T0) / ((D : ℝ) - 1) := div_pos (by linarith [h.hT]) (by linarith)
  have hnin : ∀ n : ℕ, n < D → T0 + n * ((T1 - T0) / (D - 1)) ∈ Icc T0 T1 := by
    intro n hn
    have h1 : (n : ℝ) + 1 ≤ D := by exact_mod_cast hn
    have h2 : ((D : ℝ) - 1) * ((T1 - T0) / (D - 1)) = T1 - T0 := by
      rw [mul_comm]; exact div_mul_cancel₀ _ (by linarith)
    have h3 : (0 : ℝ) ≤ n * ((T1 - T0) / (D - 1)) := by positivity
    exact ⟨by linarith, by nlinarith⟩
  have key := man_one (d := o.disc) (U := U (Spec.grid XI0 XI1 M i : ℝ)) h.hκ (manSecond_up hd) h.hD h.hT hq1 hq2 hL hS rfl (fun n hn => ?_)
  · exact manWritten_close e4 hi key.1 key.2.1 key.2.2
  · have g1 : p1 n = q1 (T0 + n * ((T1 - T0) / (D - 1))) := (e1 n hn).1.trans (hx n hn).1
    have g2 : p2 n = q2 (T0 + n * ((T1 - T0) / (D - 1))) := (e1 n hn).2.trans (hx n hn).2
    rw [← g1, ← g2]
    exact man_step_err hd h.hκ hpos.le e2 (by rw [g1]; exact hq1.bound _ (hnin n hn)) (by rw [g2]; exact hq2.bound _ (hnin n hn)) _

/-- C80 (second order). The same with `C h²`, if `q1` and `q2` have Lipschitz continuous derivatives and vanish outside of `[T0, T1]`. -/
theorem C80_second_order (h : Spec.ManvArgs D u1 u2 x1 x2 T0 T1 κ o) {M : ℕ} {XI0 XI1 : ℝ} {c : Buf ℂ} (hc : Spec.ManContReq D M XI0 XI1 o c) (hrich : o.rich ≠ 1)
    {K : Option ℕ} {bs : Option (Buf ℂ)} (hbs : bs = none ∨ κ = -1 ∧ K ≠ none) (hd : o.disc ∈ Spec.manSecond) (hns : Spec.ManNonsing o.disc κ D M XI0 XI1 x1 x2)
    {q1 q2 q1' q2' : ℝ → ℂ} {Q K1 L : ℝ} (hL : 0 ≤ L) (hq1 : Spec.Smooth q1 q1' T0 T1 Q K1 L) (hq2 : Spec.Smooth q2 q2' T0 T1 Q K1 L)
    (hx : ∀ n, n < D → x1 n = q1 (T0 + n * ((T1 - T0) / (D - 1))) ∧ x2 n = q2 (T0 + n * ((T1 - T0) / (D - 1)))) (roots : RootFinder) (s' : ManvSt) (o' : ManvOpts)
    (hrun : fnft_manakovv roots D (some u1) (some u2) (some (T0, T1)) M (some (XI0, XI1)) κ o ⟨some c, K, bs⟩ = some (SUCCESS, s', o')) :
    ∃ c', s'.contspec = some c' ∧ ∀ i, i < M → ∀ a b1 b2, Spec.ManScattering κ q1 q2 T0 T1 (Spec.grid XI0 XI1 M i : ℝ) a b1 b2 →
      Spec.ManContClose o.cs M i a b1 b2 (Spec.err2 (T1 - T0) (2 * Q) (2 * K1) (2 * L) ((T1 - T0) / (D - 1)) (Spec.grid XI0 XI1 M i) +
        Spec.manFloor (T1 - T0) Q ((T1 - T0) / (D - 1)) (Spec.grid XI0 XI1 M i)) c' := by
  obtain ⟨p1, p2, U, c', e1, e2, e3, e4⟩ := man_written h hc hrich hbs hd hns hrun
  refine ⟨c', e3, fun i hi a b1 b2 hS => ?_⟩
  have hD' : (2 : ℝ) ≤ D := by exact_mod_cast h.hD
  have hpos : 0 < (T1 - T0) / ((D : ℝ) - 1) := div_pos (by linarith [h.hT]) (by linarith)
  have key := man_two (d := o.disc) (U := U (Spec.grid XI0 XI1 M i : ℝ)) h.hκ (manSecond_up hd) h.hD h.hT hq1 hq2 hL hS rfl (fun n hn => ?_)
  · exact manWritten_close e4 hi key.1 key.2.1 key.2.2
  · have g1 : p1 n = q1 (T0 + n * ((T1 - T0) / (D - 1))) := (e1 n hn).1.trans (hx n hn).1
    have g2 : p2 n = q2 (T0 + n * ((T1 - T0) / (D - 1))) := (e1 n hn).2.trans (hx n hn).2
    rw [← g1, ← g2]
    exact man_step_err hd h.hκ hpos.le e2 (by rw [g1]; exact hq1.bound _) (by rw [g2]; exact hq2.bound _) _

/-- C80. The part of the bounds that does not tend to zero with the step size is tiny: with `T (|ξ| + 4 Q) ≤ 1`, `T ≤ 1` and at least ten steps it is at most `2 · 10^-12`. (The remaining parts of
the bounds are those of C75, which tend to zero by `C75_bounds_vanish`.) -/
theorem C80_floor {T Q h xi : ℝ} (hT : 0 < T) (hQ : 0 ≤ Q) (hh : 0 ≤ h) (h1 : h ≤ T / 10) (h2 : T * (|xi| + 4 * Q) ≤ 1) (hT1 : T ≤ 1) :
    Spec.manFloor T Q h xi ≤ 2e-12 := by
  have hx := abs_nonneg xi
  have hTQ : T * Q ≤ 1 / 4 := by nlinarith [mul_nonneg hT.le hx]
  have e2 : Real.exp 1 < 2.7182818286 := Real.exp_one_lt_d9
  have hX : 0 ≤ |xi| + 4 * Q := by linarith
  have hhX : h * (|xi| + 4 * Q) ≤ 1 / 10 := by nlinarith
  have e3 : Real.exp (2 * h * (|xi| + 4 * Q)) ≤ 1.25 := by
    have k1 : Real.exp (2 * h * (|xi| + 4 * Q)) ≤ Real.exp (1 / 5) := Real.exp_le_exp.mpr (by nlinarith)
    have k2 : Real.exp (1 / 5) ^ 5 = Real.exp 1 := by rw [← Real.exp_nat_mul]; norm_num
    have k3 : Real.exp (1 / 5) ≤ 1.25 := by
      by_contra hc
      push Not at hc
      have := pow_lt_pow_left₀ hc (by norm_num) (n := 5) (by norm_num)
      rw [k2] at this
      norm_num at this e2
      linarith
    exact k1.trans k3
  have hd : (T + h) * Spec.manDelta Q h xi ≤ 7e-16 := by
    rw [Spec.manDelta, ← mul_assoc]
    have k1 : (T + h) * (2 ^ (-51 : ℤ) + 1e-31 * Q) ≤ 5e-16 := by
      have k2 : (T + h) * Q ≤ 1 := by nlinarith
      have k3 : T + h ≤ 1.1 := by linarith
      have k4 : (2 : ℝ) ^ (-51 : ℤ) ≤ 4.5e-16 := by norm_num
      have k5 : (0 : ℝ) ≤ 2 ^ (-51 : ℤ) := by positivity
      have k6 : (T + h) * 2 ^ (-51 : ℤ) ≤ 1.1 * 4.5e-16 := mul_le_mul k3 k4 k5 (by norm_num)
      have k7 : (T + h) * (1e-31 * Q) ≤ 1e-31 := by
        have := mul_le_mul_of_nonneg_left k2 (by norm_num : (0 : ℝ) ≤ 1e-31)
        calc _ = 1e-31 * ((T + h) * Q) := by ring
          _ ≤ _ := by simpa using this
      rw [mul_add]
      calc _ ≤ 1.1 * 4.5e-16 + 1e-31 := add_le_add k6 k7
        _ ≤ _ := by norm_num
    calc _ ≤ 5e-16 * 1.25 := mul_le_mul k1 e3 (Real.exp_pos _).le (by norm_num)
      _ ≤ _ := by norm_num
  rw [Spec.manFloor]
  have e4 : Real.exp ((T + h) * (5 * (|xi| + 4 * Q) + Spec.manDelta Q h xi)) ≤ 2.7182818286 ^ 7 := by
    have k1 : (T + h) * (5 * (|xi| + 4 * Q) + Spec.manDelta Q h xi) ≤ 7 := by
      have k2 : (T + h) * (|xi| + 4 * Q) ≤ 1.1 := by nlinarith
      have k3 : (7e-16 : ℝ) ≤ 1 := by norm_num
      have k4 : (T + h) * (5 * (|xi| + 4 * Q) + Spec.manDelta Q h xi) = 5 * ((T + h) * (|xi| + 4 * Q)) + (T + h) * Spec.manDelta Q h xi := by ring
      rw [k4]
      have k5 := hd.trans k3
      norm_num at k2
      linarith
    calc _ ≤ Real.exp ((7 : ℕ) * 1) := Real.exp_le_exp.mpr (by simpa using k1)
      _ = Real.exp 1 ^ 7 := Real.exp_nat_mul _ _
      _ ≤ _ := pow_le_pow_left₀ (Real.exp_pos _).le e2.le 7
  calc _ ≤ 7e-16 * 2.7182818286 ^ 7 := mul_le_mul hd e4 (Real.exp_pos _).le (by norm_num)
    _ ≤ _ := by norm_num

/-- The hypotheses of C80 hold, for instance, for a signal with two constant components. -/
example : Spec.ManvArgs 5 (Buf.ofFn 5 fun _ => 1) (Buf.ofFn 5 fun _ => I) (fun _ => 1) (fun _ => I) (-1) 1 (-1) { manakovv_default_opts with disc := .BO } ∧
    Spec.ManContReq 5 3 (-1) 1 { manakovv_default_opts with disc := .BO } (Buf.malloc 6) ∧ ManDisc.BO ∈ Spec.manSecond ∧
    Spec.ManNonsing .BO (-1) 5 3 (-1) 1 (fun _ => 1) (fun _ => I) ∧ Spec.Lip (fun _ => 1) (-1) 1 1 0 ∧ Spec.Lip (fun _ => I) (-1) 1 1 0 := by
  refine ⟨⟨by norm_num, by simp [man_upsampling_factor], fun _ => by norm_num, Buf.holds_ofFn _ _, Buf.holds_ofFn _ _, by norm_num, by norm_num,
    by left; rfl⟩, ⟨by norm_num, by norm_num, by simp [man_upsampling_factor, man_degree],
    fun n => by simp [manakovv_default_opts], by simp [Spec.manCsLen, manakovv_default_opts]⟩, by simp [Spec.manSecond], ?_,
    ⟨fun t _ => by simp, fun s _ t _ => by simp⟩, ⟨fun t _ => by simp, fun s _ t _ => by simp⟩⟩
  intro _ _ i hi n _
  right
  have h3 : i = 0 ∨ i = 1 ∨ i = 2 := by omega
  rcases h3 with rfl | rfl | rfl <;> norm_num [Spec.grid, man_upsampling_factor]

end FNFT

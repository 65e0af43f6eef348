import Verif.Proofs.ConvKdv
import Verif.Props.NsevConv
/-!
# The continuous spectrum computed by `fnft_kdvv` converges to that of the continuous-time signal
-/
set_option linter.unusedSectionVars false
namespace FNFT
open Complex AknsDisc Set
open FNFT.Conv

attribute [local instance] Matrix.linftyOpNormedRing
noncomputable local instance m2AlgebraV : NormedAlgebra ℂ Spec.M2 := Matrix.linftyOpNormedAlgebra

/-- C77. The scattering coefficients of the Schroedinger operator exist and are unique, for every frequency other than zero. -/
theorem C77_scattering_exists {q : ℝ → ℂ} {T0 T1 : ℝ} (hT : T0 ≤ T1) (hq : ContinuousOn q (Icc T0 T1)) {l : ℂ} (hl : l ≠ 0) :
    ∃ a b, Spec.KdvScattering q T0 T1 l a b ∧ ∀ a' b', Spec.KdvScattering q T0 T1 l a' b' → a' = a ∧ b' = b := by
  have hsq : I * I = -1 := I_mul_I
  have hI : I * l ≠ 0 := mul_ne_zero I_ne_zero hl
  have hP : ContinuousOn (fun t => Spec.kdvP false (q t) l) (Icc T0 T1) := by
    have e : (fun t => Spec.kdvP false (q t) l) = fun t => Spec.aknsP (-1) 0 l + q t • (!![0, 0; 1, 0] : Spec.M2) := by
      funext t; ext i j; fin_cases i <;> fin_cases j <;> simp [Spec.kdvP, Spec.aknsP]
    rw [e]
    exact continuousOn_const.add (hq.smul continuousOn_const)
  obtain ⟨V, h1, h2⟩ := exists_sol hT hP (kdvVec false l (exp (-I * l * T0)) (-I * l * exp (-I * l * T0)))
  have hent : ∀ (i j : Fin 2) (t : ℝ), t ∈ Icc T0 T1 → HasDerivWithinAt (fun t => V t i j) ((Spec.kdvP false (q t) l * V t) i j) (Icc T0 T1) t := by
    intro i j t ht
    let f : Spec.M2 →ₗ[ℝ] ℂ := 
      { toFun := fun X => X i j, map_add' := fun _ _ => rfl, map_smul' := fun c X => by
          rw [← Complex.coe_smul]; simp }
    have hb : ∀ X : Spec.M2, ‖f X‖ ≤ 1 * ‖X‖ := fun X => by rw [one_mul]; exact entry_le X i j
    exact ((f.mkContinuous 1 hb).hasFDerivAt.comp_hasDerivWithinAt t (h2 t ht))
  -- the solution and its derivative
  obtain ⟨p, hp⟩ : ∃ p : ℝ → ℂ, p = fun t => V t 0 0 := ⟨_, rfl⟩
  obtain ⟨p', hp'⟩ : ∃ p' : ℝ → ℂ, p' = fun t => -I * l * V t 0 0 - V t 1 0 := ⟨_, rfl⟩
  have hode : ∀ t ∈ Icc T0 T1, HasDerivWithinAt p (p' t) (Icc T0 T1) t ∧ HasDerivWithinAt p' (-(q t + l ^ 2) * p t) (Icc T0 T1) t := by
    intro t ht
    have d0 := hent 0 0 t ht
    have d1 := hent 1 0 t ht
    rw [Matrix.mul_apply, Fin.sum_univ_two] at d0 d1
    rw [hp, hp']
    constructor
    · refine d0.congr_deriv ?_
      simp [Spec.kdvP, Spec.aknsP]
      ring
    · refine ((d0.const_mul (-I * l)).sub d1).congr_deriv ?_
      simp [Spec.kdvP, Spec.aknsP]
      linear_combination (l ^ 2 * V t 0 0) * hsq
  have hp0 : p T0 = exp (-I * l * T0) := by rw [hp]; dsimp only; rw [h1, kdvVec, if_neg (by simp), col_eq]; simp
  have hp0' : p' T0 = -I * l * exp (-I * l * T0) := by rw [hp']; dsimp only; rw [h1, kdvVec, if_neg (by simp), col_eq]; simp
  have hE1 : exp (-I * l * T1) ≠ 0 := exp_ne_zero _
  have hE2 : exp (I * l * T1) ≠ 0 := exp_ne_zero _
  refine ⟨(p T1 - p' T1 / (I * l)) / 2 / exp (-I * l * T1), (p T1 + p' T1 / (I * l)) / 2 / exp (I * l * T1), ⟨p, p', hode, hp0, hp0', ?_, ?_⟩, ?_⟩
  · rw [div_mul_cancel₀ _ hE1, div_mul_cancel₀ _ hE2]; ring
  · rw [div_mul_cancel₀ _ hE1, div_mul_cancel₀ _ hE2]; field_simp; ring
  · rintro a' b' ⟨y, y', k1, k2, k3, k4, k5⟩
    have h3 := kdv_sol false k1
    have h3' := kdv_sol false hode
    obtain ⟨M, hM⟩ := isCompact_Icc.exists_bound_of_continuousOn hP
    have h4 : Sol (fun t => Spec.kdvP false (q t) l) (fun t => kdvVec false l (p t) (p' t) - kdvVec false l (y t) (y' t)) T0 T1 := fun t ht =>
      ((h3' t ht).sub (h3 t ht)).congr_deriv (by rw [mul_sub])
    have h5 := h4.growth hM (right_mem_Icc.mpr hT)
    rw [k2, k3, hp0, hp0', sub_self, norm_zero, mul_zero, norm_le_zero_iff, sub_eq_zero] at h5
    have c0 := congrFun (congrFun h5 0) 0
    have c1 := congrFun (congrFun h5 1) 0
    simp only [kdvVec, Bool.false_eq_true, if_false, col_eq] at c0 c1
    simp at c0 c1
    rw [c0] at c1
    have c2 : p' T1 = y' T1 := by linear_combination -c1
    rw [c0, c2, k4, k5]
    constructor
    · rw [eq_div_iff hE1]; field_simp; ring
    · rw [eq_div_iff hE2]; field_simp; ring

variable {D : ℕ} {qb : Buf ℂ} {x : ℕ → ℝ} {T0 T1 : ℝ} {o : KdvvOpts} {a : AknsDisc} {v : ℕ}

theorem swapIf_steps {eps : ℝ} {qf rf : ℕ → ℂ} {U : ℂ → ℕ → Spec.M2} (h : if v ≠ 0 then Spec.NseSteps a eps qf rf U else Spec.NseSteps a eps rf qf U) :
    ∃ qg rg, Spec.NseSteps a eps qg rg U ∧ (∀ n, (rf n = -1 → ∀ l, Spec.aknsP (qg n) (rg n) l = Spec.kdvP (v ≠ 0) (qf n) l) ∧
      ∀ Q, ‖qf n‖ ≤ Q → ‖rf n‖ ≤ Q → ‖qg n‖ ≤ Q ∧ ‖rg n‖ ≤ Q) := by
  by_cases hv : v ≠ 0
  · rw [if_pos hv] at h
    refine ⟨_, _, h, fun n => ⟨fun hr l => ?_, fun Q h1 h2 => ⟨h1, h2⟩⟩⟩
    simp [Spec.kdvP, hv, hr]
  · rw [if_neg hv] at h
    refine ⟨_, _, h, fun n => ⟨fun hr l => ?_, fun Q h1 h2 => ⟨h2, h1⟩⟩⟩
    simp [Spec.kdvP, not_not.mp hv, hr]

theorem kdv_real {T h Q K L : ℝ} (xi : ℝ) : Spec.kdvCond ‖(xi : ℂ)‖ * Spec.err1 T Q L h ‖(xi : ℂ)‖ = Spec.kdvCond xi * Spec.err1 T Q L h xi ∧
    Spec.kdvCond ‖(xi : ℂ)‖ * Spec.err2 T Q K L h ‖(xi : ℂ)‖ = Spec.kdvCond xi * Spec.err2 T Q K L h xi := by
  rw [(err_real (K := K) xi).1, (err_real xi).2]
  unfold Spec.kdvCond
  rw [Complex.norm_real, Real.norm_eq_abs, abs_abs]
  exact ⟨rfl, rfl⟩

/-- C77 (first order). Let `q` be Lipschitz continuous on `[T0, T1]` and zero outside, let the (real) samples be its values, and let `a(ξ)`, `b(ξ)` be the scattering
coefficients of the Schroedinger operator at the grid point `ξ_i`. Whenever `fnft_kdvv` reports success with one of the methods listed in `Spec.first`, in either of the two AKNS systems
(`v`), the values it wrote for `ξ_i` differ from `a(ξ)`, `b(ξ)` by at most `C h`, `h` being the step, with an explicit constant. `Q` bounds `|q|` and `1`. (For the Ablowitz-Ladik
method, `h Q ≤ 1/2` is assumed.) -/
theorem C77_first_order (h : Spec.KdvvArgs D qb x T0 T1 o a v) {M : ℕ} {XI0 XI1 : ℝ} {c : Buf ℂ}
    (hc : Spec.KdvContReq D M XI0 XI1 o a c) (hrich : o.rich ≠ 1) {s : NsevSt} (hs : s.contspec = some c)
    (hr : Spec.KdvvReq o M (some (XI0, XI1)) s) (ha : a ∈ Spec.first) {q : ℝ → ℂ} {Q L : ℝ} (hL : 0 ≤ L) (hQ : 1 ≤ Q) (hq : Spec.Lip q T0 T1 Q L)
    (hmod : a = .D2SPLIT2_MODAL → (T1 - T0) / (D - 1) * Q ≤ 1 / 2)
    (hx : ∀ n, n < D → (x n : ℂ) = q (T0 + n * ((T1 - T0) / (D - 1)))) (next : NextToward) (g : ℕ → Garbage) (s' : NsevSt) (o' : KdvvOpts)
    (hrun : fnft_kdvv next D (some qb) (some (T0, T1)) M (some (XI0, XI1)) o g s = some (SUCCESS, s', o')) :
    ∃ c', s'.contspec = some c' ∧ ∀ i, i < M → ∀ A B, Spec.KdvScattering q T0 T1 (Spec.grid XI0 XI1 M i) A B →
      Spec.ContClose o.cs M i A B (Spec.kdvCond (Spec.grid XI0 XI1 M i) * Spec.err1 (T1 - T0) Q L ((T1 - T0) / (D - 1)) (Spec.grid XI0 XI1 M i)) c' := by
  obtain ⟨qf, rf, U, h1, h2, h3⟩ := C48_any_request h hc hrich hs hr
  obtain ⟨-, -, c', e1, e2⟩ := h3 next g s' o' hrun
  obtain ⟨u1, u2⟩ := first_up ha
  rw [Spec.KdvProcessed, if_pos u1] at h1
  obtain ⟨qg, rg, h2', hsw⟩ := swapIf_steps h2
  refine ⟨c', e1, fun i hi A B hS => ?_⟩
  have hD' : (2 : ℝ) ≤ D := by exact_mod_cast h.hD
  have hpos : 0 < (T1 - T0) / ((D : ℝ) - 1) := div_pos (by linarith [h.hT]) (by linarith)
  have hnin : ∀ n : ℕ, n < D → T0 + n * ((T1 - T0) / (D - 1)) ∈ Icc T0 T1 := by
    intro n hn
    have hn' : (n : ℝ) + 1 ≤ D := by exact_mod_cast hn
    have h0 : (0 : ℝ) ≤ n * ((T1 - T0) / (D - 1)) := by positivity
    have h4 : ((D : ℝ) - 1) * ((T1 - T0) / (D - 1)) = T1 - T0 := by
      rw [mul_comm]; exact div_mul_cancel₀ _ (by linarith : (0 : ℝ) < D - 1).ne'
    refine ⟨by linarith, ?_⟩
    nlinarith
  have key := kdv_one (U := U) (van := v ≠ 0) h.hD h.hT hq hQ hL (ofReal_ne_zero.mpr (hc.hgrid i hi)) hS rfl (fun n hn => ?_)
  · rw [ofReal_im, zero_mul, zero_mul, neg_zero, Real.exp_zero, mul_one, (kdv_real (K := 0) _).1] at key
    refine contWritten_close hc.hcs e2 hi ?_ ?_
    · simp only [u1, mul_one, u2]; exact key.1
    · simp only [u1, mul_one, u2]; exact key.2
  · obtain ⟨g1, g2⟩ := h1 n hn
    rw [one_mul, hx n hn] at g1
    rw [← g1, ← (hsw n).1 g2]
    have b1 : ‖qf n‖ ≤ Q := by rw [g1]; exact hq.bound _ (hnin n hn)
    have b2 : ‖rf n‖ ≤ Q := by rw [g2]; simpa using hQ
    obtain ⟨b3, b4⟩ := (hsw n).2 Q b1 b2
    exact step_err1 h2' hpos.le ha hmod b3 b4 _

/-- C77 (second order). Let `q` be differentiable with a Lipschitz continuous derivative on the real line, and zero outside of `[T0, T1]`. Whenever `fnft_kdvv` reports success
with one of the methods listed in `Spec.second`, the values it wrote for `ξ_i` differ from `a(ξ)`, `b(ξ)` by at most `C h²`, with an explicit constant. -/
theorem C77_second_order (h : Spec.KdvvArgs D qb x T0 T1 o a v) {M : ℕ} {XI0 XI1 : ℝ} {c : Buf ℂ}
    (hc : Spec.KdvContReq D M XI0 XI1 o a c) (hrich : o.rich ≠ 1) {s : NsevSt} (hs : s.contspec = some c)
    (hr : Spec.KdvvReq o M (some (XI0, XI1)) s) (ha : a ∈ Spec.second) {q q' : ℝ → ℂ} {Q K L : ℝ} (hL : 0 ≤ L) (hQ : 1 ≤ Q)
    (hq : Spec.Smooth q q' T0 T1 Q K L) (hmod : a = .D2SPLIT2_MODAL → (T1 - T0) / (D - 1) * Q ≤ 1 / 2)
    (hx : ∀ n, n < D → (x n : ℂ) = q (T0 + n * ((T1 - T0) / (D - 1)))) (next : NextToward) (g : ℕ → Garbage) (s' : NsevSt) (o' : KdvvOpts)
    (hrun : fnft_kdvv next D (some qb) (some (T0, T1)) M (some (XI0, XI1)) o g s = some (SUCCESS, s', o')) :
    ∃ c', s'.contspec = some c' ∧ ∀ i, i < M → ∀ A B, Spec.KdvScattering q T0 T1 (Spec.grid XI0 XI1 M i) A B →
      Spec.ContClose o.cs M i A B (Spec.kdvCond (Spec.grid XI0 XI1 M i) * Spec.err2 (T1 - T0) Q K L ((T1 - T0) / (D - 1)) (Spec.grid XI0 XI1 M i)) c' := by
  obtain ⟨qf, rf, U, h1, h2, h3⟩ := C48_any_request h hc hrich hs hr
  obtain ⟨-, -, c', e1, e2⟩ := h3 next g s' o' hrun
  obtain ⟨u1, u2⟩ := first_up (List.mem_cons_of_mem _ (List.mem_cons_of_mem _ ha))
  rw [Spec.KdvProcessed, if_pos u1] at h1
  obtain ⟨qg, rg, h2', hsw⟩ := swapIf_steps h2
  refine ⟨c', e1, fun i hi A B hS => ?_⟩
  have hD' : (2 : ℝ) ≤ D := by exact_mod_cast h.hD
  have hpos : 0 < (T1 - T0) / ((D : ℝ) - 1) := div_pos (by linarith [h.hT]) (by linarith)
  have key := kdv_two (U := U) (van := v ≠ 0) h.hD h.hT hq hQ hL (ofReal_ne_zero.mpr (hc.hgrid i hi)) hS rfl (fun n hn => ?_)
  · rw [ofReal_im, zero_mul, zero_mul, neg_zero, Real.exp_zero, mul_one, (kdv_real _).2] at key
    refine contWritten_close hc.hcs e2 hi ?_ ?_
    · simp only [u1, mul_one, u2]; exact key.1
    · simp only [u1, mul_one, u2]; exact key.2
  · obtain ⟨g1, g2⟩ := h1 n hn
    rw [one_mul, hx n hn] at g1
    rw [← g1, ← (hsw n).1 g2]
    have b1 : ‖qf n‖ ≤ Q := by rw [g1]; exact hq.bound _
    have b2 : ‖rf n‖ ≤ Q := by rw [g2]; simpa using hQ
    obtain ⟨b3, b4⟩ := (hsw n).2 Q b1 b2
    exact step_err2 h2' hpos.le ha hmod b3 b4 _

/-- C77. For every frequency, the bounds tend to zero for growing numbers of samples: at least like `1 / D` and like `1 / D²`, respectively. -/
theorem C77_bounds_vanish (T Q K L xi : ℝ) : ∃ C, (∀ D : ℕ, 2 ≤ D → |Spec.kdvCond xi * Spec.err1 T Q L (T / (D - 1)) xi| ≤ C / D) ∧
    ∀ D : ℕ, 2 ≤ D → |Spec.kdvCond xi * Spec.err2 T Q K L (T / (D - 1)) xi| ≤ C / (D : ℝ) ^ 2 := by
  obtain ⟨C, h1, h2⟩ := C75_bounds_vanish T Q K L xi
  refine ⟨|Spec.kdvCond xi| * C, fun D hD => ?_, fun D hD => ?_⟩
  · rw [abs_mul, mul_div_assoc]; exact mul_le_mul_of_nonneg_left (h1 D hD) (abs_nonneg _)
  · rw [abs_mul, mul_div_assoc]; exact mul_le_mul_of_nonneg_left (h2 D hD) (abs_nonneg _)

/-! ### The conditions can be met -/

/-- A barrier of height 2 (the default options, four samples, two frequencies) is covered by the theorem for the first order. -/
example : Spec.KdvvArgs 4 (Buf.ofList [2, 2, 2, 2]) (fun _ => 2) (-1) 1 kdvv_default_opts .D2SPLIT4B 0 ∧
    Spec.KdvContReq 4 2 (-2) 2 kdvv_default_opts .D2SPLIT4B (Buf.malloc 3) ∧ D2SPLIT4B ∈ Spec.first ∧
    Spec.KdvvReq kdvv_default_opts 2 (some (-2, 2)) ⟨some (Buf.malloc 3), none, none, none⟩ ∧
    Spec.Lip (fun _ => 2) (-1) 1 2 0 ∧ ∃ A B, Spec.KdvScattering (fun _ => 2) (-1) 1 (Spec.grid (-2) 2 2 0) A B where
  left :=
    { hd := rfl, hv := rfl, hD := by norm_num, hCF := fun h => (by norm_num), hsize := by decide
      hq := by intro i hi; have : i < 4 := by omega
               interval_cases i <;> simp [Buf.ofList, Buf.rd]
      hT := by norm_num, hal := fun h => by cases h }
  right := by
    have hc : Spec.KdvContReq 4 2 (-2) 2 kdvv_default_opts .D2SPLIT4B (Buf.malloc 3) :=
      { hM := by norm_num, hXI := by norm_num
        hgrid := by
          intro i hi
          have : i < 2 := hi
          interval_cases i <;> norm_num [Spec.grid]
        hsz := by decide, hcs := fun n h => (by cases h), hlen := by decide }
    refine ⟨hc, by simp [Spec.first, Spec.second], ?_, ⟨fun t _ => by simp, fun s _ t _ => by simp⟩, ?_⟩
    · exact { hXI := fun _ => ⟨_, rfl, hc.hXI⟩, hM := Or.inr (by simp), hgrid := fun X hX _ => by cases hX; exact hc.hgrid
              hM1 := by norm_num, hK := fun h => (by cases h), hguess := fun _ bs K i u hb => by cases hb }
    · obtain ⟨A, B, h, -⟩ := C77_scattering_exists (q := fun _ => 2) (T0 := -1) (T1 := 1) (by norm_num) continuousOn_const
        (l := (Spec.grid (-2) 2 2 0 : ℝ)) (by norm_num [Spec.grid])
      exact ⟨A, B, h⟩

end FNFT

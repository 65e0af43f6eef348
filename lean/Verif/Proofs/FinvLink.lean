import Verif.Proofs.FinvTop
import Verif.Proofs.NsevCont
import Mathlib.Analysis.SpecialFunctions.Trigonometric.ArctanDeriv
import Mathlib.Analysis.SpecialFunctions.Trigonometric.Bounds
import Mathlib.Analysis.Calculus.MeanValue
import Mathlib.Analysis.SpecialFunctions.Trigonometric.DerivHyp
/-! Fast inverse scattering: relation to the fast forward scattering. -/
namespace FNFT
open Polynomial Matrix Kiss

theorem pmat_rev {b : Buf ℂ} {D : ℕ} {x : ℕ → ℂ} (h : b.Holds 0 (4 * (D + 1)) x) :
    RevHolds b 0 (D + 1) D (Spec.pmat 2 D (D + 1) 0 x) := by
  intro e he j hj
  have hlt : e * (D + 1) + j < 4 * (D + 1) := by
    have : e * (D + 1) ≤ 3 * (D + 1) := Nat.mul_le_mul_right _ (by omega)
    omega
  have hh := h _ hlt
  rw [Nat.zero_add] at hh ⊢
  rw [hh]
  obtain ⟨a, c, rfl⟩ := idx_ex (m := 2) he
  rw [ent_idx, Spec.pmat, Matrix.of_apply, Spec.poly_coeff]
  rw [if_pos (by omega)]
  congr 1
  rw [show D - (D - j) = j by omega]; rfl

/-- Every first column with a non-zero constant coefficient is that of a layered medium, if no layer is singular. -/
theorem peel_exists (f : ℂ → ℂ) (hf : ∀ R, 1 - f R * R ≠ 0) : ∀ (d : ℕ) (v : Fin 2 → ℂ[X]), (v 0).coeff 0 ≠ 0 →
    ∃ (R : ℕ → ℂ) (V : Fin 2 → ℂ[X]), (V 0).coeff 0 ≠ 0 ∧ (layers (fun n => f (R n)) R d).mulVec V = v := by
  intro d
  induction d with
  | zero => intro v hv; exact ⟨fun _ => 0, v, hv, by simp [layers]⟩
  | succ d ih =>
    intro v hv
    obtain ⟨r, hr⟩ : ∃ r, r = (v 1).coeff 0 / (v 0).coeff 0 := ⟨_, rfl⟩
    obtain ⟨c, hc⟩ : ∃ c, c = (1 - f r * r)⁻¹ := ⟨_, rfl⟩
    have hdet : c * (1 - f r * r) = 1 := by rw [hc]; exact inv_mul_cancel₀ (hf r)
    have h0 : (v 1 - C r * v 0).coeff 0 = 0 := by
      rw [coeff_sub, coeff_C_mul, hr, div_mul_cancel₀ _ hv, sub_self]
    have hdiv : X * divX (v 1 - C r * v 0) = v 1 - C r * v 0 := by
      have := X_mul_divX_add (v 1 - C r * v 0)
      rwa [h0, C_0, add_zero] at this
    obtain ⟨R, V, hV, hRV⟩ := ih ![C c * (v 0 - C (f r) * v 1), C c * divX (v 1 - C r * v 0)] (by
      show (C c * (v 0 - C (f r) * v 1)).coeff 0 ≠ 0
      have hb : (v 1).coeff 0 = r * (v 0).coeff 0 := by rw [hr, div_mul_cancel₀ _ hv]
      rw [coeff_C_mul, coeff_sub, coeff_C_mul, hb,
        show c * ((v 0).coeff 0 - f r * (r * (v 0).coeff 0)) = c * (1 - f r * r) * (v 0).coeff 0 by ring, hdet, one_mul]
      exact hv)
    refine ⟨Function.update R d r, V, hV, ?_⟩
    have hcongr : ∀ n, n ≤ d → layers (fun n => f (Function.update R d r n)) (Function.update R d r) n = layers (fun n => f (R n)) R n := by
      intro n hn
      induction n with
      | zero => rfl
      | succ n ihn =>
        rw [layers, layers, ihn (by omega)]
        simp only [Function.update_of_ne (show n ≠ d by omega)]
    rw [layers, hcongr d le_rfl, ← Matrix.mulVec_mulVec, hRV]
    simp only [Function.update_self]
    have hC : C c * (1 - C (f r) * C r) = (1 : ℂ[X]) := by
      rw [← C_mul, ← C_1, ← C_sub, ← C_mul, hdet]
    funext i
    fin_cases i
    · simp only [lay, Matrix.mulVec, dotProduct, Fin.sum_univ_two]
      show 1 * (C c * (v 0 - C (f r) * v 1)) + C (f r) * X * (C c * divX (v 1 - C r * v 0)) = v 0
      linear_combination (C (f r) * C c) * hdiv + v 0 * hC
    · simp only [lay, Matrix.mulVec, dotProduct, Fin.sum_univ_two]
      show C r * (C c * (v 0 - C (f r) * v 1)) + X * (C c * divX (v 1 - C r * v 0)) = v 1
      linear_combination (C c) * hdiv + v 1 * hC

/-- The layers are determined by the first column. -/
theorem layers_unique (f : ℂ → ℂ) : ∀ (d : ℕ) (R R' : ℕ → ℂ) (V V' : Fin 2 → ℂ[X]), (V 0).coeff 0 ≠ 0 → (V' 0).coeff 0 ≠ 0 →
    (∀ n, n < d → 1 - f (R n) * R n ≠ 0) →
    (∀ m, m < d → ∀ i, ((layers (fun n => f (R n)) R d).mulVec V i).coeff m = ((layers (fun n => f (R' n)) R' d).mulVec V' i).coeff m) →
    ∀ n, n < d → R n = R' n := by
  intro d
  induction d with
  | zero => intro R R' V V' _ _ _ _ n hn; omega
  | succ d ih =>
    intro R R' V V' hV hV' hdet h
    obtain ⟨w, hw⟩ : ∃ w, w = (layers (fun n => f (R n)) R d).mulVec V := ⟨_, rfl⟩
    obtain ⟨w', hw'⟩ : ∃ w', w' = (layers (fun n => f (R' n)) R' d).mulVec V' := ⟨_, rfl⟩
    have e : ∀ (Q r : ℂ) (u : Fin 2 → ℂ[X]), (lay Q r).mulVec u 0 = u 0 + C Q * X * u 1 ∧ (lay Q r).mulVec u 1 = C r * u 0 + X * u 1 := by
      intro Q r u
      simp [lay, Matrix.mulVec, dotProduct, Fin.sum_univ_two]
    simp only [layers, ← Matrix.mulVec_mulVec, ← hw, ← hw'] at h
    have hw0 : (w 0).coeff 0 ≠ 0 := by rw [hw, layers_vec_zero]; exact hV
    have hw0' : (w' 0).coeff 0 ≠ 0 := by rw [hw', layers_vec_zero]; exact hV'
    have h00 := h 0 (by omega) 0
    have h01 := h 0 (by omega) 1
    rw [(e _ _ _).1, (e _ _ _).1] at h00
    rw [(e _ _ _).2, (e _ _ _).2] at h01
    have z1 : ∀ (c : ℂ) (p : ℂ[X]), (C c * X * p).coeff 0 = 0 := fun c p => by rw [mul_assoc, coeff_C_mul, coeff_X_mul_zero, mul_zero]
    simp only [coeff_add, z1, add_zero, coeff_C_mul, coeff_X_mul_zero] at h00 h01
    have hRd : R d = R' d := by
      rw [h00] at h01
      exact mul_right_cancel₀ hw0' h01
    have key : ∀ m, m < d → ∀ i, (w i).coeff m = (w' i).coeff m := by
      rw [← hRd] at h
      have hd0 := hdet d (by omega)
      have h0 : ∀ m, m < d + 1 → (w 0).coeff m = (w' 0).coeff m := by
        intro m hm
        have a := h m hm 0
        have b := h m hm 1
        rw [(e _ _ _).1, (e _ _ _).1] at a
        rw [(e _ _ _).2, (e _ _ _).2] at b
        simp only [coeff_add, coeff_C_mul, mul_assoc] at a b
        have : (1 - f (R d) * R d) * (w 0).coeff m = (1 - f (R d) * R d) * (w' 0).coeff m := by
          linear_combination a - f (R d) * b
        exact mul_left_cancel₀ hd0 this
      intro m hm i
      fin_cases i
      · exact h0 m (by omega)
      · have b := h (m + 1) (by omega) 1
        rw [(e _ _ _).2, (e _ _ _).2] at b
        simp only [coeff_add, coeff_C_mul, coeff_X_mul, h0 (m + 1) (by omega)] at b
        exact add_left_cancel b
    intro n hn
    rcases Nat.lt_succ_iff_lt_or_eq.1 hn with h' | h'
    · refine ih R R' V V' hV hV' (fun n hn => hdet n (by omega)) ?_ n h'
      intro m hm i
      rw [← hw, ← hw']
      exact key m hm i
    · rw [h']; exact hRd

/-- The product of the forward scattering, sample by sample. -/
theorem prod_layers (Q R c : ℕ → ℂ) (S : ℕ → PMat 2) : ∀ D, (∀ n, n < D → S n = C (c n) • lay (Q n) (R n)) →
    ((List.range D).map fun s => S (D - 1 - s)).prod = C (∏ n ∈ Finset.range D, c n) • layers Q R D := by
  intro D
  induction D with
  | zero => intro _; simp [layers]
  | succ D ih =>
    intro h
    rw [List.range_succ_eq_map, List.map_cons, List.prod_cons, List.map_map]
    have : (List.map ((fun s => S (D + 1 - 1 - s)) ∘ Nat.succ) (List.range D)) = (List.range D).map fun s => S (D - 1 - s) := by
      refine List.map_congr_left fun s hs => ?_
      simp only [Function.comp]
      congr 1
      have := List.mem_range.1 hs
      omega
    rw [this, ih (fun n hn => h n (by omega)), Nat.sub_zero, Nat.add_sub_cancel, h D (by omega), layers, Finset.prod_range_succ, C_mul,
      Matrix.smul_mul, Matrix.mul_smul, smul_smul, mul_comm (C (c D))]

/-- Two matrices of polynomials with the same values. -/
theorem pmat_ext {A B : PMat 2} (h : ∀ z, A.map (eval z) = B.map (eval z)) : A = B := by
  ext1 i j
  refine Polynomial.funext fun z => ?_
  exact congrFun (congrFun (h z) i) j

theorem sampleP_modal (e0 Q R : ℂ) : sampleP tab2_MODAL 1 (fun _ c => if c = 0 then e0 else if c = 1 then Q else R) = C e0 • lay Q R := by
  refine pmat_ext fun z => ?_
  rw [sampleP_eval (by decide), tabMat_modal, lay]
  ext i j
  fin_cases i <;> fin_cases j <;> simp
  ring

theorem tabMat_2A (e : ℕ → ℕ → ℂ) (z : ℂ) :
    tabMat tab2A 1 e z = !![e 0 0, e 0 1 * z; e 0 2, e 0 0 * z] := by
  simp only [tabMat, tab2A, runVals, Ex.val, sumT]
  norm_num

theorem sampleP_2A (env : ℕ → ℕ → ℂ) (Q R : ℂ) (hQ : env 0 1 = env 0 0 * Q) (hR : env 0 2 = env 0 0 * R) :
    sampleP tab2A 1 env = C (env 0 0) • lay Q R := by
  refine pmat_ext fun z => ?_
  rw [sampleP_eval (by decide), tabMat_2A, lay, hQ, hR]
  ext i j
  fin_cases i <;> fin_cases j <;> simp
  ring

/-! ### The samples of 2SPLIT2A -/

theorem arctan_lip (u v : ℝ) : |Real.arctan u - Real.arctan v| ≤ |u - v| := by
  have := Convex.norm_image_sub_le_of_norm_hasDerivWithin_le (f := Real.arctan) (f' := fun x => 1 / (1 + x ^ 2)) (s := Set.univ) (C := 1)
    (x := v) (y := u) (fun x _ => (Real.hasDerivAt_arctan x).hasDerivWithinAt) (fun x _ => by
      rw [Real.norm_eq_abs, abs_of_pos (by positivity), div_le_one (by positivity)]
      nlinarith [sq_nonneg x]) convex_univ (Set.mem_univ _) (Set.mem_univ _)
  rwa [one_mul] at this

/-- The quotient of sine and argument as computed, real argument. -/
theorem csinc_real (t : ℝ) : ∃ s : ℝ, misc_CSINC (t : ℂ) = s ∧ |s * t - Real.sin t| ≤ 1e-33 * |t| ∧ (1e-8 ≤ |t| ∨ t = 0 → s * t = Real.sin t) := by
  have hs : ∃ s : ℝ, csinc (t : ℂ) = s ∧ s * t = Real.sin t := by
    by_cases h : t = 0
    · exact ⟨1, by rw [csinc, if_pos (by exact_mod_cast h)]; norm_num, by rw [h]; simp⟩
    · refine ⟨Real.sin t / t, ?_, div_mul_cancel₀ _ h⟩
      rw [csinc, if_neg (by exact_mod_cast h)]
      push_cast; rfl
  obtain ⟨c, hc, hc'⟩ := hs
  have hm : ∃ s : ℝ, misc_CSINC (t : ℂ) = s := by
    unfold misc_CSINC
    split_ifs
    · exact ⟨Real.sin t / t, by push_cast; rfl⟩
    · exact ⟨Real.cos (t / Real.sqrt 3), by push_cast; rfl⟩
  obtain ⟨s, hs⟩ := hm
  refine ⟨s, hs, ?_, fun h => ?_⟩
  · have := misc_CSINC_near (t : ℂ)
    rw [hs, hc, ← Complex.ofReal_sub, Complex.norm_real, Real.norm_eq_abs] at this
    rw [← hc', ← sub_mul, abs_mul]
    exact mul_le_mul_of_nonneg_right this (abs_nonneg _)
  · have := misc_CSINC_eq (x := (t : ℂ)) (h.imp (fun h => by rwa [Complex.norm_real, Real.norm_eq_abs]) (fun h => by exact_mod_cast h))
    rw [hs, hc] at this
    rw [Complex.ofReal_injective this, hc']

/-- The same for an imaginary argument. -/
theorem csinc_imag (t : ℝ) (ht : 0 ≤ t) : ∃ s : ℝ, misc_CSINC ((t : ℂ) * Complex.I) = s ∧ 0 ≤ s ∧ s * t < Real.cosh t ∧
    s * t ≤ t * Real.cosh t ∧ (1e-8 ≤ t → s * t = Real.sinh t) := by
  have hn : ‖(t : ℂ) * Complex.I‖ = t := by rw [norm_mul, Complex.norm_I, mul_one, Complex.norm_real, Real.norm_eq_abs, abs_of_nonneg ht]
  have hsc : Real.sinh t ≤ t * Real.cosh t := by
    have := Convex.norm_image_sub_le_of_norm_hasDerivWithin_le (f := Real.sinh) (f' := Real.cosh) (s := Set.Icc 0 t) (C := Real.cosh t)
      (x := 0) (y := t) (fun x _ => (Real.hasDerivAt_sinh x).hasDerivWithinAt) (fun x hx => by
        rw [Real.norm_eq_abs, abs_of_pos (Real.cosh_pos x), Real.cosh_le_cosh, abs_of_nonneg hx.1, abs_of_nonneg ht]
        exact hx.2) (convex_Icc _ _) ⟨le_rfl, ht⟩ ⟨ht, le_rfl⟩
    rw [Real.sinh_zero, sub_zero, sub_zero, Real.norm_eq_abs, Real.norm_eq_abs, abs_of_nonneg ht, abs_of_nonneg (Real.sinh_nonneg_iff.2 ht), mul_comm] at this
    exact this
  by_cases h : 1e-8 ≤ t
  · have ht0 : t ≠ 0 := by rintro rfl; norm_num at h
    have e : Real.sinh t / t * t = Real.sinh t := div_mul_cancel₀ _ ht0
    refine ⟨Real.sinh t / t, ?_, div_nonneg (Real.sinh_nonneg_iff.2 ht) ht, ?_, ?_, fun _ => e⟩
    · rw [misc_CSINC, if_pos (by rw [hn]; exact h), Complex.sin_mul_I]
      push_cast
      have : (t : ℂ) ≠ 0 := by exact_mod_cast ht0
      field_simp
    · rw [e]; exact Real.sinh_lt_cosh t
    · rw [e]; exact hsc
  · have ht8 : t < 1e-8 := not_le.1 h
    have hs3 : 1 ≤ Real.sqrt 3 := by rw [Real.le_sqrt (by norm_num) (by norm_num)]; norm_num
    have hc : Real.cosh (t / Real.sqrt 3) ≤ Real.cosh t := by
      rw [Real.cosh_le_cosh, abs_of_nonneg ht, abs_of_nonneg (by positivity)]
      exact div_le_self ht hs3
    refine ⟨Real.cosh (t / Real.sqrt 3), ?_, (Real.cosh_pos _).le, ?_, ?_, fun h' => absurd h' h⟩
    · rw [misc_CSINC, if_neg (by rw [hn]; exact h)]
      rw [show (t : ℂ) * Complex.I / (Real.sqrt 3 : ℝ) = ((t / Real.sqrt 3 : ℝ) : ℂ) * Complex.I by push_cast; ring, Complex.cos_mul_I]
      norm_cast
    · have h1 := Real.cosh_pos (t / Real.sqrt 3)
      have : t < 1 := ht8.trans (by norm_num)
      nlinarith
    · rw [mul_comm]
      exact mul_le_mul_of_nonneg_left hc ht

theorem csqrt_sq_real {a : ℝ} (ha : 0 ≤ a) : csqrt ((a : ℂ) ^ 2) = a := by
  rw [csqrt, ← Complex.ofReal_pow, show ((1 : ℂ) / 2) = ((1 / 2 : ℝ) : ℂ) by push_cast; rfl, ← Complex.ofReal_cpow (by positivity),
    ← Real.sqrt_eq_rpow, Real.sqrt_sq ha]

/-- `-q r` for the reduction of the NSE. -/
theorem neg_mul_red (q : ℂ) (κ : ℤ) : -q * (-(κ : ℂ) * (starRingEnd ℂ) q) = κ * ((‖q‖ : ℝ) : ℂ) ^ 2 := by
  have := Complex.mul_conj' q
  linear_combination (κ : ℂ) * this

/-- Focusing case. -/
theorem zf_foc (eps : ℝ) (q : ℂ) : ∃ s : ℝ,
    zeroFreq eps q (-((1 : ℤ) : ℂ) * (starRingEnd ℂ) q) 0 = (Real.cos (eps * ‖q‖) : ℝ) ∧
    zeroFreq eps q (-((1 : ℤ) : ℂ) * (starRingEnd ℂ) q) 1 = q * (eps * s : ℝ) ∧
    zeroFreq eps q (-((1 : ℤ) : ℂ) * (starRingEnd ℂ) q) 2 = -((1 : ℤ) : ℂ) * (starRingEnd ℂ) q * (eps * s : ℝ) ∧
    |s * (eps * ‖q‖) - Real.sin (eps * ‖q‖)| ≤ 1e-33 * |eps * ‖q‖| ∧
    (1e-8 ≤ |eps * ‖q‖| ∨ eps * ‖q‖ = 0 → s * (eps * ‖q‖) = Real.sin (eps * ‖q‖)) := by
  obtain ⟨s, h1, h2, h3⟩ := csinc_real (eps * ‖q‖)
  have hD : (eps : ℂ) * csqrt (-q * (-((1 : ℤ) : ℂ) * (starRingEnd ℂ) q)) = ((eps * ‖q‖ : ℝ) : ℂ) := by
    rw [neg_mul_red, Int.cast_one, one_mul, csqrt_sq_real (norm_nonneg q)]; push_cast; rfl
  refine ⟨s, ?_, ?_, ?_, h2, h3⟩
  · simp only [zeroFreq, hD, if_true]; norm_cast
  · simp only [zeroFreq, hD, h1, if_true]; norm_num
  · simp only [zeroFreq, hD, h1]; norm_num

/-- Defocusing case. -/
theorem zf_def (eps : ℝ) (heps : 0 < eps) (q : ℂ) : ∃ s : ℝ,
    zeroFreq eps q (-((-1 : ℤ) : ℂ) * (starRingEnd ℂ) q) 0 = (Real.cosh (eps * ‖q‖) : ℝ) ∧
    zeroFreq eps q (-((-1 : ℤ) : ℂ) * (starRingEnd ℂ) q) 1 = q * (eps * s : ℝ) ∧
    zeroFreq eps q (-((-1 : ℤ) : ℂ) * (starRingEnd ℂ) q) 2 = -((-1 : ℤ) : ℂ) * (starRingEnd ℂ) q * (eps * s : ℝ) ∧
    0 ≤ s ∧ s * (eps * ‖q‖) < Real.cosh (eps * ‖q‖) ∧ s * (eps * ‖q‖) ≤ (eps * ‖q‖) * Real.cosh (eps * ‖q‖) ∧
    (1e-8 ≤ eps * ‖q‖ → s * (eps * ‖q‖) = Real.sinh (eps * ‖q‖)) := by
  obtain ⟨s, h1, h2⟩ := csinc_imag (eps * ‖q‖) (by positivity)
  have hsq : csqrt (-q * (-((-1 : ℤ) : ℂ) * (starRingEnd ℂ) q)) = (‖q‖ : ℂ) * Complex.I ∨
      csqrt (-q * (-((-1 : ℤ) : ℂ) * (starRingEnd ℂ) q)) = -((‖q‖ : ℂ) * Complex.I) := by
    rw [← sq_eq_sq_iff_eq_or_eq_neg, csqrt_sq, neg_mul_red, mul_pow, Complex.I_sq]
    push_cast; ring
  have hc : Complex.cos ((eps : ℂ) * csqrt (-q * (-((-1 : ℤ) : ℂ) * (starRingEnd ℂ) q))) = (Real.cosh (eps * ‖q‖) : ℝ) ∧
      misc_CSINC ((eps : ℂ) * csqrt (-q * (-((-1 : ℤ) : ℂ) * (starRingEnd ℂ) q))) = s := by
    have e : (eps : ℂ) * ((‖q‖ : ℂ) * Complex.I) = ((eps * ‖q‖ : ℝ) : ℂ) * Complex.I := by push_cast; ring
    rcases hsq with h | h <;> rw [h]
    · rw [e, h1, Complex.cos_mul_I]; exact ⟨by norm_cast, rfl⟩
    · rw [mul_neg, e, misc_CSINC_neg, h1, Complex.cos_neg, Complex.cos_mul_I]; exact ⟨by norm_cast, rfl⟩
  refine ⟨s, ?_, ?_, ?_, h2⟩
  · simp only [zeroFreq, hc.1, if_true]
  · simp only [zeroFreq, hc.2, if_true]; norm_num
  · simp only [zeroFreq, hc.2]; norm_num

/-- The sample that is recovered from `q T`. -/
theorem sample_2A (q : ℂ) (T : ℝ) (hT : 0 ≤ T) (eps : ℝ) :
    (Real.arctan ‖q * (T : ℂ)‖ : ℂ) * Complex.exp (Complex.I * Complex.arg (q * (T : ℂ))) / eps =
      if q = 0 then 0 else q * ((Real.arctan (‖q‖ * T) / (eps * ‖q‖) : ℝ) : ℂ) := by
  have hn : ‖q * (T : ℂ)‖ = ‖q‖ * T := by rw [norm_mul, Complex.norm_real, Real.norm_eq_abs, abs_of_nonneg hT]
  by_cases hq : q = 0
  · simp [hq]
  rw [if_neg hq, hn]
  rcases hT.eq_or_lt with rfl | hT0
  · simp
  have ha : Complex.arg (q * (T : ℂ)) = Complex.arg q := by rw [mul_comm, Complex.arg_real_mul _ hT0]
  rw [ha, mul_comm Complex.I]
  have hq0 : (‖q‖ : ℂ) ≠ 0 := by exact_mod_cast norm_ne_zero_iff.2 hq
  have := Complex.norm_mul_exp_arg_mul_I q
  push_cast
  rw [show q * ((Real.arctan (‖q‖ * T) : ℝ) / ((eps : ℂ) * ‖q‖)) = (‖q‖ * Complex.exp (Complex.arg q * Complex.I)) * ((Real.arctan (‖q‖ * T) : ℝ) / ((eps : ℂ) * ‖q‖)) by rw [this]]
  field_simp

end FNFT

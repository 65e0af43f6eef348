import Verif.Props.NsepModalAux
/-!
# The polynomial for the auxiliary spectrum with splittings that begin or end with the linear part
-/
set_option linter.unusedSectionVars false
namespace FNFT
open Complex Set Filter Topology
open AknsDisc

/-- Total weight of the linear part. -/
def wsum (f : List (Bool × ℚ)) : ℚ := (f.map fun x => if x.1 then x.2 else 0).sum

theorem prod_lim {H : ℝ} {EA : ℝ → ℚ → Spec.M2} {P : Spec.M2} (hA : ∀ w : ℚ, 0 < w → Tendsto (fun t : ℝ => exp (-(t * H * w) : ℂ) • EA t w) atTop (𝓝 P))
    (EB : ℚ → Spec.M2) (f : List (Bool × ℚ)) (hf : ∀ x ∈ f, 0 < x.2) :
    Tendsto (fun t : ℝ => exp (-(t * H * (wsum f : ℚ)) : ℂ) • (f.map fun x => if x.1 then EA t x.2 else EB x.2).prod) atTop
      (𝓝 (f.map fun x => if x.1 then P else EB x.2).prod) := by
  induction f with
  | nil => simp [wsum]
  | cons x f ih =>
    have ih' := ih fun y hy => hf y (List.mem_cons_of_mem _ hy)
    have hx := hf x List.mem_cons_self
    obtain ⟨b, w⟩ := x
    simp only [List.map_cons, List.prod_cons]
    rcases b with _ | _
    · simp only [Bool.false_eq_true, if_false]
      have hw : wsum ((false, w) :: f) = wsum f := by simp [wsum]
      rw [hw]
      refine (ih'.const_mul (EB w)).congr fun t => ?_
      rw [mul_smul_comm]
    · simp only [if_true]
      have hw : wsum ((true, w) :: f) = w + wsum f := by simp [wsum]
      rw [hw]
      refine ((hA w hx).mul ih').congr fun t => ?_
      rw [smul_mul_smul_comm, ← exp_add]
      congr 2
      push_cast
      ring

theorem combine_lim {H : ℝ} {EA : ℝ → ℚ → Spec.M2} {P : Spec.M2} (hA : ∀ w : ℚ, 0 < w → Tendsto (fun t : ℝ => exp (-(t * H * w) : ℂ) • EA t w) atTop (𝓝 P))
    (EB : ℚ → Spec.M2) (L : List (ℚ × List (Bool × ℚ))) (hf : ∀ f ∈ L, wsum f.2 = 1 ∧ ∀ x ∈ f.2, 0 < x.2) :
    Tendsto (fun t : ℝ => exp (-(t * H) : ℂ) • Spec.combine L (EA t) EB) atTop (𝓝 (Spec.combine L (fun _ => P) EB)) := by
  induction L with
  | nil => simp [Spec.combine]
  | cons f L ih =>
    have ih' := ih fun y hy => hf y (List.mem_cons_of_mem _ hy)
    obtain ⟨h1, h2⟩ := hf f List.mem_cons_self
    have h3 := (prod_lim hA EB f.2 h2).const_smul (f.1 : ℂ)
    rw [h1] at h3
    refine (h3.add ih').congr fun t => ?_
    simp only [Spec.combine, List.map_cons, List.sum_cons, smul_add, Rat.cast_one, mul_one]
    rw [smul_comm]

theorem chain_lim {V : ℝ → ℕ → Spec.M2} {W : ℕ → Spec.M2} (h : ∀ n, Tendsto (fun t => V t n) atTop (𝓝 (W n))) (N : ℕ) :
    Tendsto (fun t => Spec.chain (V t) N) atTop (𝓝 (Spec.chain W N)) := by
  induction N with
  | zero => simp only [Spec.chain, List.range_zero]; exact tendsto_const_nhds
  | succ N ih => simp only [chain_succ]; exact (h N).mul ih

theorem diag_scale (c x y : ℂ) : c • (!![x, 0; 0, y] : Spec.M2) = !![c * x, 0; 0, c * y] := by
  ext i j; fin_cases i <;> fin_cases j <;> simp

/-- All products begin, or all products end, with the linear part, which has the total weight one; the weights are positive. -/
def Edge (L : List (ℚ × List (Bool × ℚ))) : Prop :=
  (∀ f ∈ L, wsum f.2 = 1 ∧ ∀ x ∈ f.2, 0 < x.2) ∧
  ((∀ f ∈ L, f.2.head?.map Prod.fst = some true) ∨ ∀ f ∈ L, f.2.getLast?.map Prod.fst = some true)

theorem combine_head {L : List (ℚ × List (Bool × ℚ))} {P : Spec.M2} (hP : P * P = P) (EB : ℚ → Spec.M2) (h : ∀ f ∈ L, f.2.head?.map Prod.fst = some true) :
    P * Spec.combine L (fun _ => P) EB = Spec.combine L (fun _ => P) EB := by
  induction L with
  | nil => simp [Spec.combine]
  | cons f L ih =>
    have ih' := ih fun y hy => h y (List.mem_cons_of_mem _ hy)
    have h1 := h f List.mem_cons_self
    obtain ⟨c, f⟩ := f
    rcases f with _ | ⟨⟨b, w⟩, f⟩
    · simp at h1
    · obtain rfl : b = true := by simpa using h1
      simp only [Spec.combine, List.map_cons, List.sum_cons, List.prod_cons, if_true] at ih' ⊢
      rw [mul_add, ih', mul_smul_comm, ← mul_assoc, hP]

theorem combine_last {L : List (ℚ × List (Bool × ℚ))} {P : Spec.M2} (hP : P * P = P) (EB : ℚ → Spec.M2) (h : ∀ f ∈ L, f.2.getLast?.map Prod.fst = some true) :
    Spec.combine L (fun _ => P) EB * P = Spec.combine L (fun _ => P) EB := by
  induction L with
  | nil => simp [Spec.combine]
  | cons f L ih =>
    have ih' := ih fun y hy => h y (List.mem_cons_of_mem _ hy)
    have h1 := h f List.mem_cons_self
    obtain ⟨c, f⟩ := f
    rcases List.eq_nil_or_concat f with rfl | ⟨g, ⟨b, w⟩, rfl⟩
    · simp at h1
    · obtain rfl : b = true := by simpa using h1
      simp only [Spec.combine, List.map_cons, List.sum_cons, List.map_concat, List.map_append, List.map_nil, List.prod_append, List.prod_cons, List.prod_nil, mul_one, if_true, List.concat_eq_append] at ih' ⊢
      rw [add_mul, ih', smul_mul_assoc, mul_assoc, hP]

theorem chain_head {W : ℕ → Spec.M2} {P : Spec.M2} (h : ∀ n, P * W n = W n) {N : ℕ} (hN : N ≠ 0) : P * Spec.chain W N = Spec.chain W N := by
  obtain ⟨n, rfl⟩ := Nat.exists_eq_succ_of_ne_zero hN
  rw [Nat.succ_eq_add_one, chain_succ, ← mul_assoc, h]

theorem chain_last {W : ℕ → Spec.M2} {P : Spec.M2} (h : ∀ n, W n * P = W n) {N : ℕ} (hN : N ≠ 0) : Spec.chain W N * P = Spec.chain W N := by
  induction N with
  | zero => exact absurd rfl hN
  | succ n ih =>
    rw [chain_succ]
    rcases n with _ | n
    · simp [Spec.chain, h]
    · rw [mul_assoc, ih (by omega)]

theorem edge_splitting {a : AknsDisc} (ha : a ∈ [D2SPLIT1A, D2SPLIT1B, D2SPLIT2A, D2SPLIT3A, D2SPLIT3B, D2SPLIT4A, D2SPLIT5A, D2SPLIT5B, D2SPLIT6A, D2SPLIT7A, D2SPLIT7B, D2SPLIT8A, D4SPLIT4A]) :
    Spec.splitting a ≠ [] ∧ akns_degree a ≠ 0 ∧ akns_upsampling_factor a ≠ 0 ∧ Edge (Spec.splitting a) := by
  simp only [List.mem_cons, List.not_mem_nil, or_false] at ha
  rcases ha with rfl | rfl | rfl | rfl | rfl | rfl | rfl | rfl | rfl | rfl | rfl | rfl | rfl
  all_goals
    refine ⟨by simp [Spec.splitting], by decide, by decide, ?_, ?_⟩
    · simp [Spec.splitting, Spec.lie, Spec.strang, Spec.alternate, wsum, List.replicate]
      try norm_num
    · simp [Spec.splitting, Spec.lie, Spec.strang, Spec.alternate, List.replicate]

/-- C85. For the splittings all of whose products begin, or all of whose products end, with the exponential of the linear part, the leading or the last coefficient of the polynomial for the
auxiliary spectrum is zero, whatever the signal is. -/
theorem C85_degenerate_splittings {a : AknsDisc}
    (ha : a ∈ [D2SPLIT1A, D2SPLIT1B, D2SPLIT2A, D2SPLIT3A, D2SPLIT3B, D2SPLIT4A, D2SPLIT5A, D2SPLIT5B, D2SPLIT6A, D2SPLIT7A, D2SPLIT7B, D2SPLIT8A, D4SPLIT4A])
    {kappa : ℤ} {D : ℕ} {x : ℕ → ℂ} {T : ℝ} (hT : 0 < T) {Ds s deg : ℕ} {S P Pa} (hP : Spec.PeriodPolys a kappa D T x Ds s deg S P Pa)
    (hs : s * Ds = D) (hs0 : 0 < s) (hDs : 1 ≤ Ds) : Pa.coeff 0 * Pa.coeff deg = 0 := by
  obtain ⟨hne, hdg, hup, hL, hE⟩ := edge_splitting ha
  obtain ⟨h1, -, hle, qf, rf, U, W, p, -, h5, h6, -, h7⟩ := hP
  obtain ⟨EB, -, -, g⟩ := h5.2.2 hne
  have hDs' : (0 : ℝ) < Ds := by exact_mod_cast hDs
  have hs' : (s : ℝ) * Ds = D := by exact_mod_cast hs
  have hs1 : (0 : ℝ) < s := by exact_mod_cast hs0
  obtain ⟨u, hu⟩ : ∃ u, u = akns_upsampling_factor a := ⟨_, rfl⟩
  rw [← hu] at hup g h6
  have hu0 : (0 : ℝ) < u := by exact_mod_cast Nat.pos_of_ne_zero hup
  obtain ⟨d, hd⟩ : ∃ d, d = Spec.degree1step a := ⟨_, rfl⟩
  have hd0 : d ≠ 0 := by rw [hd]; unfold Spec.degree1step; exact Nat.mul_ne_zero hdg (by rw [← hu]; exact hup)
  have hd1 : (0 : ℝ) < d := by exact_mod_cast Nat.pos_of_ne_zero hd0
  have hdc : (d : ℂ) ≠ 0 := by exact_mod_cast hd0
  obtain ⟨h, hh⟩ : ∃ h : ℝ, h = s * (T / D) := ⟨_, rfl⟩
  rw [← hh] at g h7
  have hTh : T = Ds * h := by rw [hh, ← hs']; field_simp
  have hpos : 0 < h := by rw [hh, ← hs']; positivity
  obtain ⟨H, hH⟩ : ∃ H : ℝ, H = h / u := ⟨_, rfl⟩
  rw [← hH] at g
  have hHpos : 0 < H := by rw [hH]; positivity
  obtain ⟨N, hN⟩ : ∃ N, N = Ds * u := ⟨_, rfl⟩
  rw [← hN] at h6
  have hN0 : N ≠ 0 := by rw [hN]; exact Nat.mul_ne_zero (by omega) hup
  have hNH : (N : ℝ) * H = T := by rw [hN, hH, hTh]; push_cast; field_simp
  have hdec : ∀ w : ℚ, 0 < w → Tendsto (fun t : ℝ => exp (-(2 * t * H * w) : ℂ)) atTop (𝓝 0) := by
    intro w hw
    have hw' : (0 : ℝ) < w := by exact_mod_cast hw
    rw [tendsto_zero_iff_norm_tendsto_zero]
    have e : (fun t : ℝ => ‖exp (-(2 * t * H * w) : ℂ)‖) = fun t : ℝ => Real.exp (-((2 * H * w) * t)) := by
      funext t
      rw [norm_exp]
      congr 1
      have : (-(2 * t * H * w) : ℂ) = ((-(2 * t * H * w) : ℝ) : ℂ) := by push_cast; ring
      rw [this, ofReal_re]; ring
    rw [e]
    exact Real.tendsto_exp_neg_atTop_nhds_zero.comp (tendsto_id.const_mul_atTop (by positivity))
  -- the two directions
  have hA1 : ∀ w : ℚ, 0 < w → Tendsto (fun t : ℝ => exp (-(t * H * w) : ℂ) • NormedSpace.exp ((w : ℂ) • Spec.akA H (I * t))) atTop (𝓝 !![1, 0; 0, 0]) := by
    intro w hw
    have e : (fun t : ℝ => exp (-(t * H * w) : ℂ) • NormedSpace.exp ((w : ℂ) • Spec.akA H (I * t))) = fun t : ℝ => !![1, 0; 0, exp (-(2 * t * H * w) : ℂ)] := by
      funext t
      rw [expA_diag]
      have e1 : exp (-(t * H * w) : ℂ) * exp (-I * (I * t) * H * w) = 1 := by
        rw [← exp_add, ← exp_zero]; congr 1; linear_combination (-(t * H * w) : ℂ) * I_sq
      have e2 : exp (-(t * H * w) : ℂ) * exp (I * (I * t) * H * w) = exp (-(2 * t * H * w) : ℂ) := by
        rw [← exp_add]; congr 1; linear_combination (t * H * w : ℂ) * I_sq
      rw [diag_scale, e1, e2]
    rw [e]
    refine tendsto_pi_nhds.2 fun i => tendsto_pi_nhds.2 fun j => ?_
    fin_cases i <;> fin_cases j <;> simp <;> first | exact hdec w hw | exact tendsto_const_nhds
  have hA2 : ∀ w : ℚ, 0 < w → Tendsto (fun t : ℝ => exp (-(t * H * w) : ℂ) • NormedSpace.exp ((w : ℂ) • Spec.akA H (-(I * t)))) atTop (𝓝 !![0, 0; 0, 1]) := by
    intro w hw
    have e : (fun t : ℝ => exp (-(t * H * w) : ℂ) • NormedSpace.exp ((w : ℂ) • Spec.akA H (-(I * t)))) = fun t : ℝ => !![exp (-(2 * t * H * w) : ℂ), 0; 0, 1] := by
      funext t
      rw [expA_diag]
      have e1 : exp (-(t * H * w) : ℂ) * exp (I * -(I * t) * H * w) = 1 := by
        rw [← exp_add, ← exp_zero]; congr 1; linear_combination (-(t * H * w) : ℂ) * I_sq
      have e2 : exp (-(t * H * w) : ℂ) * exp (-I * -(I * t) * H * w) = exp (-(2 * t * H * w) : ℂ) := by
        rw [← exp_add]; congr 1; linear_combination (t * H * w : ℂ) * I_sq
      rw [diag_scale, e1, e2]
    rw [e]
    refine tendsto_pi_nhds.2 fun i => tendsto_pi_nhds.2 fun j => ?_
    fin_cases i <;> fin_cases j <;> simp <;> first | exact hdec w hw | exact tendsto_const_nhds
  have hS : ∀ (σ : ℝ → ℂ) (Q : Spec.M2), (∀ w : ℚ, 0 < w → Tendsto (fun t : ℝ => exp (-(t * H * w) : ℂ) • NormedSpace.exp ((w : ℂ) • Spec.akA H (σ t))) atTop (𝓝 Q)) →
      Tendsto (fun t : ℝ => exp (-(t * T) : ℂ) * S (σ t) 0 1) atTop (𝓝 (Spec.chain (fun n => Spec.combine (Spec.splitting a) (fun _ => Q) (EB n)) N 0 1)) := by
    intro σ Q hQ
    have k1 := chain_lim (fun n => combine_lim hQ (EB n) _ hL) N
    have k2 : Tendsto (fun t : ℝ => Spec.chain (fun n => exp (-(t * H) : ℂ) • Spec.combine (Spec.splitting a) (fun w => NormedSpace.exp ((w : ℂ) • Spec.akA H (σ t))) (EB n)) N 0 1) atTop
        (𝓝 (Spec.chain (fun n => Spec.combine (Spec.splitting a) (fun _ => Q) (EB n)) N 0 1)) :=
      ((continuous_id.matrix_elem (0 : Fin 2) (1 : Fin 2)).tendsto _).comp k1
    refine k2.congr fun t => ?_
    have e : Spec.chain (fun n => exp (-(t * H) : ℂ) • Spec.combine (Spec.splitting a) (fun w => NormedSpace.exp ((w : ℂ) • Spec.akA H (σ t))) (EB n)) N = exp (-(t * T) : ℂ) • S (σ t) := by
      rw [chain_smul, h6, ← exp_nat_mul]
      congr 1
      · congr 1; rw [← hNH]; push_cast; ring
      · congr 1; funext n; rw [g]
    rw [e, Matrix.smul_apply, smul_eq_mul]
  have s1 := hS (fun t => I * t) _ hA1
  have s2 := hS (fun t => -(I * t)) _ hA2
  obtain ⟨M1, hM1⟩ : ∃ M1, M1 = Spec.chain (fun n => Spec.combine (Spec.splitting a) (fun _ => !![1, 0; 0, 0]) (EB n)) N := ⟨_, rfl⟩
  obtain ⟨M2, hM2⟩ : ∃ M2, M2 = Spec.chain (fun n => Spec.combine (Spec.splitting a) (fun _ => !![0, 0; 0, 1]) (EB n)) N := ⟨_, rfl⟩
  rw [← hM1] at s1
  rw [← hM2] at s2
  have hzero : M1 0 1 * M2 0 1 = 0 := by
    have q1 : (!![1, 0; 0, 0] : Spec.M2) * !![1, 0; 0, 0] = !![1, 0; 0, 0] := by
      ext i j; fin_cases i <;> fin_cases j <;> simp [Matrix.mul_apply, Fin.sum_univ_two]
    have q2 : (!![0, 0; 0, 1] : Spec.M2) * !![0, 0; 0, 1] = !![0, 0; 0, 1] := by
      ext i j; fin_cases i <;> fin_cases j <;> simp [Matrix.mul_apply, Fin.sum_univ_two]
    rcases hE with hE | hE
    · have := chain_head (fun n => combine_head q2 (EB n) hE) hN0
      rw [← hM2] at this
      have := congrFun (congrFun this 0) 1
      rw [← this]; simp [Matrix.mul_apply, Fin.sum_univ_two]
    · have := chain_last (fun n => combine_last q1 (EB n) hE) hN0
      rw [← hM1] at this
      have := congrFun (congrFun this 0) 1
      rw [← this]; simp [Matrix.mul_apply, Fin.sum_univ_two]
  -- the polynomial
  obtain ⟨z, hz⟩ : ∃ z : ℝ → ℂ, z = fun t : ℝ => exp (-(2 * t * (h / d)) : ℂ) := ⟨_, rfl⟩
  have hzt : Tendsto z atTop (𝓝 0) := by
    have := hdec 1 one_pos
    rw [hz, tendsto_zero_iff_norm_tendsto_zero]
    have e : (fun t : ℝ => ‖exp (-(2 * t * (h / d)) : ℂ)‖) = fun t : ℝ => Real.exp (-((2 * (h / d)) * t)) := by
      funext t
      rw [norm_exp]
      congr 1
      have : (-(2 * t * (h / d)) : ℂ) = ((-(2 * t * (h / d)) : ℝ) : ℂ) := by push_cast; ring
      rw [this, ofReal_re]; ring
    rw [e]
    exact Real.tendsto_exp_neg_atTop_nhds_zero.comp (tendsto_id.const_mul_atTop (by positivity))
  have z1 : ∀ t : ℝ, Spec.zOf a h (I * t) = z t := by
    intro t
    rw [hz, Spec.zOf, ← hd]; congr 1; field_simp; linear_combination (t * h : ℂ) * I_sq
  have z2 : ∀ t : ℝ, Spec.zOf a h (-(I * t)) = (z t)⁻¹ := by
    intro t
    rw [← z1, Spec.zOf, Spec.zOf, ← exp_neg]; congr 1; ring
  have hznz : ∀ t, z t ≠ 0 := fun t => by rw [hz]; exact exp_ne_zero _
  have hzd : ∀ t : ℝ, z t ^ deg = exp (-(2 * t * T) : ℂ) := by
    intro t
    rw [hz, ← exp_nat_mul, h1, ← hd, hTh]; congr 1; push_cast; field_simp
  have l1 : Tendsto (fun t : ℝ => Pa.eval (z t)) atTop (𝓝 (Pa.coeff 0)) := by
    rw [Polynomial.coeff_zero_eq_eval_zero]
    exact (Pa.continuous.tendsto 0).comp hzt
  have l2 : Tendsto (fun t : ℝ => (Pa.reflect deg).eval (z t)) atTop (𝓝 (Pa.coeff deg)) := by
    have : Pa.coeff deg = (Pa.reflect deg).eval 0 := by
      rw [← Polynomial.coeff_zero_eq_eval_zero, Polynomial.coeff_reflect, Polynomial.revAt_le (Nat.zero_le _), Nat.sub_zero]
    rw [this]
    exact ((Pa.reflect deg).continuous.tendsto 0).comp hzt
  have key : ∀ t : ℝ, Pa.eval (z t) * (Pa.reflect deg).eval (z t) = (2 ^ (-W)) ^ 2 * ((exp (-(t * T) : ℂ) * S (I * t) 0 1) * (exp (-(t * T) : ℂ) * S (-(I * t)) 0 1)) := by
    intro t
    have k1 := h7 (I * t)
    have k2 := h7 (-(I * t))
    rw [z1] at k1
    rw [z2] at k2
    let _ : Invertible (z t)⁻¹ := invertibleOfNonzero (inv_ne_zero (hznz t))
    have k4 := Polynomial.eval₂_reflect_mul_pow (RingHom.id ℂ) (z t)⁻¹ deg Pa hle
    simp only [invOf_eq_inv, inv_inv, Polynomial.eval₂_id] at k4
    rw [← k4, inv_pow, hzd, ← exp_neg, neg_neg] at k2
    have e0 : exp (-(2 * t * T) : ℂ) * exp (2 * t * T : ℂ) = 1 := by rw [← exp_add]; simp
    have k5 : (Pa.reflect deg).eval (z t) = exp (-(2 * t * T) : ℂ) * (2 ^ (-W) * exp (I * -(I * t) * T) * (exp (I * -(I * t) * p) * S (-(I * t)) 0 1)) := by
      rw [← k2]; linear_combination (-(Pa.reflect deg).eval (z t)) * e0
    have e1 : exp (I * (I * t) * T) = exp (-(t * T) : ℂ) := by congr 1; linear_combination (t * T : ℂ) * I_sq
    have e2 : exp (-(2 * t * T) : ℂ) * exp (I * -(I * t) * T) = exp (-(t * T) : ℂ) := by rw [← exp_add]; congr 1; linear_combination (-(t * T) : ℂ) * I_sq
    have e3 : exp (I * (I * t) * p) * exp (I * -(I * t) * p) = 1 := by rw [← exp_add, ← exp_zero]; congr 1; ring
    rw [k1, k5, e1, ← e2]
    linear_combination (exp (-(2 * t * T) : ℂ) * exp (I * -(I * t) * T)) ^ 2 * (2 ^ (-W)) ^ 2 * S (I * t) 0 1 * S (-(I * t)) 0 1 * e3
  have r1 := l1.mul l2
  have r2 := (s1.mul s2).const_mul ((2 : ℂ) ^ (-W) * (2 : ℂ) ^ (-W))
  rw [hzero, mul_zero] at r2
  refine tendsto_nhds_unique r1 (r2.congr fun t => ?_)
  rw [key]
  ring

end FNFT

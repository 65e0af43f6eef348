import Verif.Proofs.ConvZS
import Verif.Props.Nsev
/-!
# The continuous spectrum computed by `fnft_nsev` converges to that of the continuous-time signal
-/
set_option linter.unusedSectionVars false
namespace FNFT
open Complex AknsDisc Set
open FNFT.Conv

attribute [local instance] Matrix.linftyOpNormedRing
noncomputable local instance m2Algebra' : NormedAlgebra ℂ Spec.M2 := Matrix.linftyOpNormedAlgebra

/-- C75. The scattering coefficients exist and are unique. -/
theorem C75_scattering_exists {q r : ℝ → ℂ} {T0 T1 : ℝ} (hT : T0 ≤ T1) (hq : ContinuousOn q (Icc T0 T1)) (hr : ContinuousOn r (Icc T0 T1)) (l : ℂ) :
    ∃ a b, Spec.Scattering q r T0 T1 l a b ∧ ∀ a' b', Spec.Scattering q r T0 T1 l a' b' → a' = a ∧ b' = b := by
  have hP : ContinuousOn (fun t => Spec.aknsP (q t) (r t) l) (Icc T0 T1) := by
    have e : (fun t => Spec.aknsP (q t) (r t) l) = fun t => Spec.aknsP 0 0 l + q t • (!![0, 1; 0, 0] : Spec.M2) + r t • (!![0, 0; 1, 0] : Spec.M2) := by
      funext t; ext i j; fin_cases i <;> fin_cases j <;> simp [Spec.aknsP]
    rw [e]
    exact (continuousOn_const.add (hq.smul continuousOn_const)).add (hr.smul continuousOn_const)
  obtain ⟨V, h1, h2⟩ := exists_sol hT hP (col (exp (-I * l * T0)) 0)
  have hent : ∀ (i j : Fin 2) (t : ℝ), t ∈ Icc T0 T1 → HasDerivWithinAt (fun t => V t i j) ((Spec.aknsP (q t) (r t) l * V t) i j) (Icc T0 T1) t := by
    intro i j t ht
    let f : Spec.M2 →ₗ[ℝ] ℂ := 
      { toFun := fun X => X i j, map_add' := fun _ _ => rfl, map_smul' := fun c X => by
          rw [← Complex.coe_smul]; simp }
    have hb : ∀ X : Spec.M2, ‖f X‖ ≤ 1 * ‖X‖ := fun X => by rw [one_mul]; exact entry_le X i j
    exact ((f.mkContinuous 1 hb).hasFDerivAt.comp_hasDerivWithinAt t (h2 t ht))
  refine ⟨V T1 0 0 / exp (-I * l * T1), V T1 1 0 / exp (I * l * T1), ⟨fun t => V t 0 0, fun t => V t 1 0, fun t ht => ⟨?_, ?_⟩, ?_, ?_, ?_, ?_⟩, ?_⟩
  · refine (hent 0 0 t ht).congr_deriv ?_
    rw [Matrix.mul_apply, Fin.sum_univ_two]; simp [Spec.aknsP]
  · refine (hent 1 0 t ht).congr_deriv ?_
    rw [Matrix.mul_apply, Fin.sum_univ_two]; simp [Spec.aknsP]
  · dsimp only; rw [h1, col_eq]; simp
  · dsimp only; rw [h1, col_eq]; simp
  · rw [div_mul_cancel₀ _ (exp_ne_zero _)]
  · rw [div_mul_cancel₀ _ (exp_ne_zero _)]
  · rintro a' b' ⟨v1, v2, k1, k2, k3, k4, k5⟩
    have h3 := sol_of k1
    obtain ⟨M, hM⟩ := isCompact_Icc.exists_bound_of_continuousOn hP
    have h4 : Sol (fun t => Spec.aknsP (q t) (r t) l) (fun t => V t - col (v1 t) (v2 t)) T0 T1 := fun t ht =>
      ((h2 t ht).sub (h3 t ht)).congr_deriv (by rw [mul_sub])
    have h5 := h4.growth hM (right_mem_Icc.mpr hT)
    rw [h1, k2, k3, sub_self, norm_zero, mul_zero, norm_le_zero_iff, sub_eq_zero] at h5
    rw [h5, col_eq, k4, k5]
    constructor
    · simp
    · simp

/-- The methods of second order that use every sample once. -/
def Spec.second : List AknsDisc := [BO, D2SPLIT2_MODAL, D2SPLIT2A, D2SPLIT2B, D2SPLIT2S, D2SPLIT3S, D2SPLIT3A, D2SPLIT3B, D2SPLIT4A, D2SPLIT4B, D2SPLIT5A, D2SPLIT5B,
  D2SPLIT6A, D2SPLIT6B, D2SPLIT8A, D2SPLIT8B]

/-- ... and those of first order. -/
def Spec.first : List AknsDisc := D2SPLIT1A :: D2SPLIT1B :: Spec.second

/-- The values for grid point `i` in `c` are those for `a`, `b`, up to the error `e` of `a` and `b`. -/
structure Spec.ContClose (cs : CsType) (M i : ℕ) (a b : ℂ) (e : ℝ) (c : Buf ℂ) : Prop where
  ab : cs = .AB → ∃ y z, c.rd i = some y ∧ c.rd (M + i) = some z ∧ ‖y - a‖ ≤ e ∧ ‖z - b‖ ≤ e
  rho : cs = .REFLECTION_COEFFICIENT → e < ‖a‖ → ∃ y, c.rd i = some y ∧ ‖y - b / a‖ ≤ e * (1 + ‖b / a‖) / (‖a‖ - e)
  both : cs = .BOTH → ∃ x y z, c.rd i = some x ∧ c.rd (M + i) = some y ∧ c.rd (2 * M + i) = some z ∧ ‖y - a‖ ≤ e ∧ ‖z - b‖ ≤ e ∧
    (e < ‖a‖ → ‖x - b / a‖ ≤ e * (1 + ‖b / a‖) / (‖a‖ - e))

theorem quot_close {a b a' b' : ℂ} {e : ℝ} (ha : ‖a' - a‖ ≤ e) (hb : ‖b' - b‖ ≤ e) (he : e < ‖a‖) :
    ‖b' / a' - b / a‖ ≤ e * (1 + ‖b / a‖) / (‖a‖ - e) := by
  have h0 : 0 ≤ e := (norm_nonneg _).trans ha
  have hn : ‖a‖ - e ≤ ‖a'‖ := by
    have := norm_sub_norm_le a a'
    rw [norm_sub_rev] at this
    linarith
  have ha0 : a ≠ 0 := norm_pos_iff.mp (by linarith)
  have ha1 : a' ≠ 0 := norm_pos_iff.mp (by linarith)
  have e1 : b' / a' - b / a = ((b' - b) - (b / a) * (a' - a)) / a' := by
    rw [eq_div_iff ha1]
    field_simp
    ring
  rw [e1, norm_div]
  have h1 : ‖(b' - b) - (b / a) * (a' - a)‖ ≤ e * (1 + ‖b / a‖) := by
    refine (norm_sub_le _ _).trans ?_
    rw [norm_mul]
    nlinarith [mul_le_mul_of_nonneg_left ha (norm_nonneg (b / a))]
  have hp : 0 < ‖a‖ - e := by linarith
  gcongr

theorem contWritten_close {cs : CsType} (hcs : ∀ n, cs ≠ .other n) {M : ℕ} {av bv : ℕ → ℂ} {c c' : Buf ℂ} (h : Spec.ContWritten cs M av bv c c') {i : ℕ} (hi : i < M)
    {a b : ℂ} {e : ℝ} (ha : ‖av i - a‖ ≤ e) (hb : ‖bv i - b‖ ≤ e) : Spec.ContClose cs M i a b e c' := by
  have hv := h.vals
  refine ⟨?_, ?_, ?_⟩
  · rintro rfl
    have h1 := hv i (by simp only [Spec.csLen]; omega)
    have h2 := hv (M + i) (by simp only [Spec.csLen]; omega)
    simp only [Nat.zero_add, Spec.csOut, if_pos hi, Nat.add_sub_cancel_left, if_neg (by omega : ¬ M + i < M)] at h1 h2
    exact ⟨_, _, h1, h2, ha, hb⟩
  · rintro rfl he
    have h1 := hv i (by simp only [Spec.csLen]; omega)
    simp only [Nat.zero_add, Spec.csOut] at h1
    exact ⟨_, h1, quot_close ha hb he⟩
  · rintro rfl
    have h1 := hv i (by simp only [Spec.csLen]; omega)
    have h2 := hv (M + i) (by simp only [Spec.csLen]; omega)
    have h3 := hv (2 * M + i) (by simp only [Spec.csLen]; omega)
    simp only [Nat.zero_add, Spec.csOut, if_pos hi, Nat.add_sub_cancel_left, if_neg (by omega : ¬ M + i < M), if_pos (by omega : M + i < 2 * M),
      if_neg (by omega : ¬ 2 * M + i < M), if_neg (by omega : ¬ 2 * M + i < 2 * M)] at h1 h2 h3
    exact ⟨_, _, _, h1, h2, h3, ha, hb, quot_close ha hb⟩

variable {D : ℕ} {qb : Buf ℂ} {x : ℕ → ℂ} {T0 T1 : ℝ} {kappa : ℤ} {o : NsevOpts} {a : AknsDisc}

theorem norm_kappa (hk : |kappa| = 1) (z : ℂ) : ‖-(kappa : ℂ) * (starRingEnd ℂ) z‖ = ‖z‖ := by
  have : ‖(kappa : ℂ)‖ = 1 := by
    rcases (abs_eq (by norm_num)).mp hk with rfl | rfl <;> simp
  rw [norm_mul, norm_neg, this, one_mul, RCLike.norm_conj]

theorem first_cases (ha : a ∈ Spec.first) : a = .BO ∨ a = .D2SPLIT2_MODAL ∨ (Split a ∨ a = .D2SPLIT1A ∨ a = .D2SPLIT1B) := by
  simp only [Spec.first, Spec.second, List.mem_cons, List.not_mem_nil, or_false] at ha
  simp only [Split, List.mem_cons, List.not_mem_nil, or_false]
  tauto

theorem second_cases (ha : a ∈ Spec.second) : a = .BO ∨ a = .D2SPLIT2_MODAL ∨ Split a := by
  simp only [Spec.second, List.mem_cons, List.not_mem_nil, or_false] at ha
  simp only [Split, List.mem_cons, List.not_mem_nil, or_false]
  tauto

theorem first_up (ha : a ∈ Spec.first) : akns_upsampling_factor a = 1 ∧ ∀ N, Spec.slowCount a N = N := by
  simp only [Spec.first, Spec.second, List.mem_cons, List.not_mem_nil, or_false] at ha
  rcases ha with rfl | rfl | rfl | rfl | rfl | rfl | rfl | rfl | rfl | rfl | rfl | rfl | rfl | rfl | rfl | rfl | rfl | rfl <;> exact ⟨rfl, fun _ => rfl⟩

/-- The local error of the second order methods. -/
theorem step_err2 {eps Q : ℝ} {qf rf : ℕ → ℂ} {U : ℂ → ℕ → Spec.M2} (hU : Spec.NseSteps a eps qf rf U) (he : 0 ≤ eps) (ha : a ∈ Spec.second)
    (hmod : a = .D2SPLIT2_MODAL → eps * Q ≤ 1 / 2) {n : ℕ} (hq : ‖qf n‖ ≤ Q) (hr : ‖rf n‖ ≤ Q) (l : ℂ) :
    ‖U l n - NormedSpace.exp ((eps : ℂ) • Spec.aknsP (qf n) (rf n) l)‖ ≤ 8 * tail (eps * ‖l‖ + eps * (2 * Q)) := by
  rcases second_cases ha with rfl | rfl | ha'
  · exact bo_err hU he hq hr _
  · exact modal_err hU he hq hr (hmod rfl) _
  · exact (splitting_err hU he (Or.inl ha') hq hr _).2 ha'

/-- The local error of all methods. -/
theorem step_err1 {eps Q : ℝ} {qf rf : ℕ → ℂ} {U : ℂ → ℕ → Spec.M2} (hU : Spec.NseSteps a eps qf rf U) (he : 0 ≤ eps) (ha : a ∈ Spec.first)
    (hmod : a = .D2SPLIT2_MODAL → eps * Q ≤ 1 / 2) {n : ℕ} (hq : ‖qf n‖ ≤ Q) (hr : ‖rf n‖ ≤ Q) (l : ℂ) :
    ‖U l n - NormedSpace.exp ((eps : ℂ) • Spec.aknsP (qf n) (rf n) l)‖ ≤ 8 * (tail (eps * ‖l‖ + eps * (2 * Q)) + (eps * ‖l‖ + eps * (2 * Q)) ^ 2 / 2) := by
  have h0 : (0 : ℝ) ≤ (eps * ‖l‖ + eps * (2 * Q)) ^ 2 := sq_nonneg _
  rcases first_cases ha with rfl | rfl | ha'
  · linarith [bo_err hU he hq hr l]
  · linarith [modal_err hU he hq hr (hmod rfl) l]
  · exact (splitting_err hU he ha' hq hr _).1

/-- C75 (first order). Let `q` be Lipschitz continuous on `[T0, T1]` and zero outside, let the samples be its values, and let `a(ξ)`, `b(ξ)` be the scattering coefficients of the
continuous-time problem at the grid point `ξ_i`. Whenever `fnft_nsev` reports success with one of the methods listed in `Spec.first`, the values it wrote for `ξ_i`
differ from `a(ξ)`, `b(ξ)` by at most `C h`, `h` being the step, with an explicit constant. (For the Ablowitz-Ladik method, `h |q| ≤ 1/2` is assumed.) -/
theorem C75_first_order (h : Spec.NsevArgs D qb x T0 T1 kappa o a) {M : ℕ} {XI0 XI1 : ℝ} {c : Buf ℂ}
    (hc : Spec.ContReq D M XI0 XI1 o a c) (hrich : o.rich ≠ 1) {s : NsevSt} (hs : s.contspec = some c)
    (hr : Spec.NsevReq kappa o (some (XI0, XI1)) s) (ha : a ∈ Spec.first) {q : ℝ → ℂ} {Q L : ℝ} (hL : 0 ≤ L) (hq : Spec.Lip q T0 T1 Q L)
    (hmod : a = .D2SPLIT2_MODAL → (T1 - T0) / (D - 1) * Q ≤ 1 / 2)
    (hx : ∀ n, n < D → x n = q (T0 + n * ((T1 - T0) / (D - 1)))) (roots : RootFinder) (g : ℕ → Garbage) (s' : NsevSt) (o' : NsevOpts)
    (hrun : fnft_nsev roots D (some qb) (some (T0, T1)) M (some (XI0, XI1)) kappa o g s = some (SUCCESS, s', o')) :
    ∃ c', s'.contspec = some c' ∧ ∀ i, i < M → ∀ A B, Spec.Scattering q (fun t => -(kappa : ℂ) * (starRingEnd ℂ) (q t)) T0 T1 (Spec.grid XI0 XI1 M i) A B →
      Spec.ContClose o.cs M i A B (Spec.err1 (T1 - T0) Q L ((T1 - T0) / (D - 1)) (Spec.grid XI0 XI1 M i)) c' := by
  obtain ⟨qf, rf, U, h1, h2, h3⟩ := C41_any_request h hc hrich hs hr
  obtain ⟨-, c', e1, e2⟩ := h3 roots g s' o' hrun
  obtain ⟨u1, u2⟩ := first_up ha
  rw [Spec.Processed, if_pos u1] at h1
  refine ⟨c', e1, fun i hi A B hS => ?_⟩
  have hD' : (2 : ℝ) ≤ D := by exact_mod_cast h.hD
  have hpos : 0 < (T1 - T0) / ((D : ℝ) - 1) := div_pos (by linarith [h.hT]) (by linarith)
  have hr' : Spec.Lip (fun t => -(kappa : ℂ) * (starRingEnd ℂ) (q t)) T0 T1 Q L := by
    refine ⟨fun t ht => ?_, fun t ht u hu => ?_⟩
    · rw [norm_kappa h.hk]; exact hq.bound t ht
    · rw [← mul_sub, ← map_sub, norm_kappa h.hk]; exact hq.lip t ht u hu
  have hnin : ∀ n : ℕ, n < D → T0 + n * ((T1 - T0) / (D - 1)) ∈ Icc T0 T1 := by
    intro n hn
    have hn' : (n : ℝ) + 1 ≤ D := by exact_mod_cast hn
    have h0 : (0 : ℝ) ≤ n * ((T1 - T0) / (D - 1)) := by positivity
    have h4 : ((D : ℝ) - 1) * ((T1 - T0) / (D - 1)) = T1 - T0 := by
      rw [mul_comm]; exact div_mul_cancel₀ _ (by linarith : (0 : ℝ) < D - 1).ne'
    refine ⟨by linarith, ?_⟩
    nlinarith
  have key := conv_one (U := U (Spec.grid XI0 XI1 M i)) h.hD h.hT hq hr' hL hS rfl (fun n hn => ?_)
  · rw [ofReal_im, zero_mul, zero_mul, neg_zero, Real.exp_zero, mul_one, (err_real (K := 0) _).1] at key
    refine contWritten_close hc.hcs e2 hi ?_ ?_
    · simp only [Spec.gridA, u1, mul_one, u2]; exact key.1
    · simp only [Spec.gridB, u1, mul_one, u2]; exact key.2
  · obtain ⟨g1, g2⟩ := h1 n hn
    rw [one_mul, hx n hn] at g1 g2
    have : rf n = -(kappa : ℂ) * (starRingEnd ℂ) (q (T0 + n * ((T1 - T0) / (D - 1)))) := g2
    rw [← g1]
    have this' : rf n = -(kappa : ℂ) * (starRingEnd ℂ) (qf n) := by rw [this, g1]
    rw [← this']
    have b1 : ‖qf n‖ ≤ Q := by rw [g1]; exact hq.bound _ (hnin n hn)
    have b2 : ‖rf n‖ ≤ Q := by rw [this]; exact hr'.bound _ (hnin n hn)
    exact step_err1 h2 hpos.le ha hmod b1 b2 _

/-- C75 (second order). Let `q` be differentiable with a Lipschitz continuous derivative on the real line, and zero outside of `[T0, T1]`; let the samples be its values, and let
`a(ξ)`, `b(ξ)` be the scattering coefficients of the continuous-time problem at the grid point `ξ_i`. Whenever `fnft_nsev` reports success with one of the methods
listed in `Spec.second`, the values it wrote for `ξ_i` differ from `a(ξ)`, `b(ξ)` by at most `C h²`, `h` being the step, with an explicit constant. (For the Ablowitz-Ladik method, `h |q| ≤ 1/2` is assumed.) -/
theorem C75_second_order (h : Spec.NsevArgs D qb x T0 T1 kappa o a) {M : ℕ} {XI0 XI1 : ℝ} {c : Buf ℂ}
    (hc : Spec.ContReq D M XI0 XI1 o a c) (hrich : o.rich ≠ 1) {s : NsevSt} (hs : s.contspec = some c)
    (hr : Spec.NsevReq kappa o (some (XI0, XI1)) s) (ha : a ∈ Spec.second) {q q' : ℝ → ℂ} {Q K L : ℝ} (hL : 0 ≤ L) (hq : Spec.Smooth q q' T0 T1 Q K L)
    (hmod : a = .D2SPLIT2_MODAL → (T1 - T0) / (D - 1) * Q ≤ 1 / 2)
    (hx : ∀ n, n < D → x n = q (T0 + n * ((T1 - T0) / (D - 1)))) (roots : RootFinder) (g : ℕ → Garbage) (s' : NsevSt) (o' : NsevOpts)
    (hrun : fnft_nsev roots D (some qb) (some (T0, T1)) M (some (XI0, XI1)) kappa o g s = some (SUCCESS, s', o')) :
    ∃ c', s'.contspec = some c' ∧ ∀ i, i < M → ∀ A B, Spec.Scattering q (fun t => -(kappa : ℂ) * (starRingEnd ℂ) (q t)) T0 T1 (Spec.grid XI0 XI1 M i) A B →
      Spec.ContClose o.cs M i A B (Spec.err2 (T1 - T0) Q K L ((T1 - T0) / (D - 1)) (Spec.grid XI0 XI1 M i)) c' := by
  obtain ⟨qf, rf, U, h1, h2, h3⟩ := C41_any_request h hc hrich hs hr
  obtain ⟨-, c', e1, e2⟩ := h3 roots g s' o' hrun
  obtain ⟨u1, u2⟩ := first_up (List.mem_cons_of_mem _ (List.mem_cons_of_mem _ ha))
  rw [Spec.Processed, if_pos u1] at h1
  refine ⟨c', e1, fun i hi A B hS => ?_⟩
  have hD' : (2 : ℝ) ≤ D := by exact_mod_cast h.hD
  have hpos : 0 < (T1 - T0) / ((D : ℝ) - 1) := div_pos (by linarith [h.hT]) (by linarith)
  have hr' : Spec.Smooth (fun t => -(kappa : ℂ) * (starRingEnd ℂ) (q t)) (fun t => -(kappa : ℂ) * (starRingEnd ℂ) (q' t)) T0 T1 Q K L := by
    refine ⟨fun t => ?_, fun t ht => ?_, fun t => ?_, fun t => ?_, fun t u => ?_⟩
    · exact (Complex.conjCLE.toContinuousLinearMap.hasFDerivAt.comp_hasDerivAt t (hq.deriv t)).const_mul (-(kappa : ℂ))
    · rw [hq.supp t ht]; simp
    · rw [norm_kappa h.hk]; exact hq.bound t
    · rw [norm_kappa h.hk]; exact hq.bound' t
    · rw [← mul_sub, ← map_sub, norm_kappa h.hk]; exact hq.lip t u
  have key := conv_two (U := U (Spec.grid XI0 XI1 M i)) h.hD h.hT hq hr' hL hS rfl (fun n hn => ?_)
  · rw [ofReal_im, zero_mul, zero_mul, neg_zero, Real.exp_zero, mul_one, (err_real _).2] at key
    refine contWritten_close hc.hcs e2 hi ?_ ?_
    · simp only [Spec.gridA, u1, mul_one, u2]; exact key.1
    · simp only [Spec.gridB, u1, mul_one, u2]; exact key.2
  · obtain ⟨g1, g2⟩ := h1 n hn
    rw [one_mul, hx n hn] at g1 g2
    have : rf n = -(kappa : ℂ) * (starRingEnd ℂ) (q (T0 + n * ((T1 - T0) / (D - 1)))) := g2
    rw [← g1]
    have this' : rf n = -(kappa : ℂ) * (starRingEnd ℂ) (qf n) := by rw [this, g1]
    rw [← this']
    have b1 : ‖qf n‖ ≤ Q := by rw [g1]; exact hq.bound _
    have b2 : ‖rf n‖ ≤ Q := by rw [this]; exact hr'.bound _
    exact step_err2 h2 hpos.le ha hmod b1 b2 _

/-- C75. The bounds tend to zero for growing numbers of samples: at least like `1 / D` and like `1 / D²`, respectively. -/
theorem C75_bounds_vanish (T Q K L xi : ℝ) : ∃ C, (∀ D : ℕ, 2 ≤ D → |Spec.err1 T Q L (T / (D - 1)) xi| ≤ C / D) ∧
    ∀ D : ℕ, 2 ≤ D → |Spec.err2 T Q K L (T / (D - 1)) xi| ≤ C / (D : ℝ) ^ 2 := by
  obtain ⟨a, ha⟩ : ∃ a, a = 7 * (|xi| + 2 * Q) := ⟨_, rfl⟩
  obtain ⟨c1, hc1⟩ : ∃ c1, c1 = L / 2 + 8 * (|xi| + 2 * Q) ^ 2 := ⟨_, rfl⟩
  obtain ⟨c2, hc2⟩ : ∃ c2, c2 = (L + 2 * K * (|xi| + 2 * Q)) / 4 + 4 / 3 * (|xi| + 2 * Q) ^ 3 := ⟨_, rfl⟩
  obtain ⟨E, hE⟩ : ∃ E, E = Real.exp (|a| * (2 * |T|)) := ⟨_, rfl⟩
  have hE0 : 0 < E := hE ▸ Real.exp_pos _
  have hh : ∀ D : ℕ, 2 ≤ D → |T / ((D : ℝ) - 1)| ≤ 2 * |T| / D ∧ |T / ((D : ℝ) - 1)| ≤ |T| := by
    intro D hD
    have hD' : (2 : ℝ) ≤ D := by exact_mod_cast hD
    rw [abs_div, abs_of_pos (by linarith : (0 : ℝ) < D - 1)]
    constructor
    · rw [div_le_div_iff₀ (by linarith) (by linarith)]
      nlinarith [abs_nonneg T]
    · exact div_le_self (abs_nonneg _) (by linarith)
  have hexp : ∀ h, |h| ≤ |T| → Real.exp (a * (T + h)) ≤ E := by
    intro h h1
    rw [hE, Real.exp_le_exp]
    calc a * (T + h) ≤ |a * (T + h)| := le_abs_self _
      _ = |a| * |T + h| := abs_mul _ _
      _ ≤ _ := mul_le_mul_of_nonneg_left ((abs_add_le _ _).trans (by linarith)) (abs_nonneg _)
  have hT2 : ∀ h, |h| ≤ |T| → |T + h| ≤ 2 * |T| := fun h h1 => (abs_add_le _ _).trans (by linarith)
  refine ⟨max (E * (2 * |T| * |c1| + |Q|) * (2 * |T|)) (E * (2 * |T|) * |c2| * (2 * |T|) ^ 2), fun D hD => ?_, fun D hD => ?_⟩
  · obtain ⟨h1, h2⟩ := hh D hD
    have hD' : (0 : ℝ) < D := by exact_mod_cast (by omega : 0 < D)
    rw [Spec.err1, ← ha, ← hc1, abs_mul, abs_mul, abs_of_pos (Real.exp_pos _)]
    refine le_trans ?_ (div_le_div_of_nonneg_right (le_max_left _ _) hD'.le)
    rw [mul_div_assoc]
    refine mul_le_mul (mul_le_mul (hexp _ h2) ?_ (abs_nonneg _) hE0.le) h1 (abs_nonneg _) (by positivity)
    refine (abs_add_le _ _).trans (add_le_add ?_ le_rfl)
    rw [abs_mul]
    exact mul_le_mul_of_nonneg_right (hT2 _ h2) (abs_nonneg _)
  · obtain ⟨h1, h2⟩ := hh D hD
    have hD' : (0 : ℝ) < D := by exact_mod_cast (by omega : 0 < D)
    rw [Spec.err2, ← ha, ← hc2, abs_mul, abs_mul, abs_mul, abs_of_pos (Real.exp_pos _), abs_pow]
    refine le_trans ?_ (div_le_div_of_nonneg_right (le_max_right _ _) (by positivity))
    rw [mul_div_assoc, ← div_pow]
    refine mul_le_mul (mul_le_mul_of_nonneg_right (mul_le_mul (hexp _ h2) (hT2 _ h2) (abs_nonneg _) hE0.le) (abs_nonneg _))
      (pow_le_pow_left₀ (abs_nonneg _) h1 2) (by positivity) (by positivity)

/-! ### The conditions can be met -/

/-- A constant signal is covered by the theorem for the first order. -/
example : Spec.Lip (fun _ => 2 * I) 0 1 2 0 := ⟨fun t _ => by simp, fun s _ t _ => by simp⟩

theorem hasDerivAt_of_sq {f : ℝ → ℝ} {f' x c : ℝ} (h : ∀ y, |f y - f x - f' * (y - x)| ≤ c * (y - x) ^ 2) : HasDerivAt f f' x := by
  rw [hasDerivAt_iff_isLittleO]
  refine Asymptotics.IsBigO.trans_isLittleO (g := fun y => (y - x) ^ 2) (Asymptotics.IsBigO.of_bound c (Filter.Eventually.of_forall fun y => ?_)) ?_
  · rw [Real.norm_eq_abs, Real.norm_eq_abs, abs_of_nonneg (sq_nonneg (y - x)), smul_eq_mul, mul_comm (y - x)]
    exact h y
  · have h1 : (fun y : ℝ => (y - x)) =o[nhds x] fun _ => (1 : ℝ) := by
      rw [Asymptotics.isLittleO_one_iff]
      have : Filter.Tendsto (fun y : ℝ => y - x) (nhds x) (nhds (x - x)) := (continuous_id.sub continuous_const).tendsto x
      rwa [sub_self] at this
    simpa [sq] using h1.mul_isBigO (Asymptotics.isBigO_refl (fun y : ℝ => y - x) (nhds x))

theorem hasDerivAt_max_sq (x : ℝ) : HasDerivAt (fun y => max 0 y ^ 2) (2 * max 0 x) x := by
  refine hasDerivAt_of_sq (c := 1) fun y => ?_
  rw [abs_le]
  rcases le_total 0 x with hx | hx <;> rcases le_total 0 y with hy | hy <;> simp only [max_eq_left, max_eq_right, hx, hy] <;>
    constructor <;> nlinarith [sq_nonneg (x - y), sq_nonneg x, sq_nonneg y, mul_nonneg (sub_nonneg.mpr hx) (sub_nonneg.mpr hy)]

/-- `(1 - t²)²` on `[-1, 1]` is covered by the theorem for the second order. -/
theorem smooth_bump : Spec.Smooth (fun t => ((max 0 (1 - t ^ 2) ^ 2 : ℝ) : ℂ)) (fun t => ((2 * max 0 (1 - t ^ 2) * (-(2 * t)) : ℝ) : ℂ)) (-1) 1 1 4 8 := by
  have hin : ∀ t : ℝ, t ∈ Icc (-1 : ℝ) 1 → 0 ≤ 1 - t ^ 2 := fun t ht => by nlinarith [ht.1, ht.2]
  have hout : ∀ t : ℝ, t ≤ -1 ∨ 1 ≤ t → max 0 (1 - t ^ 2) = 0 := fun t ht => max_eq_left (by rcases ht with h | h <;> nlinarith)
  have hor : ∀ t : ℝ, t ∈ Icc (-1 : ℝ) 1 ∨ (t ≤ -1 ∨ 1 ≤ t) := fun t => by
    rcases le_total t (-1) with h | h
    · exact Or.inr (Or.inl h)
    · rcases le_total t 1 with h' | h'
      · exact Or.inl ⟨h, h'⟩
      · exact Or.inr (Or.inr h')
  refine ⟨fun t => ?_, fun t ht => ?_, fun t => ?_, fun t => ?_, fun s t => ?_⟩
  · have h1 : HasDerivAt (fun t : ℝ => 1 - t ^ 2) (-(2 * t)) t := by
      simpa using (hasDerivAt_pow 2 t).const_sub 1
    exact ((hasDerivAt_max_sq (1 - t ^ 2)).comp t h1).ofReal_comp
  · simp [hout t ht]
  · rw [Complex.norm_real, Real.norm_eq_abs, abs_of_nonneg (by positivity)]
    refine pow_le_one₀ (le_max_left _ _) (max_le (by norm_num) (by nlinarith [sq_nonneg t]))
  · rw [Complex.norm_real, Real.norm_eq_abs]
    rcases hor t with h | h
    · rw [max_eq_right (hin t h), abs_le]
      obtain ⟨h1, h2⟩ := h
      constructor <;> nlinarith [mul_nonneg (by linarith : (0 : ℝ) ≤ 1 + t) (by linarith : (0 : ℝ) ≤ 1 - t)]
    · rw [hout t h]; simp
  · rw [← Complex.ofReal_sub, Complex.norm_real, Real.norm_eq_abs]
    have inin : ∀ s t : ℝ, s ∈ Icc (-1 : ℝ) 1 → t ∈ Icc (-1 : ℝ) 1 →
        |2 * (1 - s ^ 2) * (-(2 * s)) - 2 * (1 - t ^ 2) * (-(2 * t))| ≤ 8 * |s - t| := by
      intro s t hs ht
      have e : 2 * (1 - s ^ 2) * (-(2 * s)) - 2 * (1 - t ^ 2) * (-(2 * t)) = (-4 + 4 * (s ^ 2 + s * t + t ^ 2)) * (s - t) := by ring
      rw [e, abs_mul]
      refine mul_le_mul_of_nonneg_right ?_ (abs_nonneg _)
      rw [abs_le]
      obtain ⟨h1, h2⟩ := hs
      obtain ⟨h3, h4⟩ := ht
      constructor <;> nlinarith [sq_nonneg (s + t), sq_nonneg s, sq_nonneg t, sq_nonneg (s - t)]
    have inout : ∀ s t : ℝ, s ∈ Icc (-1 : ℝ) 1 → (t ≤ -1 ∨ 1 ≤ t) → |2 * (1 - s ^ 2) * (-(2 * s))| ≤ 8 * |s - t| := by
      intro s t hs ht
      obtain ⟨h1, h2⟩ := hs
      rcases ht with ht | ht
      · rw [abs_of_nonneg (by linarith : 0 ≤ s - t), abs_le]
        have hp : 0 ≤ (1 + s) := by linarith
        have hq : |(1 - s) * s| ≤ 2 := by rw [abs_le]; constructor <;> nlinarith
        have := abs_le.mp hq
        constructor <;> nlinarith [mul_le_mul_of_nonneg_left this.1 hp, mul_le_mul_of_nonneg_left this.2 hp]
      · rw [abs_of_nonpos (by linarith : s - t ≤ 0), abs_le]
        have hp : 0 ≤ (1 - s) := by linarith
        have hq : |(1 + s) * s| ≤ 2 := by rw [abs_le]; constructor <;> nlinarith
        have := abs_le.mp hq
        constructor <;> nlinarith [mul_le_mul_of_nonneg_left this.1 hp, mul_le_mul_of_nonneg_left this.2 hp]
    rcases hor s with hs | hs <;> rcases hor t with ht | ht
    · rw [max_eq_right (hin s hs), max_eq_right (hin t ht)]; exact inin s t hs ht
    · rw [max_eq_right (hin s hs), hout t ht]; simpa using inout s t hs ht
    · rw [max_eq_right (hin t ht), hout s hs, abs_sub_comm s t]; simpa using inout t s ht hs
    · rw [hout s hs, hout t ht]; simp

end FNFT

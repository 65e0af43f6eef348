import Verif.Proofs.InvRefl
import Verif.Proofs.InvLayers
import Verif.Props.NsevInvGrid
import Mathlib.LinearAlgebra.Lagrange
/-!
# C65: `fnft_nsev_inverse` for a reflection coefficient without bound states
-/
namespace FNFT
open Complex

/-- The hypotheses on the arguments: `D = 2^k` samples, an even number `M ≥ D` of frequencies on the grid that `fnft_nsev_inverse_XI` returns, a reflection coefficient with
values `cf`, and one of the two supported discretizations with the default inversion method. (`M` is below the bound at which the FFT would overflow its table of factors.) -/
structure Spec.InvArgs (k M : ℕ) (cs q : Buf ℂ) (cf : ℕ → ℂ) (XI : ℝ × ℝ) (T0 T1 eps : ℝ) (o : InvOpts) : Prop where
  hk : 1 ≤ k
  hDM : 2 ^ k ≤ M
  hev : M % 2 = 0
  hlt : M < 2 * 3 ^ 32
  hsz : 2 * 2 ^ k + 1 ≤ 3 ^ 32
  hT : T0 < T1
  he : eps = (T1 - T0) / (((2 ^ k : ℕ) : ℝ) - 1)
  hd : o.disc = .D2SPLIT2A ∨ o.disc = .D2SPLIT2_MODAL
  hc : o.cs = .REFLECTION_COEFFICIENT
  hm : o.meth = .DEFAULT ∨ o.meth = .REFL_COEFF
  hcs : cs.Holds 0 M cf
  hq : q.len = 2 ^ k
  hXI : ∃ Y, fnft_nsev_inverse_XI (2 ^ k) (some (T0, T1)) M (some Y) o.disc = some (SUCCESS, some XI)

/-- `P` is the polynomial of degree less than `M` that takes the values `ρ(ξ_j) exp(2 i ξ_j T1)` at the points `z_j = exp(2 i ξ_j ε)` that belong to the frequencies `ξ_j`. -/
def Spec.Interpolates (M : ℕ) (XI : ℝ × ℝ) (eps T1 : ℝ) (cf : ℕ → ℂ) (P : Polynomial ℂ) : Prop :=
  P.degree < M ∧ ∀ j, j < M → P.eval (exp (2 * I * ((XI.1 + j * ((XI.2 - XI.1) / ((M : ℝ) - 1)) : ℝ) : ℂ) * eps)) =
    cf j * exp (2 * I * ((XI.1 + j * ((XI.2 - XI.1) / ((M : ℝ) - 1)) : ℝ) : ℂ) * T1)

open Spec

variable {k M : ℕ} {cs q : Buf ℂ} {cf : ℕ → ℂ} {XI : ℝ × ℝ} {T0 T1 eps : ℝ} {o : InvOpts}

theorem InvArgs_grid (h : InvArgs k M cs q cf XI T0 T1 eps o) : 2 ≤ 2 ^ k ∧ 2 ≤ M ∧ GridOK XI.1 XI.2 eps M := by
  have h2 : 2 ≤ 2 ^ k := calc 2 = 2 ^ 1 := rfl
    _ ≤ 2 ^ k := Nat.pow_le_pow_right (by norm_num) h.hk
  have hM := h2.trans h.hDM
  refine ⟨h2, hM, ?_⟩
  obtain ⟨Y, hY⟩ := h.hXI
  obtain ⟨a, ha, hdeg, h1⟩ : ∃ a, nse_to_akns o.disc = .ok a ∧ akns_degree a ≠ 0 ∧ Spec.degree1step a = 1 := by
    rcases h.hd with h | h <;> rw [h] <;> exact ⟨_, rfl, by decide, by simp [Spec.degree1step, akns_degree, akns_upsampling_factor]⟩
  obtain ⟨X0, X1, e1, -, -, -, e4, -⟩ := C64_grid (2 ^ k) M h2 hM h.hev T0 T1 h.hT o.disc a ha hdeg Y
  rw [hY] at e1
  injection e1 with e1
  injection e1 with _ e1
  injection e1 with e1
  subst e1
  intro j hj
  have := e4 j hj
  rw [h1, ← h.he] at this
  simpa [invXi] using this

theorem InvArgs_eps (h : InvArgs k M cs q cf XI T0 T1 eps o) : 0 < eps := by
  have h2 := (InvArgs_grid h).1
  have : (2 : ℝ) ≤ ((2 ^ k : ℕ) : ℝ) := by exact_mod_cast h2
  rw [h.he]
  exact div_pos (by linarith [h.hT]) (by linarith)

/-- The transfer matrix. -/
theorem refl_transfer (h : InvArgs k M cs q cf XI T0 T1 eps o) {P : Polynomial ℂ} (hP : Interpolates M XI eps T1 cf P) {kappa : ℤ} :
    ∃ cs' tm x, cs'.len = cs.len ∧ cs'.Holds 0 M (fun j => cf j * exp (2 * I * ((XI.1 + j * ((XI.2 - XI.1) / ((M : ℝ) - 1)) : ℝ) : ℂ) * T1)) ∧
      tm.Holds 0 (4 * (2 ^ k + 1)) x ∧ x (2 ^ k) = 1 ∧
      (∀ m, m ≤ 2 ^ k → ∀ i, (Spec.pmat 2 (2 ^ k) (2 ^ k + 1) 0 x i 0).coeff m = ((![1, P] : Fin 2 → Polynomial ℂ) i).coeff m) ∧
      ∀ (q' : Buf ℂ) (g : Garbage), (kappa = 1 ∨ kappa = -1) → nse_finvscatter (2 ^ k) (some tm) (some q) eps kappa o.disc = some (SUCCESS, some tm, some q') →
        fnft_nsev_inverse M (some cs) (some XI) 0 none none (2 ^ k) (some q) (some (T0, T1)) kappa o g = some ⟨SUCCESS, some cs', some q'⟩ := by
  obtain ⟨h2, hM, hg⟩ := InvArgs_grid h
  have hval : ∀ j, invVal XI.1 XI.2 M (-2 * T1) cf j = cf j * exp (2 * I * ((XI.1 + j * ((XI.2 - XI.1) / ((M : ℝ) - 1)) : ℝ) : ℂ) * T1) := by
    intro j
    unfold invVal invXi
    congr 2
    push_cast
    ring
  obtain ⟨cs', tm, x, a1, a2, a3, a4, a5, a6⟩ := invTfRefl_ok (XI0 := XI.1) (XI1 := XI.2) (kappa := kappa) (D := 2 ^ k) (tm := Buf.malloc (4 * (2 ^ k + 1))) (P := P)
    (T0 := T0) (T1 := T1) h.hcs hM h.hlt h.hev h.he h2 h.hDM h.hd (Or.inl h.hc) hg hP.1 (fun j hj => by rw [hval]; exact hP.2 j hj) (by simp)
  refine ⟨cs', tm, x, a2, fun j hj => by rw [a3 j hj, hval], a4, by rw [a5 _ le_rfl, if_pos rfl], ?_, ?_⟩
  · intro m hm i
    fin_cases i
    · show (Spec.poly (2 ^ k) (fun j => x ((2 * 0 + 0) * (2 ^ k + 1) + 0 + j))).coeff m = (1 : Polynomial ℂ).coeff m
      rw [Spec.poly_coeff, if_pos hm, Polynomial.coeff_one]
      simp only [Nat.mul_zero, Nat.zero_mul, Nat.zero_add, Nat.add_zero]
      rw [a5 _ (by omega)]
      by_cases h0 : m = 0
      · rw [if_pos (by omega), if_pos h0]
      · rw [if_neg (by omega), if_neg h0]
    · show (Spec.poly (2 ^ k) (fun j => x ((2 * 1 + 0) * (2 ^ k + 1) + 0 + j))).coeff m = P.coeff m
      rw [Spec.poly_coeff, if_pos hm]
      have := a6 (2 ^ k - m) (by omega)
      rw [show 2 ^ k - (2 ^ k - m) = m by omega] at this
      rw [← this]
      congr 1
  · intro q' g kap hf
    have hdeg : nse_degree o.disc = 1 := by rcases h.hd with h | h <;> rw [h] <;> decide
    have htr : invTransfer M cs XI 0 (Buf.malloc 0) (2 ^ k) T0 T1 (2 ^ k) kappa o = some ⟨SUCCESS, cs', tm⟩ := by
      unfold invTransfer
      rw [h.hc]
      have hp : invPrecomp M cs XI.1 XI.2 0 (Buf.malloc 0) = some cs := by unfold invPrecomp; rw [if_pos rfl]
      simp only [hp, Option.bind_eq_bind, Option.bind_some]
      unfold invTfRho
      rcases h.hm with hm | hm <;> rw [hm] <;> simp only [a1, Option.bind_eq_bind, Option.bind_some] <;> rfl
    have hcont : invCont M cs XI 0 (Buf.malloc 0) (2 ^ k) q T0 T1 kappa o = some (SUCCESS, cs', q') := by
      unfold invCont
      rw [hdeg, Nat.mul_one]
      dsimp only
      rw [if_neg (by omega), htr]
      simp only [Option.bind_eq_bind, Option.bind_some]
      rw [if_neg (by simp), ← h.he, hf]
      rfl
    rw [inverse_cont h.hev h.hDM kap (fun h => absurd h (lt_irrefl 0)) (fun h => absurd h (lt_irrefl 0)) (fun h => absurd h (lt_irrefl 0)) rfl ⟨k, h.hk, rfl⟩ h.hT h.hd
      (Or.inl (by simp))]
    simp only [Option.getD_some, Option.getD_none, hcont, Option.bind_eq_bind, Option.bind_some]
    rw [if_neg (by simp)]
    rfl

/-- C65: the interpolating polynomial exists and is unique. -/
theorem C65_interpolation (h : InvArgs k M cs q cf XI T0 T1 eps o) : ∃! P : Polynomial ℂ, Interpolates M XI eps T1 cf P := by
  obtain ⟨h2, hM, hg⟩ := InvArgs_grid h
  set z : ℕ → ℂ := fun j => exp (2 * I * ((XI.1 + j * ((XI.2 - XI.1) / ((M : ℝ) - 1)) : ℝ) : ℂ) * eps) with hz
  have hprim : IsPrimitiveRoot (exp (2 * Real.pi * I / M)) M := isPrimitiveRoot_exp _ (by omega)
  have hinj : Set.InjOn z (Finset.range M) := by
    intro i hi j hj hij
    have hi' := Finset.mem_range.mp hi
    have hj' := Finset.mem_range.mp hj
    have e : -exp (2 * Real.pi * I / M) ^ (i + 1) = -exp (2 * Real.pi * I / M) ^ (j + 1) := by
      rw [← hg i hi', ← hg j hj']; exact hij
    rw [neg_inj, pow_succ, pow_succ] at e
    exact hprim.pow_inj hi' hj' (mul_right_cancel₀ (exp_ne_zero _) e)
  set y : ℕ → ℂ := fun j => cf j * exp (2 * I * ((XI.1 + j * ((XI.2 - XI.1) / ((M : ℝ) - 1)) : ℝ) : ℂ) * T1) with hy
  refine ⟨Lagrange.interpolate (Finset.range M) z y, ⟨?_, fun j hj => ?_⟩, ?_⟩
  · simpa using Lagrange.degree_interpolate_lt (s := Finset.range M) (r := y) hinj
  · exact Lagrange.eval_interpolate_at_node y hinj (Finset.mem_range.mpr hj)
  · rintro P ⟨hP1, hP2⟩
    refine Lagrange.eq_interpolate_of_eval_eq y hinj (by simpa using hP1) fun j hj => ?_
    exact hP2 j (Finset.mem_range.mp hj)

/-- C65: focusing case. The call succeeds and returns the signal of the unique layered medium whose reflection coefficient agrees with the interpolating polynomial up to terms
of the order `z^D` (the layers and the samples correspond to each other as in the forward transform, C29 and C30). The array with the continuous spectrum is overwritten. -/
theorem C65_focusing (h : InvArgs k M cs q cf XI T0 T1 eps o) (P : Polynomial ℂ) (hP : Interpolates M XI eps T1 cf P) (g : Garbage) :
    ∃ cs' q' R, fnft_nsev_inverse M (some cs) (some XI) 0 none none (2 ^ k) (some q) (some (T0, T1)) 1 o g = some ⟨SUCCESS, some cs', some q'⟩ ∧
      q'.len = 2 ^ k ∧ (∀ n, n < 2 ^ k → q'.rd n = some (Spec.recovered o.disc eps (-(starRingEnd ℂ) (R n)))) ∧
      Reflects 1 (2 ^ k) R P ∧ (∀ R', Reflects 1 (2 ^ k) R' P → ∀ n, n < 2 ^ k → R' n = R n) ∧
      cs'.len = cs.len ∧ cs'.Holds 0 M (fun j => cf j * exp (2 * I * ((XI.1 + j * ((XI.2 - XI.1) / ((M : ℝ) - 1)) : ℝ) : ℂ) * T1)) := by
  obtain ⟨cs', tm, x, a1, a2, a3, a4, a5, a6⟩ := refl_transfer h hP (kappa := 1)
  obtain ⟨q', R, V, b1, b2, b3, b4, b5⟩ := C30_finvscatter_focusing k h.hk h.hsz o.disc h.hd.symm eps (InvArgs_eps h) tm q x a3 h.hq (by rw [a4]; norm_num)
  have hL : ∀ R : ℕ → ℂ, (fun n => -((1 : ℤ) : ℂ) * (starRingEnd ℂ) (R n)) = fun n => -(starRingEnd ℂ) (R n) := fun R => by
    funext n; push_cast; ring
  have hR : Reflects 1 (2 ^ k) R P := by
    apply reflects_of_col (V := V)
    intro m hm i
    rw [hL, b5]
    exact a5 m hm.le i
  refine ⟨cs', q', R, a6 q' g (Or.inl rfl) b1, b2, b3, hR, ?_, a1, a2⟩
  intro R' hR' n hn
  obtain ⟨V1, v1, v2⟩ := col_of_reflects (Nat.one_le_two_pow) hR
  obtain ⟨V2, w1, w2⟩ := col_of_reflects (Nat.one_le_two_pow) hR'
  refine C30_layers_unique 1 (2 ^ k) R' R V2 V1 w1 v1 (fun n _ => ?_) (fun m hm i => ?_) n hn
  · push_cast
    have : 0 ≤ ‖R' n‖ ^ 2 := by positivity
    linarith
  · rw [← w2 m hm i, ← v2 m hm i]

/-- C65: both cases, round trip. If the reflection coefficient, interpolated on the grid, is that of a layered medium without singular layers up to terms of order `z^D`, then the call
returns the samples of that medium. -/
theorem C65_roundtrip (h : InvArgs k M cs q cf XI T0 T1 eps o) (P : Polynomial ℂ) (hP : Interpolates M XI eps T1 cf P) (g : Garbage) (kappa : ℤ)
    (hkap : kappa = 1 ∨ kappa = -1) (R : ℕ → ℂ) (hR : Reflects kappa (2 ^ k) R P) (hreg : ∀ n, n < 2 ^ k → 1 + (kappa : ℝ) * ‖R n‖ ^ 2 ≠ 0) :
    ∃ cs' q', fnft_nsev_inverse M (some cs) (some XI) 0 none none (2 ^ k) (some q) (some (T0, T1)) kappa o g = some ⟨SUCCESS, some cs', some q'⟩ ∧
      q'.len = 2 ^ k ∧ ∀ n, n < 2 ^ k → q'.rd n = some (Spec.recovered o.disc eps (-(kappa : ℂ) * (starRingEnd ℂ) (R n))) := by
  obtain ⟨cs', tm, x, a1, a2, a3, a4, a5, a6⟩ := refl_transfer h hP (kappa := kappa)
  obtain ⟨V, v1, v2⟩ := col_of_reflects (Nat.one_le_two_pow) hR
  obtain ⟨q', b1, b2, b3⟩ := C30_finvscatter k h.hk h.hsz o.disc h.hd.symm kappa hkap eps (InvArgs_eps h) tm q x a3 h.hq R V v1 hreg (fun m hm i => by
    rw [a5 m hm.le i, v2 m hm i])
  exact ⟨cs', q', a6 q' g hkap b1, b2, b3⟩

/-- C65: 2SPLIT2_MODAL. If the reflection coefficient, interpolated on the grid, is that of a signal with samples `s_n` up to terms of order `z^D`, i.e. that of the layers with
`Q_n = ε s_n`, then exactly these samples are returned. -/
theorem C65_roundtrip_modal (h : InvArgs k M cs q cf XI T0 T1 eps o) (hmod : o.disc = .D2SPLIT2_MODAL) (P : Polynomial ℂ) (hP : Interpolates M XI eps T1 cf P)
    (g : Garbage) (kappa : ℤ) (hkap : kappa = 1 ∨ kappa = -1) (s : ℕ → ℂ) (hR : Reflects kappa (2 ^ k) (fun n => -(kappa : ℂ) * (starRingEnd ℂ) (eps * s n)) P)
    (hreg : ∀ n, n < 2 ^ k → kappa = -1 → eps * ‖s n‖ ≠ 1) :
    ∃ cs' q', fnft_nsev_inverse M (some cs) (some XI) 0 none none (2 ^ k) (some q) (some (T0, T1)) kappa o g = some ⟨SUCCESS, some cs', some q'⟩ ∧
      q'.len = 2 ^ k ∧ ∀ n, n < 2 ^ k → q'.rd n = some (s n) := by
  have he := InvArgs_eps h
  obtain ⟨cs', q', h1, h2, h3⟩ := C65_roundtrip h P hP g kappa hkap _ hR (by
    intro n hn h0
    have hn' : ‖-(kappa : ℂ) * (starRingEnd ℂ) ((eps : ℂ) * s n)‖ = eps * ‖s n‖ := by
      rw [norm_mul, RCLike.norm_conj, norm_mul, norm_real, Real.norm_eq_abs, abs_of_pos he]
      rcases hkap with h | h <;> rw [h] <;> simp
    rw [hn'] at h0
    rcases hkap with h | h
    · rw [h] at h0; push_cast at h0
      have : 0 ≤ (eps * ‖s n‖) ^ 2 := by positivity
      linarith
    · rw [h] at h0; push_cast at h0
      have h3 : 0 ≤ eps * ‖s n‖ := by positivity
      refine hreg n hn h ?_
      nlinarith)
  refine ⟨cs', q', h1, h2, fun n hn => ?_⟩
  rw [h3 n hn, Spec.recovered, if_pos hmod]
  congr 1
  have he' : (eps : ℂ) ≠ 0 := by exact_mod_cast he.ne'
  rw [map_mul, map_neg, Complex.conj_conj]
  have hk2 : (kappa : ℂ) * (starRingEnd ℂ) (kappa : ℂ) = 1 := by rcases hkap with h | h <;> rw [h] <;> simp
  field_simp
  linear_combination (s n) * hk2

/-- The hypotheses of C65 are met in a case with a signal that does not vanish: two samples on [0, 1], two frequencies, and the reflection coefficient of the signal `(1, 0)`,
which is `-exp(2 i ξ) exp(-2 i ξ) = -1` (the general case: `r z exp(-2 i ξ)`). -/
example : ∃ (cs q : Buf ℂ) (cf : ℕ → ℂ) (XI : ℝ × ℝ) (P : Polynomial ℂ), InvArgs 1 2 cs q cf XI 0 1 1 { inv_default_opts with disc := .D2SPLIT2_MODAL } ∧
    Interpolates 2 XI 1 1 cf P ∧ Reflects 1 2 (fun n => -((1 : ℤ) : ℂ) * (starRingEnd ℂ) (((1 : ℝ) : ℂ) * (if n = 0 then 1 else 0))) P := by
  obtain ⟨X0, X1, h1, -⟩ := C64_grid 2 2 le_rfl le_rfl rfl 0 1 (by norm_num) .D2SPLIT2_MODAL .D2SPLIT2_MODAL rfl (by decide) (0, 0)
  refine ⟨Buf.ofList [-1, -1], Buf.malloc 2, fun _ => -1, (X0, X1), -Polynomial.X,
    ⟨by norm_num, by norm_num, by norm_num, by norm_num, by norm_num, by norm_num, by norm_num, Or.inr rfl, rfl, Or.inl rfl, ?_, by simp, ⟨(0, 0), h1⟩⟩, ⟨?_, ?_⟩, ?_⟩
  · intro i hi
    interval_cases i <;> simp [Buf.ofList, Buf.rd]
  · rw [Polynomial.degree_neg, Polynomial.degree_X]; exact_mod_cast (by norm_num : 1 < 2)
  · intro j _
    simp
  · intro m hm
    interval_cases m <;> simp [layers, lay, Polynomial.coeff_X, Matrix.mul_apply, Fin.sum_univ_two]

end FNFT

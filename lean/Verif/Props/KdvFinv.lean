import Verif.Proofs.KdvFinv
/-!
# Property C81: fast inverse scattering for the KdV equation
-/
namespace FNFT
open Polynomial Matrix

/-- The sample that belongs to the entry `Q` of a layer `[1, Q z; -eps, z]`. -/
noncomputable def Spec.kdvRecovered (d : KdvDisc) (eps : ℝ) (Q : ℂ) : ℂ :=
  if d = .D2SPLIT2_MODAL then Q / eps else Real.arctan ‖Q‖ * Complex.exp (Complex.I * Complex.arg Q) / eps

/-- What `kdv_finvscatter` does to the array `tm` with the transfer matrix (degree `deg`): the block of `T21` is replaced by the block of `T12`, moved by one. -/
def Spec.KdvOverwritten (deg : ℕ) (tm tm' : Buf ℂ) : Prop :=
  tm'.len = tm.len ∧ tm'.rd (2 * (deg + 1)) = some 0 ∧ (∀ i, i < deg → tm'.rd (2 * (deg + 1) + 1 + i) = tm.rd (deg + 1 + i)) ∧
    ∀ j, j < 2 * (deg + 1) ∨ 3 * (deg + 1) ≤ j → tm'.rd j = tm.rd j

theorem kdvOverwritten_of {deg : ℕ} {tm tm' : Buf ℂ} {x : ℕ → ℂ} (hx : tm.Holds 0 (4 * (deg + 1)) x) (hl : tm'.len = tm.len)
    (h : tm'.Holds 0 (4 * (deg + 1)) (transposed deg x)) (ho : ∀ j, j < 2 * (deg + 1) ∨ 3 * (deg + 1) ≤ j → tm'.rd j = tm.rd j) :
    Spec.KdvOverwritten deg tm tm' := by
  refine ⟨hl, ?_, fun i hi => ?_, ho⟩
  · have := h (2 * (deg + 1)) (by omega)
    rwa [Nat.zero_add, transposed, if_pos rfl] at this
  · have h1 := h (2 * (deg + 1) + 1 + i) (by omega)
    have h2 := hx (deg + 1 + i) (by omega)
    rw [Nat.zero_add] at h1 h2
    rw [h1, h2, transposed, if_neg (by omega), if_pos (by omega)]
    congr 2; omega

theorem kdv_holds_len {tm : Buf ℂ} {n : ℕ} {x : ℕ → ℂ} (hn : 0 < n) (hx : tm.Holds 0 n x) : n ≤ tm.len := by
  have h := hx (n - 1) (by omega)
  rw [Nat.zero_add] at h
  by_contra hc
  rw [Buf.rd, if_neg (by omega)] at h
  cases h

theorem kdv_finv_run {k : ℕ} (hk : 1 ≤ k) {d : KdvDisc} (hdeg : kdv_degree d = 1) {eps : ℝ} (heps : 0 < eps) (tm q : Buf ℂ) :
    kdv_finvscatter (2 ^ k) (some tm) (some q) eps d =
      (finvMain (kdvFinvKind eps) (kdvFinvDisc d) (2 ^ k) (2 ^ k) tm q eps).map fun R => (R.ret, some R.tm, some R.q) := by
  unfold kdv_finvscatter finvscatter
  dsimp only
  rw [hdeg, Nat.div_one, if_neg (by
    push Not
    exact ⟨(Nat.two_pow_pos k).ne', heps, by simp, by norm_num⟩), if_neg (by
    push Not
    refine ⟨?_, two_pow_and k⟩
    calc 2 = 2 ^ 1 := rfl
      _ ≤ 2 ^ k := Nat.pow_le_pow_right (by norm_num) hk)]
  cases finvMain (kdvFinvKind eps) (kdvFinvDisc d) (2 ^ k) (2 ^ k) tm q eps <;> rfl

/-- C81. General form: only the entries `T11` and `T12` of the transfer matrix are used. If `T11(z)` and `T12(z)/z` agree, up to terms of order `z^D`, with the column that results when the
layers `[1, -eps z; R_n, z]` are applied to some `V`, the routine succeeds, and the samples are those of the layers in reversed order. -/
theorem C81_finvscatter (k : ℕ) (hk : 1 ≤ k) (hsz : 2 * 2 ^ k + 1 ≤ 3 ^ 32) (d : KdvDisc) (hd : d = .D2SPLIT2_MODAL ∨ d = .D2SPLIT2A)
    (eps : ℝ) (heps : 0 < eps) (tm q : Buf ℂ) (x : ℕ → ℂ) (hx : tm.Holds 0 (4 * (2 ^ k + 1)) x) (hq : q.len = 2 ^ k)
    (R : ℕ → ℂ) (V : Fin 2 → ℂ[X]) (hV : (V 0).coeff 0 ≠ 0) (hR : ∀ n, n < 2 ^ k → 1 + eps * R n ≠ 0)
    (hcol : ∀ m, m < 2 ^ k →
      (Spec.pmat 2 (2 ^ k) (2 ^ k + 1) 0 x 0 0).coeff m = ((layers (fun _ => -(eps : ℂ)) R (2 ^ k)).mulVec V 0).coeff m ∧
      (Spec.pmat 2 (2 ^ k) (2 ^ k + 1) 0 x 0 1).coeff (m + 1) = ((layers (fun _ => -(eps : ℂ)) R (2 ^ k)).mulVec V 1).coeff m) :
    ∃ tm' q', kdv_finvscatter (2 ^ k) (some tm) (some q) eps d = some (SUCCESS, some tm', some q') ∧ Spec.KdvOverwritten (2 ^ k) tm tm' ∧
      q'.len = 2 ^ k ∧ ∀ n, n < 2 ^ k → q'.rd n = some (Spec.kdvRecovered d eps (R (2 ^ k - 1 - n))) := by
  obtain ⟨tm', t1, t2, t3, t4⟩ := kdvTranspose_ok hx (kdv_holds_len (by omega) hx)
  obtain ⟨q1, h1, h2, h3⟩ := finvMain_ok hk hsz (kdvFinvKind eps) (kdvFinvDisc d) eps tm tm' q t1 hq
    (Spec.pmat 2 (2 ^ k) (2 ^ k + 1) 0 (transposed (2 ^ k) x)) (pmat_rev t3) (fun _ => -(eps : ℂ)) R
    (fun n => Spec.kdvRecovered d eps (R n)) V
    (fun m hm i => by
      fin_cases i
      · exact (transposed_00 _ x m).trans (hcol m hm).1
      · exact (transposed_10 _ x m hm).trans (hcol m hm).2) hV
    (fun n hn => ⟨rfl, by
      have := hR n hn
      intro h0
      apply this
      linear_combination h0, fun size pl => by
      rcases hd with rfl | rfl
      · simp [finvSample, kdvFinvDisc, kdvFinvKind, Spec.kdvRecovered]
      · simp [finvSample, kdvFinvDisc, kdvFinvKind, Spec.kdvRecovered]⟩)
  obtain ⟨q2, e1, e2, e3⟩ := kdvReverse_ok _ h1 h2
  refine ⟨tm', q2, ?_, kdvOverwritten_of hx t2 t3 t4, e2, e3⟩
  rw [kdv_finv_run hk (by rcases hd with rfl | rfl <;> rfl) heps, h3]
  have : (kdvFinvKind eps).transpose = true := rfl
  rw [this, e1]
  rfl

/-- C81. If the first row of the transfer matrix is, up to a factor, that of a layered medium with the layers `[1, Q_n z; -eps, z]` (sample `0` acts first), the routine succeeds and returns
the samples that belong to the numbers `Q_n`. The array with the transfer matrix (an input according to the documentation) is changed. -/
theorem C81_medium (k : ℕ) (hk : 1 ≤ k) (hsz : 2 * 2 ^ k + 1 ≤ 3 ^ 32) (d : KdvDisc) (hd : d = .D2SPLIT2_MODAL ∨ d = .D2SPLIT2A)
    (eps : ℝ) (heps : 0 < eps) (tm q : Buf ℂ) (x : ℕ → ℂ) (hx : tm.Holds 0 (4 * (2 ^ k + 1)) x) (hq : q.len = 2 ^ k)
    (Q : ℕ → ℂ) (c : ℂ) (hc : c ≠ 0) (hQ : ∀ n, n < 2 ^ k → 1 + eps * Q n ≠ 0)
    (hrow : ∀ j, Spec.pmat 2 (2 ^ k) (2 ^ k + 1) 0 x 0 j = C c * layers Q (fun _ => -(eps : ℂ)) (2 ^ k) 0 j) :
    ∃ tm' q', kdv_finvscatter (2 ^ k) (some tm) (some q) eps d = some (SUCCESS, some tm', some q') ∧ Spec.KdvOverwritten (2 ^ k) tm tm' ∧
      q'.len = 2 ^ k ∧ ∀ n, n < 2 ^ k → q'.rd n = some (Spec.kdvRecovered d eps (Q n)) := by
  obtain ⟨s1, s2⟩ := layers_swap_col (2 ^ k) Q (fun _ => -(eps : ℂ))
  obtain ⟨tm', q', h1, h2, h3, h4⟩ := C81_finvscatter k hk hsz d hd eps heps tm q x hx hq (fun n => Q (2 ^ k - 1 - n)) ![C c, 0]
    (by simpa using hc) (fun n hn => hQ _ (by omega)) (fun m hm => by
      constructor
      · rw [hrow 0, ← s1]
        simp [Matrix.mulVec, dotProduct, Fin.sum_univ_two, mul_comm]
      · rw [hrow 1, ← s2, ← mul_assoc, mul_comm (C c) X, mul_assoc, coeff_X_mul]
        simp [Matrix.mulVec, dotProduct, Fin.sum_univ_two, mul_comm])
  refine ⟨tm', q', h1, h2, h3, fun n hn => ?_⟩
  rw [h4 n hn, show 2 ^ k - 1 - (2 ^ k - 1 - n) = n by omega]

/-- C81. Inversion of the forward scattering: with the discretization 2SPLIT2_MODAL, `D = 2^k` samples `r_n` (and `q_n = -1`), and no sample with `1 + eps^2 r_n = 0`, `kdv_fscatter` succeeds, and
`kdv_finvscatter` applied to its result (with or without normalisation) returns the samples `r_n`. -/
theorem C81_roundtrip_modal (k : ℕ) (hk : 1 ≤ k) (hD : 2 ^ k ≤ 2147483647) (eps : ℝ) (heps : 0 < eps) (q r : Buf ℂ) (rf : ℕ → ℂ)
    (hq : q.Holds 0 (2 ^ k) fun _ => -1) (hr : r.Holds 0 (2 ^ k) rf) (hs : ∀ n, n < 2 ^ k → 1 + (eps : ℂ) ^ 2 * rf n ≠ 0) (result : Buf ℂ) (L : ℕ)
    (hL : kdv_fscatter_numel (2 ^ k) .D2SPLIT2_MODAL = some L) (hlen : L ≤ result.len) (deg0 : ℕ) (Wp : Option ℤ)
    (q0 : Buf ℂ) (hq0 : q0.len = 2 ^ k) :
    ∃ S, kdv_fscatter (2 ^ k) (some q) (some r) eps (some result) (some deg0) Wp .D2SPLIT2_MODAL = some S ∧ S.ret = some SUCCESS ∧ S.deg = 2 ^ k ∧
      ∃ tm' q', kdv_finvscatter S.deg (some S.result) (some q0) eps .D2SPLIT2_MODAL = some (SUCCESS, some tm', some q') ∧
        q'.len = 2 ^ k ∧ q'.Holds 0 (2 ^ k) rf := by
  have h2k : 2 ≤ 2 ^ k := by
    calc 2 = 2 ^ 1 := rfl
      _ ≤ 2 ^ k := Nat.pow_le_pow_right (by norm_num) hk
  have heps0 : (eps : ℂ) ≠ 0 := by exact_mod_cast heps.ne'
  have hprod : ∀ n, n < 2 ^ k → 1 - (eps * rf n) * (eps * (-1 : ℂ)) ≠ 0 := fun n hn h => hs n hn (by linear_combination h)
  obtain ⟨S, s1, s2, s3, -, -, y, s6, s7, -⟩ := akns_fscatter_ok .D2SPLIT2_MODAL tab2_MODAL rfl (2 ^ k) h2k hD r q rf (fun _ => -1) hr hq eps heps
    (fun n _ c => if c = 0 then 1 / csqrt (1 - (eps * rf n) * (eps * (-1 : ℂ))) else if c = 1 then eps * rf n else eps * (-1 : ℂ))
    (by
      intro n hn
      rw [aknsEnv, if_pos rfl]
      simp only [csqrt_eq_zero, aknsEps]
      exact if_neg (hprod n hn)) result L hL hlen deg0 Wp
  rw [show akns_degree .D2SPLIT2_MODAL = 1 from rfl, Nat.mul_one] at s3 s6 s7
  rw [prod_layers (fun n => eps * rf n) (fun _ => eps * (-1 : ℂ)) (fun n => 1 / csqrt (1 - (eps * rf n) * (eps * (-1 : ℂ)))) _ (2 ^ k)
    (fun n hn => sampleP_modal _ _ _)] at s7
  have h2 : ((2 : ℂ) ^ S.W) ≠ 0 := zpow_ne_zero _ (by norm_num)
  obtain ⟨tm', q', e1, e2, e3, e4⟩ := C81_medium k hk (by norm_num at hD ⊢; omega) .D2SPLIT2_MODAL (Or.inl rfl) eps heps S.result q0 y s6 hq0
    (fun n => eps * rf n) (((2 : ℂ) ^ S.W)⁻¹ * ∏ n ∈ Finset.range (2 ^ k), 1 / csqrt (1 - (eps * rf n) * (eps * (-1 : ℂ))))
    (mul_ne_zero (inv_ne_zero h2) (Finset.prod_ne_zero_iff.2 fun n hn =>
      one_div_ne_zero fun h => hprod n (Finset.mem_range.1 hn) (csqrt_eq_zero.1 h)))
    (fun n hn h => hs n hn (by linear_combination h)) (fun j => by
      have hj := congrFun (congrFun s7 0) j
      simp only [Matrix.smul_apply, smul_eq_mul, mul_neg, mul_one] at hj
      rw [C_mul, mul_assoc]
      simp only [mul_neg, mul_one]
      rw [← hj, ← mul_assoc, ← C_mul, inv_mul_cancel₀ h2, C_1, one_mul])
  refine ⟨⟨S.ret.map chk, S.deg, S.W, S.result⟩, kdv_fscatter_eq (a := .D2SPLIT2_MODAL) (v := 0) rfl rfl (by omega) heps (by simpa [swapIf] using s1), ?_, s3, tm', q', ?_, e3, fun n hn => ?_⟩
  · simp only [s2]; rfl
  · simp only [s3]; exact e1
  · rw [Nat.zero_add, e4 n hn, Spec.kdvRecovered, if_pos rfl, mul_comm, mul_div_assoc, div_self heps0, mul_one]

/-- C81. Discretizations of degree one that are not supported (also the variants `_VANILLA` of the two supported ones) are reported, and a singular layer at the beginning of the signal is reported as
a division by zero, both as the code of a subroutine; the samples are not changed, but the transfer matrix is. -/
theorem C81_errors (k : ℕ) (hk : 1 ≤ k) (hsz : 2 * 2 ^ k + 1 ≤ 3 ^ 32) (d : KdvDisc) (hd : kdv_degree d = 1)
    (eps : ℝ) (heps : 0 < eps) (tm q : Buf ℂ) (x : ℕ → ℂ) (hx : tm.Holds 0 (4 * (2 ^ k + 1)) x) (h0 : x (2 ^ k) ≠ 0) :
    (x (2 ^ k) + eps * x (2 ^ k + 1 + (2 ^ k - 1)) = 0 → ∃ tm', Spec.KdvOverwritten (2 ^ k) tm tm' ∧
      kdv_finvscatter (2 ^ k) (some tm) (some q) eps d = some (E_SUBROUTINE EC_DIV_BY_ZERO, some tm', some q)) ∧
    (x (2 ^ k) + eps * x (2 ^ k + 1 + (2 ^ k - 1)) ≠ 0 → d ≠ .D2SPLIT2_MODAL → d ≠ .D2SPLIT2A → ∃ tm', Spec.KdvOverwritten (2 ^ k) tm tm' ∧
      kdv_finvscatter (2 ^ k) (some tm) (some q) eps d = some (E_SUBROUTINE EC_INVALID_ARGUMENT, some tm', some q)) := by
  have hp := Nat.two_pow_pos k
  obtain ⟨tm', t1, t2, t3, t4⟩ := kdvTranspose_ok hx (kdv_holds_len (by omega) hx)
  have ha := t3 (2 ^ k) (by omega)
  have hb := t3 (2 * (2 ^ k + 1) + 2 ^ k) (by omega)
  rw [Nat.zero_add, transposed, if_neg (by omega), if_neg (by omega)] at ha
  rw [Nat.zero_add, transposed, if_neg (by omega), if_pos (by omega), show 2 * (2 ^ k + 1) + 2 ^ k - (2 ^ k + 2) = 2 ^ k + 1 + (2 ^ k - 1) by omega] at hb
  obtain ⟨m1, m2⟩ := finvMain_first (kdvFinvKind eps) (kdvFinvDisc d) k hk tm tm' q eps hsz t1 ha hb h0
  have hcond : (1 - (kdvFinvKind eps).qFromR (x (2 ^ k + 1 + (2 ^ k - 1)) / x (2 ^ k)) * (x (2 ^ k + 1 + (2 ^ k - 1)) / x (2 ^ k)) = 0) ↔
      x (2 ^ k) + eps * x (2 ^ k + 1 + (2 ^ k - 1)) = 0 := by
    simp only [kdvFinvKind]
    constructor
    · intro h; field_simp at h; linear_combination h
    · intro h; field_simp; linear_combination h
  have hov := kdvOverwritten_of hx t2 t3 t4
  refine ⟨fun h => ⟨tm', hov, ?_⟩, fun h h1 h2 => ⟨tm', hov, ?_⟩⟩
  · rw [kdv_finv_run hk hd heps, m1 (hcond.2 h)]; rfl
  · rw [kdv_finv_run hk hd heps, m2 (fun h' => h (hcond.1 h')) ?_]
    · rfl
    · revert h1 h2; cases d <;> simp [kdvFinvDisc]

/-- C81. With a discretization of a degree larger than one, and `2^k ≥ 2` samples, the stack of the routine is exceeded, as in C30. -/
theorem C81_stack_overrun (k : ℕ) (hk : 1 ≤ k) (d : KdvDisc) (hd : 2 ≤ kdv_degree d) (deg : ℕ) (hdeg : deg / kdv_degree d = 2 ^ k)
    (hsz : 2 * deg + 1 ≤ 3 ^ 32) (eps : ℝ) (heps : 0 < eps) (tm q : Buf ℂ) : kdv_finvscatter deg (some tm) (some q) eps d = none := by
  unfold kdv_finvscatter finvscatter
  dsimp only
  rw [if_neg (by
      push Not
      refine ⟨?_, heps, by simp, by omega⟩
      rintro rfl
      rw [Nat.zero_div] at hdeg
      exact (Nat.two_pow_pos k).ne hdeg), hdeg, if_neg (by
      push Not
      refine ⟨?_, two_pow_and k⟩
      calc 2 = 2 ^ 1 := rfl
        _ ≤ 2 ^ k := Nat.pow_le_pow_right (by norm_num) hk),
    finvMain_overrun _ _ k deg tm q eps (kdv_degree d) hd hdeg hsz]
  rfl

/-! ## 2SPLIT2A -/

theorem layers_vec_one (Q R : ℕ → ℂ) (n : ℕ) (V : Fin 2 → ℂ[X]) :
    ((layers Q R (n + 1)).mulVec V 1).coeff 0 = R n * (V 0).coeff 0 := by
  rw [layers, ← Matrix.mulVec_mulVec]
  have h := layers_vec_zero Q R n V
  generalize (layers Q R n).mulVec V = w at h ⊢
  simp [lay, Matrix.mulVec, dotProduct, Fin.sum_univ_two, h]

theorem layers_row_zero (Q R : ℕ → ℂ) (n : ℕ) : (layers Q R (n + 1) 0 0).coeff 0 = 1 ∧ (layers Q R (n + 1) 0 1).coeff 1 = Q 0 := by
  obtain ⟨s1, s2⟩ := layers_swap_col (n + 1) Q R
  have e0 : ∀ (A : PMat 2) (i : Fin 2), A i 0 = A.mulVec ![1, 0] i := fun A i => by simp [Matrix.mulVec, dotProduct, Fin.sum_univ_two]
  constructor
  · rw [e0 (layers Q R (n + 1)) 0, layers_vec_zero]; simp
  · rw [← s2, coeff_X_mul, e0 (layers (fun m => R (n + 1 - 1 - m)) (fun m => Q (n + 1 - 1 - m)) (n + 1)) 1, layers_vec_one]; simp

/-- The sample at zero frequency. -/
theorem zf_kdv (eps ρ : ℝ) (hρ : 0 ≤ ρ) : ∃ s : ℝ,
    zeroFreq eps (ρ : ℂ) (-1) 0 = (Real.cos (eps * √ρ) : ℝ) ∧ zeroFreq eps (ρ : ℂ) (-1) 1 = ρ * (eps * s : ℝ) ∧
    zeroFreq eps (ρ : ℂ) (-1) 2 = -1 * (eps * s : ℝ) ∧ (1e-8 ≤ |eps * √ρ| → s * (eps * √ρ) = Real.sin (eps * √ρ)) := by
  obtain ⟨s, h1, -, h3⟩ := csinc_real (eps * √ρ)
  have hD : (eps : ℂ) * csqrt (-(ρ : ℂ) * (-1)) = ((eps * √ρ : ℝ) : ℂ) := by
    have : (-(ρ : ℂ) * (-1)) = ((√ρ : ℝ) : ℂ) ^ 2 := by
      rw [← Complex.ofReal_pow, Real.sq_sqrt hρ]; ring
    rw [this, csqrt_sq_real (Real.sqrt_nonneg _)]; push_cast; rfl
  refine ⟨s, ?_, ?_, ?_, fun h => h3 (Or.inl h)⟩
  · simp only [zeroFreq, hD, if_true]; push_cast; rfl
  · simp only [zeroFreq, hD, h1]; norm_num
  · simp only [zeroFreq, hD, h1]; norm_num

/-- C81. With the discretization 2SPLIT2A the routine does not invert `kdv_fscatter`, because it assumes that the layers have the entry `-eps` (they have `-tan(eps √r_n)/√r_n`): for real
samples `r_n ≥ 0`, a successful call in which no singular layer occurs returns `arctan(√r_0 tan(eps √r_0))/eps` in place of the first sample `r_0`. -/
theorem C81_split2A_first (k : ℕ) (hk : 1 ≤ k) (hD : 2 ^ k ≤ 2147483647) (eps : ℝ) (heps : 0 < eps) (q r : Buf ℂ) (ρ : ℕ → ℝ)
    (hq : q.Holds 0 (2 ^ k) fun _ => -1) (hr : r.Holds 0 (2 ^ k) fun n => (ρ n : ℂ)) (hρ : ∀ n, n < 2 ^ k → 0 ≤ ρ n ∧ eps * √(ρ n) < Real.pi / 2)
    (h0 : 1e-8 ≤ eps * √(ρ 0)) (result : Buf ℂ) (L : ℕ) (hL : kdv_fscatter_numel (2 ^ k) .D2SPLIT2A = some L) (hlen : L ≤ result.len) (deg0 : ℕ) (Wp : Option ℤ)
    (q0 : Buf ℂ) (hq0 : q0.len = 2 ^ k) :
    ∃ S y, kdv_fscatter (2 ^ k) (some q) (some r) eps (some result) (some deg0) Wp .D2SPLIT2A = some S ∧ S.ret = some SUCCESS ∧ S.deg = 2 ^ k ∧
      S.result.Holds 0 (4 * (2 ^ k + 1)) y ∧
      ∀ (R : ℕ → ℂ) (V : Fin 2 → ℂ[X]), (V 0).coeff 0 ≠ 0 → (∀ n, n < 2 ^ k → 1 + eps * R n ≠ 0) → (∀ m, m < 2 ^ k →
        (Spec.pmat 2 (2 ^ k) (2 ^ k + 1) 0 y 0 0).coeff m = ((layers (fun _ => -(eps : ℂ)) R (2 ^ k)).mulVec V 0).coeff m ∧
        (Spec.pmat 2 (2 ^ k) (2 ^ k + 1) 0 y 0 1).coeff (m + 1) = ((layers (fun _ => -(eps : ℂ)) R (2 ^ k)).mulVec V 1).coeff m) →
      ∃ tm' q', kdv_finvscatter S.deg (some S.result) (some q0) eps .D2SPLIT2A = some (SUCCESS, some tm', some q') ∧ q'.len = 2 ^ k ∧
        q'.rd 0 = some ((Real.arctan (√(ρ 0) * Real.tan (eps * √(ρ 0))) / eps : ℝ) : ℂ) := by
  have h2k : 2 ≤ 2 ^ k := by
    calc 2 = 2 ^ 1 := rfl
      _ ≤ 2 ^ k := Nat.pow_le_pow_right (by norm_num) hk
  have hcos : ∀ n, n < 2 ^ k → 0 < Real.cos (eps * √(ρ n)) := fun n hn =>
    Real.cos_pos_of_mem_Ioo ⟨by have : 0 ≤ eps * √(ρ n) := by positivity
                                linarith [Real.pi_pos], (hρ n hn).2⟩
  have hz : ∀ n, ∃ s : ℝ, n < 2 ^ k →
    zeroFreq eps (ρ n : ℂ) (-1) 0 = (Real.cos (eps * √(ρ n)) : ℝ) ∧ zeroFreq eps (ρ n : ℂ) (-1) 1 = ρ n * (eps * s : ℝ) ∧
    zeroFreq eps (ρ n : ℂ) (-1) 2 = -1 * (eps * s : ℝ) ∧ (1e-8 ≤ |eps * √(ρ n)| → s * (eps * √(ρ n)) = Real.sin (eps * √(ρ n))) := fun n => by
    by_cases hn : n < 2 ^ k
    · obtain ⟨s, h⟩ := zf_kdv eps (ρ n) (hρ n hn).1
      exact ⟨s, fun _ => h⟩
    · exact ⟨0, fun h => absurd h hn⟩
  choose s hz using hz
  have henv2 : ((tab2A.scales.getD 0 0 : ℚ) : ℝ) * aknsEps .D2SPLIT2A eps / ((akns_degree .D2SPLIT2A : ℕ) : ℝ) = eps := by
    simp [tab2A, aknsEps, akns_degree]
  obtain ⟨S, s1, s2, s3, -, -, y, s6, s7, -⟩ := akns_fscatter_ok .D2SPLIT2A tab2A rfl (2 ^ k) h2k hD r q (fun n => (ρ n : ℂ)) (fun _ => -1) hr hq eps heps
    (fun n s c => zeroFreq (((tab2A.scales.getD s 0 : ℚ) : ℝ) * aknsEps .D2SPLIT2A eps / ((akns_degree .D2SPLIT2A : ℕ) : ℝ)) (ρ n : ℂ) (-1) c)
    (by
      intro n hn
      rw [aknsEnv, if_neg (by decide)]) result L hL hlen deg0 Wp
  rw [show akns_degree .D2SPLIT2A = 1 from rfl, Nat.mul_one] at s3 s6 s7
  have henv3 := henv2
  rw [show akns_degree .D2SPLIT2A = 1 from rfl] at henv3
  have hS : ∀ n, n < 2 ^ k → sampleP tab2A 1 (fun s c => zeroFreq (((tab2A.scales.getD s 0 : ℚ) : ℝ) * aknsEps .D2SPLIT2A eps / ((1 : ℕ) : ℝ)) (ρ n : ℂ) (-1) c) =
      C ((Real.cos (eps * √(ρ n)) : ℝ) : ℂ) • lay (ρ n * (eps * s n / Real.cos (eps * √(ρ n)) : ℝ)) (-1 * (eps * s n / Real.cos (eps * √(ρ n)) : ℝ)) := by
    intro n hn
    obtain ⟨z0, z1, z2, -⟩ := hz n hn
    have hc : ((Real.cos (eps * √(ρ n)) : ℝ) : ℂ) ≠ 0 := by exact_mod_cast (hcos n hn).ne'
    have hcm : ((Real.cos (eps * √(ρ n)) : ℝ) : ℂ) * ((eps * s n / Real.cos (eps * √(ρ n)) : ℝ) : ℂ) = ((eps * s n : ℝ) : ℂ) := by
      rw [← Complex.ofReal_mul, mul_div_cancel₀ _ (hcos n hn).ne']
    rw [sampleP_2A _ (ρ n * (eps * s n / Real.cos (eps * √(ρ n)) : ℝ)) (-1 * (eps * s n / Real.cos (eps * √(ρ n)) : ℝ))]
    · simp only [henv3, z0]
    · simp only [henv3, z0, z1]; rw [← hcm]; ring
    · simp only [henv3, z0, z2]; rw [← hcm]; ring
  replace s7 := s7.trans (prod_layers _ _ _ (fun n => sampleP tab2A 1 (fun s c => zeroFreq (((tab2A.scales.getD s 0 : ℚ) : ℝ) * aknsEps .D2SPLIT2A eps / ((1 : ℕ) : ℝ)) (ρ n : ℂ) (-1) c)) (2 ^ k) hS)
  have h2 : ((2 : ℂ) ^ S.W) ≠ 0 := zpow_ne_zero _ (by norm_num)
  refine ⟨⟨S.ret.map chk, S.deg, S.W, S.result⟩, y, kdv_fscatter_eq (a := .D2SPLIT2A) (v := 0) rfl rfl (by omega) heps (by simpa [swapIf] using s1), ?_, s3, s6, ?_⟩
  · simp only [s2]; rfl
  intro R V hV hR hcol
  obtain ⟨tm', q', e1, e2, e3, e4⟩ := C81_finvscatter k hk (by norm_num at hD ⊢; omega) .D2SPLIT2A (Or.inr rfl) eps heps S.result q0 y s6 hq0 R V hV hR hcol
  refine ⟨tm', q', by simp only [s3]; exact e1, e3, ?_⟩
  rw [e4 0 (by omega), Nat.sub_zero]
  obtain ⟨n, hn⟩ : ∃ n, 2 ^ k = n + 1 := ⟨2 ^ k - 1, by omega⟩
  obtain ⟨c1, c2⟩ := hcol 0 (by omega)
  rw [layers_vec_zero] at c1
  rw [hn, layers_vec_one, ← hn] at c2
  have hj : ∀ j, ((2 : ℂ) ^ S.W) * (Spec.pmat 2 (2 ^ k) (2 ^ k + 1) 0 y 0 j).coeff 0 = _ := fun j => by
    have := congrArg (fun p : ℂ[X] => p.coeff 0) (congrFun (congrFun s7 0) j)
    simp only [Matrix.smul_apply, smul_eq_mul, coeff_C_mul] at this
    exact this
  have hj1 : ∀ j, ((2 : ℂ) ^ S.W) * (Spec.pmat 2 (2 ^ k) (2 ^ k + 1) 0 y 0 j).coeff 1 = _ := fun j => by
    have := congrArg (fun p : ℂ[X] => p.coeff 1) (congrFun (congrFun s7 0) j)
    simp only [Matrix.smul_apply, smul_eq_mul, coeff_C_mul] at this
    exact this
  have d1 := hj 0
  have d2 := hj1 1
  have hl := layers_row_zero (fun n => ρ n * (eps * s n / Real.cos (eps * √(ρ n)) : ℝ)) (fun n => -1 * (eps * s n / Real.cos (eps * √(ρ n)) : ℝ)) n
  rw [← hn] at hl
  rw [hl.1, mul_one, c1] at d1
  rw [Nat.zero_add] at c2
  rw [hl.2, c2] at d2
  have hRn : R n = ρ 0 * (eps * s 0 / Real.cos (eps * √(ρ 0)) : ℝ) := by
    have : (2 : ℂ) ^ S.W * (V 0).coeff 0 ≠ 0 := mul_ne_zero h2 hV
    refine mul_left_cancel₀ this ?_
    calc _ = (2 : ℂ) ^ S.W * (R n * (V 0).coeff 0) := by ring
      _ = _ := by rw [d2, d1]
  obtain ⟨-, -, -, z3⟩ := hz 0 (by omega)
  have hab : |eps * √(ρ 0)| = eps * √(ρ 0) := abs_of_nonneg (by positivity)
  have z4 := z3 (by rw [hab]; exact h0)
  have hQ : R n = ((√(ρ 0) * Real.tan (eps * √(ρ 0)) : ℝ) : ℂ) := by
    rw [hRn, ← Complex.ofReal_mul]
    congr 1
    rw [Real.tan_eq_sin_div_cos, ← z4]
    have := Real.mul_self_sqrt (hρ 0 (by omega)).1
    calc ρ 0 * (eps * s 0 / Real.cos (eps * √(ρ 0))) = (√(ρ 0) * √(ρ 0)) * (eps * s 0 / Real.cos (eps * √(ρ 0))) := by rw [this]
      _ = _ := by ring
  have hnn : 0 ≤ √(ρ 0) * Real.tan (eps * √(ρ 0)) := mul_nonneg (Real.sqrt_nonneg _) (Real.tan_nonneg_of_nonneg_of_le_pi_div_two (by positivity) (hρ 0 (by omega)).2.le)
  rw [show 2 ^ k - 1 = n by omega, hQ, Spec.kdvRecovered, if_neg (by decide), Complex.norm_real, Real.norm_eq_abs, abs_of_nonneg hnn, Complex.arg_ofReal_of_nonneg hnn]
  simp

/-- The hypotheses of C81 can be met: a round trip, and (two samples) the layers that 2SPLIT2A finds. -/
example : (∃ S tm' q', kdv_fscatter 2 (some (Buf.ofFn 2 fun _ => -1)) (some (Buf.ofFn 2 fun i => (i : ℂ))) 1 (some (Buf.malloc 16)) (some 0) none .D2SPLIT2_MODAL = some S ∧
      kdv_finvscatter 2 (some S.result) (some (Buf.malloc 2)) 1 .D2SPLIT2_MODAL = some (SUCCESS, some tm', some q') ∧ q'.Holds 0 2 fun i => (i : ℂ)) ∧
    kdv_finvscatter 8 (some (Buf.malloc 36)) (some (Buf.malloc 4)) 1 .D2SPLIT4B = none := by
  obtain ⟨S, h1, -, h2, tm', q', h3, -, h4⟩ := C81_roundtrip_modal 1 (by norm_num) (by norm_num) 1 (by norm_num) (Buf.ofFn 2 fun _ => -1)
    (Buf.ofFn 2 fun i => (i : ℂ)) (fun i => (i : ℂ)) (Buf.holds_ofFn _ _) (Buf.holds_ofFn _ _)
    (by
      intro n hn
      rcases (by omega : n = 0 ∨ n = 1) with rfl | rfl <;> norm_num) (Buf.malloc 16) 16 (by decide) (by simp) 0 none (Buf.malloc 2) rfl
  rw [h2] at h3
  exact ⟨⟨S, tm', q', h1, h3, h4⟩, C81_stack_overrun 2 (by norm_num) .D2SPLIT4B (by decide) 8 (by decide) (by norm_num) 1 (by norm_num) _ _⟩

theorem kdv_two_layers (Q R : ℕ → ℂ) : layers Q R 2 0 0 = 1 + C (Q 1 * R 0) * X ∧ layers Q R 2 0 1 = C (Q 0) * X + C (Q 1) * X ^ 2 := by
  simp only [layers, lay, Matrix.mul_one]
  constructor
  · rw [Matrix.mul_apply, Fin.sum_univ_two]
    simp only [Matrix.of_apply, Matrix.cons_val_zero, Matrix.cons_val_one, Matrix.cons_val', Matrix.cons_val_fin_one, C_mul]
    ring
  · rw [Matrix.mul_apply, Fin.sum_univ_two]
    simp only [Matrix.of_apply, Matrix.cons_val_zero, Matrix.cons_val_one, Matrix.cons_val', Matrix.cons_val_fin_one]
    ring

example (eps : ℝ) (heps : 0 < eps) (c : ℂ) (hc : c ≠ 0) (Q R : ℕ → ℂ) (h1 : 1 + eps * Q 0 ≠ 0) (h2 : 1 + eps * (Q 1 * (1 - R 0 * Q 0) / (1 + eps * Q 0)) ≠ 0) :
    ∃ (R' : ℕ → ℂ) (V : Fin 2 → ℂ[X]), (V 0).coeff 0 ≠ 0 ∧ (∀ n, n < 2 → 1 + eps * R' n ≠ 0) ∧ ∀ m, m < 2 →
      (C c * layers Q R 2 0 0).coeff m = ((layers (fun _ => -(eps : ℂ)) R' 2).mulVec V 0).coeff m ∧
      (C c * layers Q R 2 0 1).coeff (m + 1) = ((layers (fun _ => -(eps : ℂ)) R' 2).mulVec V 1).coeff m := by
  have he : (eps : ℂ) ≠ 0 := by exact_mod_cast heps.ne'
  obtain ⟨ρ, hρ⟩ : ∃ ρ, ρ = Q 1 * (1 - R 0 * Q 0) / (1 + eps * Q 0) := ⟨_, rfl⟩
  have hρ' : ρ * (1 + eps * Q 0) = Q 1 * (1 - R 0 * Q 0) := by rw [hρ]; exact div_mul_cancel₀ _ h1
  refine ⟨fun n => if n = 0 then ρ else Q 0, ![C c, C (c * (-(Q 1 * R 0) / eps - ρ))], by simpa using hc, fun n hn => ?_, fun m hm => ?_⟩
  · rcases (by omega : n = 0 ∨ n = 1) with rfl | rfl
    · simpa [hρ] using h2
    · simpa using h1
  · obtain ⟨t1, t2⟩ := kdv_two_layers Q R
    rw [t1, t2]
    have e1 : (layers (fun _ => -(eps : ℂ)) (fun n => if n = 0 then ρ else Q 0) 2).mulVec ![C c, C (c * (-(Q 1 * R 0) / eps - ρ))] 0 =
        C c + C (-eps * (c * (-(Q 1 * R 0) / eps - ρ)) - eps * ρ * c) * X + C (-eps * (c * (-(Q 1 * R 0) / eps - ρ))) * X ^ 2 := by
      simp [layers, lay, Matrix.mulVec, dotProduct, Fin.sum_univ_two, Matrix.mul_apply]
      ring
    have e2 : (layers (fun _ => -(eps : ℂ)) (fun n => if n = 0 then ρ else Q 0) 2).mulVec ![C c, C (c * (-(Q 1 * R 0) / eps - ρ))] 1 =
        C (Q 0 * c) + C (-eps * Q 0 * (c * (-(Q 1 * R 0) / eps - ρ)) + ρ * c) * X + C (c * (-(Q 1 * R 0) / eps - ρ)) * X ^ 2 := by
      simp [layers, lay, Matrix.mulVec, dotProduct, Fin.sum_univ_two, Matrix.mul_apply]
      ring
    rw [e1, e2]
    have k1 : -eps * (c * (-(Q 1 * R 0) / eps - ρ)) - eps * ρ * c = c * (Q 1 * R 0) := by field_simp; ring
    have k2 : -eps * Q 0 * (c * (-(Q 1 * R 0) / eps - ρ)) + ρ * c = c * Q 1 := by
      have : -eps * Q 0 * (c * (-(Q 1 * R 0) / eps - ρ)) = c * Q 0 * (Q 1 * R 0 + eps * ρ) := by field_simp; ring
      rw [this]; linear_combination c * hρ'
    rw [k1, k2]
    rcases (by omega : m = 0 ∨ m = 1) with rfl | rfl
    all_goals
      simp only [coeff_add, coeff_C_mul, coeff_C, coeff_X, coeff_one, coeff_X_pow]
      norm_num
    all_goals ring

/-- The value in `C81_split2A_first` is in general not the sample: for `r_0 = 4` it is smaller. -/
example (eps : ℝ) (heps : 0 < eps) (h : eps < Real.pi / 8) : Real.arctan (√4 * Real.tan (eps * √4)) / eps < 4 := by
  have h4 : √(4 : ℝ) = 2 := by rw [show (4 : ℝ) = 2 ^ 2 by norm_num]; exact Real.sqrt_sq (by norm_num)
  rw [h4, div_lt_iff₀ heps]
  have hp := Real.pi_pos
  have e : Real.arctan (Real.tan (4 * eps)) = 4 * eps := Real.arctan_tan (by linarith) (by linarith)
  rw [← e]
  refine Real.arctan_strictMono ?_
  have hc2 : 0 < Real.cos (eps * 2) := Real.cos_pos_of_mem_Ioo ⟨by linarith, by linarith⟩
  have hc4 : 0 < Real.cos (4 * eps) := Real.cos_pos_of_mem_Ioo ⟨by linarith, by linarith⟩
  have hs2 : 0 < Real.sin (eps * 2) := Real.sin_pos_of_pos_of_lt_pi (by linarith) (by linarith)
  rw [Real.tan_eq_sin_div_cos, Real.tan_eq_sin_div_cos, ← mul_div_assoc, div_lt_div_iff₀ hc2 hc4]
  rw [show 4 * eps = 2 * (eps * 2) by ring, Real.sin_two_mul, Real.cos_two_mul]
  have h1 := Real.sin_sq_add_cos_sq (eps * 2)
  nlinarith [mul_pos hs2 (mul_pos hs2 hs2)]

end FNFT

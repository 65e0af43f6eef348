import Verif.Proofs.FinvLink
import Verif.Proofs.FinvDescend
/-!
# Properties C29, C30: fast inverse scattering for the NSE
-/
namespace FNFT
open Polynomial Matrix

/-- The sample that belongs to the entry `Q` of a layer `[1, Q z; R, z]`. -/
noncomputable def Spec.recovered (d : NseDisc) (eps : ℝ) (Q : ℂ) : ℂ :=
  if d = .D2SPLIT2_MODAL then Q / eps else Real.arctan ‖Q‖ * Complex.exp (Complex.I * Complex.arg Q) / eps

/-- C30. `nse_finvscatter` with a supported discretization and `2^k` samples. If the lower coefficients of the first column of the
transfer matrix are those of a layered medium with layers `[1, Q_n z; R_n, z]`, `Q_n = -kappa conj(R_n)`, applied to some column `V`,
then the routine succeeds (in particular it never leaves its stack or its arrays and reads nothing that was not written), the
transfer matrix is unchanged and all samples are written: they are those of the layers. -/
theorem C30_finvscatter (k : ℕ) (hk : 1 ≤ k) (hsz : 2 * 2 ^ k + 1 ≤ 3 ^ 32) (d : NseDisc) (hd : d = .D2SPLIT2_MODAL ∨ d = .D2SPLIT2A)
    (kappa : ℤ) (hkappa : kappa = 1 ∨ kappa = -1) (eps : ℝ) (heps : 0 < eps) (tm q : Buf ℂ) (x : ℕ → ℂ)
    (hx : tm.Holds 0 (4 * (2 ^ k + 1)) x) (hq : q.len = 2 ^ k) (R : ℕ → ℂ) (V : Fin 2 → ℂ[X]) (hV : (V 0).coeff 0 ≠ 0)
    (hR : ∀ n, n < 2 ^ k → 1 + (kappa : ℝ) * ‖R n‖ ^ 2 ≠ 0)
    (hcol : ∀ m, m < 2 ^ k → ∀ i, (Spec.pmat 2 (2 ^ k) (2 ^ k + 1) 0 x i 0).coeff m =
      ((layers (fun n => -(kappa : ℂ) * (starRingEnd ℂ) (R n)) R (2 ^ k)).mulVec V i).coeff m) :
    ∃ q', nse_finvscatter (2 ^ k) (some tm) (some q) eps kappa d = some (SUCCESS, some tm, some q') ∧ q'.len = 2 ^ k ∧
      ∀ n, n < 2 ^ k → q'.rd n = some (Spec.recovered d eps (-(kappa : ℂ) * (starRingEnd ℂ) (R n))) := by
  have hn : ∀ n, n < 2 ^ k → -(kappa : ℂ) * (starRingEnd ℂ) (R n) = (nseFinvKind kappa).qFromR (R n) ∧
      1 - (-(kappa : ℂ) * (starRingEnd ℂ) (R n)) * R n ≠ 0 ∧ ∀ size pl, finvSample ⟨size, pl, nseFinvKind kappa, nseFinvDisc d, eps⟩
        (-(kappa : ℂ) * (starRingEnd ℂ) (R n)) (R n) = some (Spec.recovered d eps (-(kappa : ℂ) * (starRingEnd ℂ) (R n))) := by
    intro n hn
    refine ⟨rfl, ?_, fun size pl => ?_⟩
    · have := hR n hn
      have e : 1 - (-(kappa : ℂ) * (starRingEnd ℂ) (R n)) * R n = ((1 + (kappa : ℝ) * ‖R n‖ ^ 2 : ℝ) : ℂ) := by
        have := Complex.conj_mul' (R n)
        push_cast
        linear_combination (kappa : ℂ) * this
      rw [e]
      exact_mod_cast this
    · rcases hd with rfl | rfl
      · simp [finvSample, nseFinvDisc, nseFinvKind, Spec.recovered]
      · simp [finvSample, nseFinvDisc, nseFinvKind, Spec.recovered]
  obtain ⟨q1, h1, h2, h3⟩ := finvMain_ok hk hsz (nseFinvKind kappa) (nseFinvDisc d) eps tm tm q rfl hq
    (Spec.pmat 2 (2 ^ k) (2 ^ k + 1) 0 x) (pmat_rev hx) (fun n => -(kappa : ℂ) * (starRingEnd ℂ) (R n)) R
    (fun n => Spec.recovered d eps (-(kappa : ℂ) * (starRingEnd ℂ) (R n))) V hcol hV hn
  refine ⟨q1, ?_, h1, h2⟩
  have hdeg : nse_degree d = 1 := by rcases hd with rfl | rfl <;> rfl
  unfold nse_finvscatter finvscatter
  dsimp only
  rw [hdeg, Nat.div_one, if_neg (by
    push Not
    exact ⟨(Nat.two_pow_pos k).ne', heps, by simp [or_comm, hkappa], by norm_num⟩), if_neg (by
    push Not
    refine ⟨?_, two_pow_and k⟩
    calc 2 = 2 ^ 1 := rfl
      _ ≤ 2 ^ k := Nat.pow_le_pow_right (by norm_num) hk), h3]
  rfl

/-- C30, focusing case: the routine succeeds on every transfer matrix whose first entry does not vanish at `z = 0`. The samples are
those of the layered medium that belongs to the first column (which determines its layers, `C30_layers_unique`). -/
theorem C30_finvscatter_focusing (k : ℕ) (hk : 1 ≤ k) (hsz : 2 * 2 ^ k + 1 ≤ 3 ^ 32) (d : NseDisc)
    (hd : d = .D2SPLIT2_MODAL ∨ d = .D2SPLIT2A) (eps : ℝ) (heps : 0 < eps) (tm q : Buf ℂ) (x : ℕ → ℂ)
    (hx : tm.Holds 0 (4 * (2 ^ k + 1)) x) (hq : q.len = 2 ^ k) (h0 : x (2 ^ k) ≠ 0) :
    ∃ q' R V, nse_finvscatter (2 ^ k) (some tm) (some q) eps 1 d = some (SUCCESS, some tm, some q') ∧ q'.len = 2 ^ k ∧
      (∀ n, n < 2 ^ k → q'.rd n = some (Spec.recovered d eps (-(starRingEnd ℂ) (R n)))) ∧
      (V 0).coeff 0 ≠ 0 ∧ (layers (fun n => -(starRingEnd ℂ) (R n)) R (2 ^ k)).mulVec V =
        fun i => Spec.pmat 2 (2 ^ k) (2 ^ k + 1) 0 x i 0 := by
  have hone : ∀ R : ℂ, (1 : ℝ) + ‖R‖ ^ 2 ≠ 0 := fun R => by positivity
  obtain ⟨R, V, hV, hRV⟩ := peel_exists (fun R => -(starRingEnd ℂ) R) (fun R => by
    have e : 1 - (-(starRingEnd ℂ) R) * R = ((1 + ‖R‖ ^ 2 : ℝ) : ℂ) := by
      have := Complex.conj_mul' R
      push_cast
      linear_combination this
    rw [e]; exact_mod_cast hone R) (2 ^ k) (fun i => Spec.pmat 2 (2 ^ k) (2 ^ k + 1) 0 x i 0) (by
    show (Spec.poly (2 ^ k) _).coeff 0 ≠ 0
    rw [Spec.poly_coeff, if_pos (Nat.zero_le _)]
    simpa using h0)
  obtain ⟨q', e1, e2, e3⟩ := C30_finvscatter k hk hsz d hd 1 (Or.inl rfl) eps heps tm q x hx hq R V hV
    (fun n _ => by rw [Int.cast_one, one_mul]; exact hone (R n)) (fun m _ i => by
      simp only [Int.cast_one, neg_mul, one_mul]
      rw [hRV])
  simp only [Int.cast_one, neg_mul, one_mul] at e3
  exact ⟨q', R, V, e1, e2, e3, hV, hRV⟩

/-- The layers of a medium are determined by the first column (up to the coefficient `d-1`). -/
theorem C30_layers_unique (kappa : ℤ) (d : ℕ) (R R' : ℕ → ℂ) (V V' : Fin 2 → ℂ[X]) (hV : (V 0).coeff 0 ≠ 0) (hV' : (V' 0).coeff 0 ≠ 0)
    (hR : ∀ n, n < d → 1 + (kappa : ℝ) * ‖R n‖ ^ 2 ≠ 0)
    (h : ∀ m, m < d → ∀ i, ((layers (fun n => -(kappa : ℂ) * (starRingEnd ℂ) (R n)) R d).mulVec V i).coeff m =
      ((layers (fun n => -(kappa : ℂ) * (starRingEnd ℂ) (R' n)) R' d).mulVec V' i).coeff m) : ∀ n, n < d → R n = R' n :=
  layers_unique (fun R => -(kappa : ℂ) * (starRingEnd ℂ) R) d R R' V V' hV hV' (fun n hn => by
    have := hR n hn
    have e : 1 - (-(kappa : ℂ) * (starRingEnd ℂ) (R n)) * R n = ((1 + (kappa : ℝ) * ‖R n‖ ^ 2 : ℝ) : ℂ) := by
      have := Complex.conj_mul' (R n)
      push_cast
      linear_combination (kappa : ℂ) * this
    show 1 - (-(kappa : ℂ) * (starRingEnd ℂ) (R n)) * R n ≠ 0
    rw [e]; exact_mod_cast this) h

/-- C30: a discretization of degree one that is not supported (2SPLIT1A, 2SPLIT1B, 2SPLIT2B, 2SPLIT2S) is reported, as the error code of a subroutine, and
nothing is changed; a singular layer at the end of the signal is reported as a division by zero. (The entry of the transfer matrix
by which the routine divides is not zero.) -/
theorem C30_finvscatter_errors (k : ℕ) (hk : 1 ≤ k) (hsz : 2 * 2 ^ k + 1 ≤ 3 ^ 32) (d : NseDisc) (hd : nse_degree d = 1)
    (kappa : ℤ) (hkappa : kappa = 1 ∨ kappa = -1) (eps : ℝ) (heps : 0 < eps) (tm q : Buf ℂ) (x : ℕ → ℂ)
    (hx : tm.Holds 0 (4 * (2 ^ k + 1)) x) (h0 : x (2 ^ k) ≠ 0) :
    (‖x (2 ^ k)‖ ^ 2 + (kappa : ℝ) * ‖x (2 * (2 ^ k + 1) + 2 ^ k)‖ ^ 2 = 0 →
      nse_finvscatter (2 ^ k) (some tm) (some q) eps kappa d = some (E_SUBROUTINE EC_DIV_BY_ZERO, some tm, some q)) ∧
    (‖x (2 ^ k)‖ ^ 2 + (kappa : ℝ) * ‖x (2 * (2 ^ k + 1) + 2 ^ k)‖ ^ 2 ≠ 0 → d ≠ .D2SPLIT2_MODAL → d ≠ .D2SPLIT2A →
      nse_finvscatter (2 ^ k) (some tm) (some q) eps kappa d = some (E_SUBROUTINE EC_INVALID_ARGUMENT, some tm, some q)) := by
  have ha := hx (2 ^ k) (by omega)
  have hb := hx (2 * (2 ^ k + 1) + 2 ^ k) (by omega)
  rw [Nat.zero_add] at ha hb
  obtain ⟨m1, m2⟩ := finvMain_first (nseFinvKind kappa) (nseFinvDisc d) k hk tm tm q eps hsz rfl ha hb h0
  have e : (1 - (nseFinvKind kappa).qFromR (x (2 * (2 ^ k + 1) + 2 ^ k) / x (2 ^ k)) * (x (2 * (2 ^ k + 1) + 2 ^ k) / x (2 ^ k))) *
      ((‖x (2 ^ k)‖ : ℝ) : ℂ) ^ 2 = ((‖x (2 ^ k)‖ ^ 2 + (kappa : ℝ) * ‖x (2 * (2 ^ k + 1) + 2 ^ k)‖ ^ 2 : ℝ) : ℂ) := by
    have h1 := Complex.conj_mul' (x (2 ^ k))
    have h2 := Complex.conj_mul' (x (2 * (2 ^ k + 1) + 2 ^ k))
    have h3 : (starRingEnd ℂ) (x (2 ^ k)) ≠ 0 := (map_ne_zero _).2 h0
    simp only [nseFinvKind, map_div₀]
    push_cast
    rw [← h1, ← h2]
    field_simp
    ring
  have hn : ((‖x (2 ^ k)‖ : ℝ) : ℂ) ^ 2 ≠ 0 := pow_ne_zero _ (by exact_mod_cast norm_ne_zero_iff.2 h0)
  have hcond : (1 - (nseFinvKind kappa).qFromR (x (2 * (2 ^ k + 1) + 2 ^ k) / x (2 ^ k)) * (x (2 * (2 ^ k + 1) + 2 ^ k) / x (2 ^ k))) = 0 ↔
      ‖x (2 ^ k)‖ ^ 2 + (kappa : ℝ) * ‖x (2 * (2 ^ k + 1) + 2 ^ k)‖ ^ 2 = 0 := by
    constructor
    · intro h
      rw [h, zero_mul] at e
      exact_mod_cast e.symm
    · intro h
      rw [h, Complex.ofReal_zero] at e
      exact (mul_eq_zero.1 e).resolve_right hn
  have hrun : ∀ R, finvMain (nseFinvKind kappa) (nseFinvDisc d) (2 ^ k) (2 ^ k) tm q eps = some R →
      nse_finvscatter (2 ^ k) (some tm) (some q) eps kappa d = some (R.ret, some R.tm, some R.q) := by
    intro R hR
    unfold nse_finvscatter finvscatter
    dsimp only
    rw [hd, Nat.div_one, if_neg (by
      push Not
      exact ⟨(Nat.two_pow_pos k).ne', heps, by simp [or_comm, hkappa], by norm_num⟩), if_neg (by
      push Not
      refine ⟨?_, two_pow_and k⟩
      calc 2 = 2 ^ 1 := rfl
        _ ≤ 2 ^ k := Nat.pow_le_pow_right (by norm_num) hk), hR]
    rfl
  refine ⟨fun h => hrun _ (m1 (hcond.2 h)), fun h h1 h2 => hrun _ (m2 (fun h' => h (hcond.1 h')) ?_)⟩
  revert h1 h2
  cases d <;> simp [nseFinvDisc]

/-- C30: with a discretization of a degree larger than one, and `2^k ≥ 2` samples, the stack is exceeded. (So a user must not call
the routine with such a discretization; `deg` is the degree of the transfer matrix.) -/
theorem C30_stack_overrun (k : ℕ) (hk : 1 ≤ k) (d : NseDisc) (hd : 2 ≤ nse_degree d) (deg : ℕ) (hdeg : deg / nse_degree d = 2 ^ k)
    (hsz : 2 * deg + 1 ≤ 3 ^ 32) (kappa : ℤ) (hkappa : kappa = 1 ∨ kappa = -1) (eps : ℝ) (heps : 0 < eps) (tm q : Buf ℂ) :
    nse_finvscatter deg (some tm) (some q) eps kappa d = none := by
  unfold nse_finvscatter finvscatter
  dsimp only
  rw [if_neg (by
      push Not
      refine ⟨?_, heps, by simp [or_comm, hkappa], by omega⟩
      rintro rfl
      rw [Nat.zero_div] at hdeg
      exact (Nat.two_pow_pos k).ne hdeg), hdeg, if_neg (by
      push Not
      refine ⟨?_, two_pow_and k⟩
      calc 2 = 2 ^ 1 := rfl
        _ ≤ 2 ^ k := Nat.pow_le_pow_right (by norm_num) hk),
    finvMain_overrun _ _ k deg tm q eps (nse_degree d) hd hdeg hsz]
  rfl

/-- The hypotheses of `C30_finvscatter_focusing` and of `C30_stack_overrun` can be met. -/
example : (∃ q', nse_finvscatter 4 (some (Buf.ofFn 20 fun i => (i : ℂ))) (some (Buf.malloc 4)) 1 1 .D2SPLIT2A =
      some (SUCCESS, some (Buf.ofFn 20 fun i => (i : ℂ)), some q')) ∧
    nse_finvscatter 8 (some (Buf.malloc 36)) (some (Buf.malloc 4)) 1 1 .D2SPLIT4B = none := by
  obtain ⟨q', R, V, h, -⟩ := C30_finvscatter_focusing 2 (by norm_num) (by norm_num) .D2SPLIT2A (Or.inr rfl) 1 (by norm_num)
    (Buf.ofFn 20 fun i => (i : ℂ)) (Buf.malloc 4) (fun i => (i : ℂ)) (Buf.holds_ofFn _ _) rfl (by norm_num)
  refine ⟨⟨q', h⟩, C30_stack_overrun 2 (by norm_num) .D2SPLIT4B (by decide) 8 (by decide) (by norm_num) 1 (Or.inl rfl) 1 (by norm_num) _ _⟩

/-! ## C29: inversion of the forward scattering -/

theorem col_of_prod {W : ℤ} {c : ℂ} {Q R : ℕ → ℂ} {D : ℕ} {A : Matrix (Fin 2) (Fin 2) ℂ[X]}
    (h : C ((2 : ℂ) ^ W) • A = C c • layers Q R D) (m : ℕ) (i : Fin 2) :
    (A i 0).coeff m = ((layers Q R D).mulVec ![C (((2 : ℂ) ^ W)⁻¹ * c), 0] i).coeff m := by
  have h2 : ((2 : ℂ) ^ W) ≠ 0 := zpow_ne_zero _ (by norm_num)
  have hi := congrArg (fun p : ℂ[X] => p.coeff m) (congrFun (congrFun h i) 0)
  simp only [Matrix.smul_apply, smul_eq_mul, coeff_C_mul] at hi
  simp only [Matrix.mulVec, dotProduct, Fin.sum_univ_two, Matrix.cons_val_zero, Matrix.cons_val_one, mul_zero, add_zero]
  rw [mul_comm _ (C _), coeff_C_mul]
  rw [eq_comm, mul_assoc, ← hi, ← mul_assoc, inv_mul_cancel₀ h2, one_mul]

/-- The two routines in sequence, for layers `[1, Q_n z; R_n, z]` up to factors. -/
theorem finv_after_fscatter (k : ℕ) (hk : 1 ≤ k) (hD : 2 ^ k ≤ 2147483647) (d : NseDisc) (a : AknsDisc) (hda : nse_to_akns d = .ok a)
    (hd : d = .D2SPLIT2_MODAL ∨ d = .D2SPLIT2A) (hdeg : akns_degree a = 1) (tab : Tab) (htab : aknsTab a = some tab)
    (kappa : ℤ) (hkappa : kappa = 1 ∨ kappa = -1) (eps : ℝ) (heps : 0 < eps) (q r : Buf ℂ) (qf rf : ℕ → ℂ)
    (hq : q.Holds 0 (2 ^ k) qf) (hr : r.Holds 0 (2 ^ k) rf) (env : ℕ → ℕ → ℕ → ℂ)
    (henv : ∀ i, i < 2 ^ k → aknsEnv a tab (akns_degree a) (aknsEps a eps) (qf i) (rf i) = some (env i))
    (c R : ℕ → ℂ) (hc : ∀ n, n < 2 ^ k → c n ≠ 0) (hR : ∀ n, n < 2 ^ k → 1 + (kappa : ℝ) * ‖R n‖ ^ 2 ≠ 0)
    (hS : ∀ n, n < 2 ^ k → sampleP tab 1 (env n) = C (c n) • lay (-(kappa : ℂ) * (starRingEnd ℂ) (R n)) (R n))
    (result : Buf ℂ) (L : ℕ) (hL : nse_fscatter_numel (2 ^ k) d = some L) (hlen : L ≤ result.len) (deg0 : ℕ) (Wp : Option ℤ)
    (q0 : Buf ℂ) (hq0 : q0.len = 2 ^ k) :
    ∃ S, nse_fscatter (2 ^ k) (some q) (some r) eps (some result) (some deg0) Wp d = some S ∧ S.ret = some SUCCESS ∧ S.deg = 2 ^ k ∧
      ∃ q', nse_finvscatter S.deg (some S.result) (some q0) eps kappa d = some (SUCCESS, some S.result, some q') ∧ q'.len = 2 ^ k ∧
        ∀ n, n < 2 ^ k → q'.rd n = some (Spec.recovered d eps (-(kappa : ℂ) * (starRingEnd ℂ) (R n))) := by
  have h2k : 2 ≤ 2 ^ k := by
    calc 2 = 2 ^ 1 := rfl
      _ ≤ 2 ^ k := Nat.pow_le_pow_right (by norm_num) hk
  have hL' : akns_fscatter_numel (2 ^ k) a = some L := by
    obtain ⟨L', -, e1, e2⟩ := numel_fast (D := 2 ^ k) (by omega) hD hda (by omega)
    rw [hL] at e1; cases e1; exact e2
  obtain ⟨S, s1, s2, s3, -, -, y, s6, s7, -⟩ := akns_fscatter_ok a tab htab (2 ^ k) h2k hD q r qf rf hq hr eps heps env henv result L hL' hlen
    deg0 Wp
  rw [hdeg, Nat.mul_one] at s3 s6 s7
  rw [prod_layers (fun n => -(kappa : ℂ) * (starRingEnd ℂ) (R n)) R c (fun n => sampleP tab 1 (env n)) (2 ^ k) hS] at s7
  obtain ⟨q', e1, e2, e3⟩ := C30_finvscatter k hk (by norm_num at hD ⊢; omega) d hd kappa hkappa eps heps S.result q0 y s6 hq0 R
    ![C (((2 : ℂ) ^ S.W)⁻¹ * ∏ n ∈ Finset.range (2 ^ k), c n), 0] (by
      show (C _ : ℂ[X]).coeff 0 ≠ 0
      rw [coeff_C_zero]
      exact mul_ne_zero (inv_ne_zero (zpow_ne_zero _ (by norm_num))) (Finset.prod_ne_zero_iff.2 fun n hn => hc n (Finset.mem_range.1 hn)))
    hR (fun m _ i => col_of_prod s7 m i)
  refine ⟨⟨S.ret.map fun rc => if rc = SUCCESS then SUCCESS else E_SUBROUTINE rc, S.deg, S.W, S.result⟩, nse_fscatter_eq hda (by omega) heps s1, ?_, s3, q',
    ?_, e2, e3⟩
  · simp only [s2]; rfl
  · simp only [s3]; exact e1

/-- C29, 2SPLIT2_MODAL: `nse_finvscatter` applied to the result of `nse_fscatter` (with or without normalisation) returns the samples,
provided that no sample satisfies `eps |q_n| = 1` in the defocusing case (then `nse_fscatter` fails, `C22_C23_fscatter_modal`). -/
theorem C29_modal (k : ℕ) (hk : 1 ≤ k) (hD : 2 ^ k ≤ 2147483647) (kappa : ℤ) (hkappa : kappa = 1 ∨ kappa = -1) (eps : ℝ) (heps : 0 < eps)
    (q r : Buf ℂ) (qf : ℕ → ℂ) (hq : q.Holds 0 (2 ^ k) qf) (hr : r.Holds 0 (2 ^ k) fun n => -(kappa : ℂ) * (starRingEnd ℂ) (qf n))
    (hs : ∀ n, n < 2 ^ k → kappa = -1 → eps * ‖qf n‖ ≠ 1) (result : Buf ℂ) (L : ℕ)
    (hL : nse_fscatter_numel (2 ^ k) .D2SPLIT2_MODAL = some L) (hlen : L ≤ result.len) (deg0 : ℕ) (Wp : Option ℤ)
    (q0 : Buf ℂ) (hq0 : q0.len = 2 ^ k) :
    ∃ S, nse_fscatter (2 ^ k) (some q) (some r) eps (some result) (some deg0) Wp .D2SPLIT2_MODAL = some S ∧
      S.ret = some SUCCESS ∧ S.deg = 2 ^ k ∧
      ∃ q', nse_finvscatter S.deg (some S.result) (some q0) eps kappa .D2SPLIT2_MODAL = some (SUCCESS, some S.result, some q') ∧
        q'.len = 2 ^ k ∧ q'.Holds 0 (2 ^ k) qf := by
  have hkk : (kappa : ℂ) * kappa = 1 := by rcases hkappa with rfl | rfl <;> norm_num
  have heps0 : (eps : ℂ) ≠ 0 := by exact_mod_cast heps.ne'
  have hQ : ∀ n, -(kappa : ℂ) * (starRingEnd ℂ) (eps * (-(kappa : ℂ) * (starRingEnd ℂ) (qf n))) = eps * qf n := by
    intro n
    simp only [map_mul, map_neg, Complex.conj_ofReal, Complex.conj_conj, map_intCast]
    linear_combination (eps * qf n) * hkk
  have hdet : ∀ n, n < 2 ^ k → 1 + (kappa : ℝ) * ‖(eps : ℂ) * (-(kappa : ℂ) * (starRingEnd ℂ) (qf n))‖ ^ 2 ≠ 0 := by
    intro n hn
    have hno : ‖(eps : ℂ) * (-(kappa : ℂ) * (starRingEnd ℂ) (qf n))‖ = eps * ‖qf n‖ := by
      have : ‖(kappa : ℂ)‖ = 1 := by rcases hkappa with rfl | rfl <;> norm_num
      rw [norm_mul, norm_mul, norm_neg, this, one_mul, Complex.norm_conj, Complex.norm_real, Real.norm_eq_abs, abs_of_pos heps]
    rw [hno]
    have h0 : 0 ≤ eps * ‖qf n‖ := by positivity
    rcases hkappa with h | h
    · rw [h]; push_cast; positivity
    · have hne := hs n hn h
      rw [h]; push_cast
      intro h'
      have : (eps * ‖qf n‖ - 1) * (eps * ‖qf n‖ + 1) = 0 := by linarith
      rcases mul_eq_zero.1 this with h1 | h1
      · exact hne (by linarith)
      · linarith
  have hprod : ∀ n, n < 2 ^ k → 1 - (eps * qf n) * (eps * (-(kappa : ℂ) * (starRingEnd ℂ) (qf n))) ≠ 0 := by
    intro n hn h
    have e : 1 - (eps * qf n) * (eps * (-(kappa : ℂ) * (starRingEnd ℂ) (qf n))) =
        ((1 + (kappa : ℝ) * ‖(eps : ℂ) * (-(kappa : ℂ) * (starRingEnd ℂ) (qf n))‖ ^ 2 : ℝ) : ℂ) := by
      have := Complex.conj_mul' ((eps : ℂ) * (-(kappa : ℂ) * (starRingEnd ℂ) (qf n)))
      push_cast
      rw [← this, ← hQ n]
      ring
    rw [e] at h
    exact hdet n hn (by exact_mod_cast h)
  obtain ⟨S, s1, s2, s3, q', s4, s5, s6⟩ := finv_after_fscatter k hk hD .D2SPLIT2_MODAL .D2SPLIT2_MODAL rfl (Or.inl rfl) rfl tab2_MODAL rfl kappa
    hkappa eps heps q r qf _ hq hr
    (fun n _ c => if c = 0 then 1 / csqrt (1 - (eps * qf n) * (eps * (-(kappa : ℂ) * (starRingEnd ℂ) (qf n)))) else
      if c = 1 then eps * qf n else eps * (-(kappa : ℂ) * (starRingEnd ℂ) (qf n)))
    (by
      intro n hn
      rw [aknsEnv, if_pos rfl]
      simp only [csqrt_eq_zero]
      exact if_neg (hprod n hn))
    (fun n => 1 / csqrt (1 - (eps * qf n) * (eps * (-(kappa : ℂ) * (starRingEnd ℂ) (qf n)))))
    (fun n => eps * (-(kappa : ℂ) * (starRingEnd ℂ) (qf n)))
    (fun n hn => one_div_ne_zero (fun h => hprod n hn (csqrt_eq_zero.1 h))) hdet
    (fun n hn => by rw [sampleP_modal, hQ]) result L hL hlen deg0 Wp q0 hq0
  refine ⟨S, s1, s2, s3, q', s4, s5, fun n hn => ?_⟩
  rw [Nat.zero_add, s6 n hn, hQ, Spec.recovered, if_pos rfl, mul_comm, mul_div_assoc, div_self heps0, mul_one]

theorem env_2A (eps : ℝ) : ((tab2A.scales.getD 0 0 : ℚ) : ℝ) * aknsEps .D2SPLIT2A eps / ((akns_degree .D2SPLIT2A : ℕ) : ℝ) = eps := by
  simp [tab2A, aknsEps, akns_degree]

/-- C29, 2SPLIT2A, focusing, `eps |q_n| < pi/2`: `nse_finvscatter` applied to the result of `nse_fscatter` returns the samples with a
relative error of at most `1e-32`, and exactly unless `0 < eps |q_n| < 1e-8` (where the forward routine replaces the cardinal sine). -/
theorem C29_split2A_focusing (k : ℕ) (hk : 1 ≤ k) (hD : 2 ^ k ≤ 2147483647) (eps : ℝ) (heps : 0 < eps)
    (q r : Buf ℂ) (qf : ℕ → ℂ) (hq : q.Holds 0 (2 ^ k) qf) (hr : r.Holds 0 (2 ^ k) fun n => -((1 : ℤ) : ℂ) * (starRingEnd ℂ) (qf n))
    (hs : ∀ n, n < 2 ^ k → eps * ‖qf n‖ < Real.pi / 2) (result : Buf ℂ) (L : ℕ)
    (hL : nse_fscatter_numel (2 ^ k) .D2SPLIT2A = some L) (hlen : L ≤ result.len) (deg0 : ℕ) (Wp : Option ℤ)
    (q0 : Buf ℂ) (hq0 : q0.len = 2 ^ k) :
    ∃ S, nse_fscatter (2 ^ k) (some q) (some r) eps (some result) (some deg0) Wp .D2SPLIT2A = some S ∧
      S.ret = some SUCCESS ∧ S.deg = 2 ^ k ∧
      ∃ q' x, nse_finvscatter S.deg (some S.result) (some q0) eps 1 .D2SPLIT2A = some (SUCCESS, some S.result, some q') ∧
        q'.len = 2 ^ k ∧ q'.Holds 0 (2 ^ k) x ∧
        ∀ n, n < 2 ^ k → ‖x n - qf n‖ ≤ 1e-32 * ‖qf n‖ ∧ (1e-8 ≤ eps * ‖qf n‖ ∨ qf n = 0 → x n = qf n) := by
  choose s e0 e1 e2 es1 es2 using fun n => zf_foc eps (qf n)
  have hcos : ∀ n, n < 2 ^ k → 0 < Real.cos (eps * ‖qf n‖) := fun n hn =>
    Real.cos_pos_of_mem_Ioo ⟨by have : 0 ≤ eps * ‖qf n‖ := by positivity
                                linarith [Real.pi_pos], hs n hn⟩
  obtain ⟨T, hT⟩ : ∃ T : ℕ → ℝ, T = fun n => eps * s n / Real.cos (eps * ‖qf n‖) := ⟨_, rfl⟩
  have hTn : ∀ n, n < 2 ^ k → Real.cos (eps * ‖qf n‖) * T n = eps * s n := fun n hn => by
    rw [hT]; exact mul_div_cancel₀ _ (hcos n hn).ne'
  have hQ : ∀ n, -((1 : ℤ) : ℂ) * (starRingEnd ℂ) (-((1 : ℤ) : ℂ) * (starRingEnd ℂ) (qf n) * (T n : ℂ)) = qf n * T n := by
    intro n
    simp only [Int.cast_one, map_mul, map_neg, map_one, Complex.conj_ofReal, Complex.conj_conj]
    ring
  obtain ⟨S, s1, s2, s3, q', s4, s5, s6⟩ := finv_after_fscatter k hk hD .D2SPLIT2A .D2SPLIT2A rfl (Or.inr rfl) rfl tab2A rfl 1
    (Or.inl rfl) eps heps q r qf _ hq hr (fun n s c =>
      zeroFreq (((tab2A.scales.getD s 0 : ℚ) : ℝ) * aknsEps .D2SPLIT2A eps / ((akns_degree .D2SPLIT2A : ℕ) : ℝ)) (qf n)
        (-((1 : ℤ) : ℂ) * (starRingEnd ℂ) (qf n)) c)
    (by
      intro n hn
      rw [aknsEnv, if_neg (by decide)])
    (fun n => (Real.cos (eps * ‖qf n‖) : ℝ)) (fun n => -((1 : ℤ) : ℂ) * (starRingEnd ℂ) (qf n) * (T n : ℂ))
    (fun n hn => by exact_mod_cast (hcos n hn).ne') (fun n hn => by rw [Int.cast_one, one_mul]; positivity)
    (fun n hn => by
      rw [hQ, sampleP_2A _ (qf n * T n) (-((1 : ℤ) : ℂ) * (starRingEnd ℂ) (qf n) * (T n : ℂ))]
      · simp only [env_2A, e0]
      · simp only [env_2A, e0, e1, ← hTn n hn]; push_cast; ring
      · simp only [env_2A, e0, e2, ← hTn n hn]; push_cast; ring)
    result L hL hlen deg0 Wp q0 hq0
  refine ⟨S, s1, s2, s3, q', fun n => Spec.recovered .D2SPLIT2A eps (qf n * T n), s4, s5, fun n hn => ?_, fun n hn => ?_⟩
  · rw [Nat.zero_add, s6 n hn, hQ]
  obtain ⟨θ, hθ⟩ : ∃ θ, θ = eps * ‖qf n‖ := ⟨_, rfl⟩
  have h1 := es1 n
  have h2 := es2 n
  have h3 := hTn n hn
  have h4 := hcos n hn
  have h5 := hs n hn
  rw [← hθ] at h1 h2 h3 h4 h5 ⊢
  rcases eq_or_ne (qf n) 0 with hq0 | hq0
  · simp [Spec.recovered, hq0]
  have hqn : 0 < ‖qf n‖ := norm_pos_iff.2 hq0
  have hθ0 : 0 < θ := by rw [hθ]; positivity
  have hsin : 2 / Real.pi * θ ≤ Real.sin θ := Real.mul_le_sin hθ0.le h5.le
  have hpi : Real.pi ≤ 4 := Real.pi_le_four
  have hs0 : 0 < s n := by
    rw [abs_of_pos hθ0] at h1
    have h2pi : (1 : ℝ) / 2 ≤ 2 / Real.pi := by rw [div_le_div_iff₀ (by norm_num) Real.pi_pos]; linarith
    have := (abs_le.1 h1).1
    have : 0 < s n * θ := by nlinarith
    exact (pos_iff_pos_of_mul_pos this).2 hθ0
  have hT0 : 0 ≤ T n := by
    have : 0 < Real.cos θ * T n := by rw [h3]; positivity
    exact ((pos_iff_pos_of_mul_pos this).1 h4).le
  have hsample := sample_2A (qf n) (T n) hT0 eps
  rw [if_neg hq0, ← hθ] at hsample
  have hrec : Spec.recovered .D2SPLIT2A eps (qf n * T n) = qf n * ((Real.arctan (‖qf n‖ * T n) / θ : ℝ) : ℂ) := by
    rw [Spec.recovered, if_neg (by decide)]
    exact hsample
  have hu : ‖qf n‖ * T n - Real.tan θ = (s n * θ - Real.sin θ) / Real.cos θ := by
    rw [Real.tan_eq_sin_div_cos, eq_div_iff h4.ne', sub_mul, div_mul_cancel₀ _ h4.ne', mul_assoc, mul_comm (T n), h3, hθ]
    ring
  have hat : Real.arctan (Real.tan θ) = θ := Real.arctan_tan (by linarith) h5
  have hexact : 1e-8 ≤ θ → Real.arctan (‖qf n‖ * T n) = θ := by
    intro h
    rw [h2 (Or.inl (by rwa [abs_of_pos hθ0])), sub_self, zero_div, sub_eq_zero] at hu
    rw [hu, hat]
  have hx : ∀ a : ℝ, a = θ → qf n * ((a / θ : ℝ) : ℂ) = qf n := by
    rintro a rfl
    rw [div_self hθ0.ne']; simp
  simp only [hrec]
  refine ⟨?_, fun h => hx _ (hexact (h.resolve_right hq0))⟩
  rcases le_or_gt 1e-8 θ with h | h
  · rw [hx _ (hexact h), sub_self, norm_zero]; positivity
  · have hc2 : 1 / 2 ≤ Real.cos θ := by
      have := Real.one_sub_sq_div_two_le_cos (x := θ)
      nlinarith
    have hlip := arctan_lip (‖qf n‖ * T n) (Real.tan θ)
    rw [hat, hu, abs_div, abs_of_pos h4] at hlip
    rw [abs_of_pos hθ0] at h1
    have hle : |Real.arctan (‖qf n‖ * T n) - θ| ≤ 1e-32 * θ := by
      refine hlip.trans ?_
      rw [div_le_iff₀ h4]
      refine h1.trans ?_
      norm_num
      nlinarith
    have : qf n * ((Real.arctan (‖qf n‖ * T n) / θ : ℝ) : ℂ) - qf n = qf n * (((Real.arctan (‖qf n‖ * T n) - θ) / θ : ℝ) : ℂ) := by
      have : (θ : ℂ) ≠ 0 := by exact_mod_cast hθ0.ne'
      push_cast; field_simp
    rw [this, norm_mul, Complex.norm_real, Real.norm_eq_abs, abs_div, abs_of_pos hθ0, mul_comm]
    refine mul_le_mul_of_nonneg_right ?_ hqn.le
    rw [div_le_iff₀ hθ0]
    exact hle

/-- C29, 2SPLIT2A, defocusing: the routines succeed, but every sample that is not zero is returned with a wrong modulus (the routine
applies the inverse of the tangent instead of that of the hyperbolic tangent). -/
theorem C29_split2A_defocusing (k : ℕ) (hk : 1 ≤ k) (hD : 2 ^ k ≤ 2147483647) (eps : ℝ) (heps : 0 < eps)
    (q r : Buf ℂ) (qf : ℕ → ℂ) (hq : q.Holds 0 (2 ^ k) qf) (hr : r.Holds 0 (2 ^ k) fun n => -((-1 : ℤ) : ℂ) * (starRingEnd ℂ) (qf n))
    (result : Buf ℂ) (L : ℕ) (hL : nse_fscatter_numel (2 ^ k) .D2SPLIT2A = some L) (hlen : L ≤ result.len) (deg0 : ℕ) (Wp : Option ℤ)
    (q0 : Buf ℂ) (hq0 : q0.len = 2 ^ k) :
    ∃ S, nse_fscatter (2 ^ k) (some q) (some r) eps (some result) (some deg0) Wp .D2SPLIT2A = some S ∧
      S.ret = some SUCCESS ∧ S.deg = 2 ^ k ∧
      ∃ q' x, nse_finvscatter S.deg (some S.result) (some q0) eps (-1) .D2SPLIT2A = some (SUCCESS, some S.result, some q') ∧
        q'.len = 2 ^ k ∧ q'.Holds 0 (2 ^ k) x ∧
        ∀ n, n < 2 ^ k → (qf n = 0 → x n = 0) ∧ (qf n ≠ 0 → ‖x n‖ < ‖qf n‖) ∧
          (1e-8 ≤ eps * ‖qf n‖ → x n = qf n * ((Real.arctan (Real.tanh (eps * ‖qf n‖)) / (eps * ‖qf n‖) : ℝ) : ℂ)) := by
  choose s e0 e1 e2 es0 es1 es2 es3 using fun n => zf_def eps heps (qf n)
  have hcos : ∀ n, 0 < Real.cosh (eps * ‖qf n‖) := fun n => Real.cosh_pos _
  obtain ⟨T, hT⟩ : ∃ T : ℕ → ℝ, T = fun n => eps * s n / Real.cosh (eps * ‖qf n‖) := ⟨_, rfl⟩
  have hTn : ∀ n, Real.cosh (eps * ‖qf n‖) * T n = eps * s n := fun n => by
    rw [hT]; exact mul_div_cancel₀ _ (hcos n).ne'
  have hT0 : ∀ n, 0 ≤ T n := fun n => by rw [hT]; exact div_nonneg (mul_nonneg heps.le (es0 n)) (hcos n).le
  have hqT : ∀ n, ‖qf n‖ * T n * Real.cosh (eps * ‖qf n‖) = s n * (eps * ‖qf n‖) := fun n => by
    rw [mul_assoc, mul_comm (T n), hTn]; ring
  have hQ : ∀ n, -((-1 : ℤ) : ℂ) * (starRingEnd ℂ) (-((-1 : ℤ) : ℂ) * (starRingEnd ℂ) (qf n) * (T n : ℂ)) = qf n * T n := by
    intro n
    simp only [Int.cast_neg, Int.cast_one, map_mul, map_neg, map_one, Complex.conj_ofReal, Complex.conj_conj]
    ring
  have hlt1 : ∀ n, ‖qf n‖ * T n < 1 := fun n => by
    have := es1 n
    rw [← hqT] at this
    exact lt_of_mul_lt_mul_right (by rwa [one_mul]) (hcos n).le
  obtain ⟨S, s1, s2, s3, q', s4, s5, s6⟩ := finv_after_fscatter k hk hD .D2SPLIT2A .D2SPLIT2A rfl (Or.inr rfl) rfl tab2A rfl (-1)
    (Or.inr rfl) eps heps q r qf _ hq hr (fun n s c =>
      zeroFreq (((tab2A.scales.getD s 0 : ℚ) : ℝ) * aknsEps .D2SPLIT2A eps / ((akns_degree .D2SPLIT2A : ℕ) : ℝ)) (qf n)
        (-((-1 : ℤ) : ℂ) * (starRingEnd ℂ) (qf n)) c)
    (by
      intro n hn
      rw [aknsEnv, if_neg (by decide)])
    (fun n => (Real.cosh (eps * ‖qf n‖) : ℝ)) (fun n => -((-1 : ℤ) : ℂ) * (starRingEnd ℂ) (qf n) * (T n : ℂ))
    (fun n hn => by exact_mod_cast (hcos n).ne') (fun n hn => by
      have : ‖-((-1 : ℤ) : ℂ) * (starRingEnd ℂ) (qf n) * (T n : ℂ)‖ = ‖qf n‖ * T n := by
        rw [norm_mul, norm_mul, Complex.norm_conj, Complex.norm_real, Real.norm_eq_abs, abs_of_nonneg (hT0 n)]
        norm_num
      rw [this]
      have h1 := hlt1 n
      have h0 : 0 ≤ ‖qf n‖ * T n := mul_nonneg (norm_nonneg _) (hT0 n)
      push_cast
      nlinarith)
    (fun n hn => by
      rw [hQ, sampleP_2A _ (qf n * T n) (-((-1 : ℤ) : ℂ) * (starRingEnd ℂ) (qf n) * (T n : ℂ))]
      · simp only [env_2A, e0]
      · simp only [env_2A, e0, e1, ← hTn n]; push_cast; ring
      · simp only [env_2A, e0, e2, ← hTn n]; push_cast; ring)
    result L hL hlen deg0 Wp q0 hq0
  refine ⟨S, s1, s2, s3, q', fun n => Spec.recovered .D2SPLIT2A eps (qf n * T n), s4, s5, fun n hn => ?_, fun n hn => ⟨?_, ?_, ?_⟩⟩
  · rw [Nat.zero_add, s6 n hn, hQ]
  · intro h; simp [Spec.recovered, h]
  all_goals
    have hsample := sample_2A (qf n) (T n) (hT0 n) eps
    have hrec : Spec.recovered .D2SPLIT2A eps (qf n * T n) =
        if qf n = 0 then 0 else qf n * ((Real.arctan (‖qf n‖ * T n) / (eps * ‖qf n‖) : ℝ) : ℂ) := by
      rw [Spec.recovered, if_neg (by decide)]
      exact hsample
    simp only []
    rw [hrec]
  · intro hne
    have hqn : 0 < ‖qf n‖ := norm_pos_iff.2 hne
    rw [if_neg hne, norm_mul, Complex.norm_real, Real.norm_eq_abs]
    obtain ⟨u, hu⟩ : ∃ u, u = ‖qf n‖ * T n := ⟨_, rfl⟩
    have hle : u ≤ eps * ‖qf n‖ := by
      have := es2 n
      rw [← hqT, ← hu] at this
      exact le_of_mul_le_mul_right this (hcos n)
    have h0 : 0 ≤ u := by rw [hu]; exact mul_nonneg (norm_nonneg _) (hT0 n)
    have hat : Real.arctan u < eps * ‖qf n‖ := by
      rcases h0.eq_or_lt with h0 | h0
      · rw [← h0, Real.arctan_zero]; positivity
      · have := Real.lt_tan (Real.arctan_pos.2 h0) (Real.arctan_lt_pi_div_two u)
        rw [Real.tan_arctan] at this
        linarith
    have hp : 0 < eps * ‖qf n‖ := by positivity
    rw [← hu, abs_of_nonneg (div_nonneg (Real.arctan_nonneg.2 h0) hp.le)]
    calc ‖qf n‖ * (Real.arctan u / (eps * ‖qf n‖)) < ‖qf n‖ * 1 := mul_lt_mul_of_pos_left ((div_lt_one hp).2 hat) hqn
      _ = ‖qf n‖ := mul_one _
  · intro h8
    have hne : qf n ≠ 0 := by rintro h; rw [h, norm_zero, mul_zero] at h8; norm_num at h8
    rw [if_neg hne]
    have h3 := es3 n h8
    rw [← hqT] at h3
    rw [Real.tanh_eq_sinh_div_cosh, ← h3, mul_div_assoc, div_self (hcos n).ne', mul_one]

/-- The hypotheses of `C29_modal` and of the 2SPLIT2A theorems can be met. -/
example : ∃ S q', nse_fscatter 2 (some (Buf.ofFn 2 fun i => (i : ℂ))) (some (Buf.ofFn 2 fun i => -(i : ℂ))) 1 (some (Buf.malloc 16)) (some 0)
    none .D2SPLIT2A = some S ∧ nse_finvscatter 2 (some S.result) (some (Buf.malloc 2)) 1 1 .D2SPLIT2A = some (SUCCESS, some S.result, some q') ∧
      q'.Holds 0 2 fun i => (i : ℂ) := by
  obtain ⟨S, h1, -, h2, q', x, h3, -, h4, h5⟩ := C29_split2A_focusing 1 (by norm_num) (by norm_num) 1 (by norm_num)
    (Buf.ofFn 2 fun i => (i : ℂ)) (Buf.ofFn 2 fun i => -(i : ℂ)) (fun i => (i : ℂ)) (Buf.holds_ofFn _ _)
    (by have := Buf.holds_ofFn 2 (fun i => -(i : ℂ)); simpa using this)
    (by
      intro n hn
      have hpi : (1 : ℝ) < Real.pi / 2 := by
        by_contra h
        have h2 : Real.pi / 2 = 1 := le_antisymm (not_lt.1 h) Real.one_le_pi_div_two
        have h3 := Real.cos_pi_div_two
        rw [h2] at h3
        linarith [Real.cos_one_pos]
      have hn1 : (n : ℝ) ≤ 1 := by exact_mod_cast (by omega : n ≤ 1)
      rw [one_mul, Complex.norm_natCast]
      linarith [Real.one_le_pi_div_two, hpi])
    (Buf.malloc 16) 16 (by decide) (by simp) 0 none (Buf.malloc 2) rfl
  rw [h2] at h3
  refine ⟨S, q', h1, h3, fun n hn => ?_⟩
  rw [h4 n hn, (h5 n hn).2]
  rcases (by omega : n = 0 ∨ n = 1) with rfl | rfl
  · right; simp
  · left; norm_num

end FNFT

import Verif.Props.NsevInvRefl
import Verif.Props.Specfact
/-!
# `fnft_nsev_inverse`: transfer matrices that contain `A(z)` and `B(z)`
-/
namespace FNFT
open Complex

/-- The layers `0, ..., d-1` with `Q_n = -kappa conj(R_n)` have the ratio `b(z)/a(z) = B(z)/A(z)` up to terms of order `z^d`, where `(a, b)` is the first column of their
product. -/
def Spec.Scatters (kappa : ℤ) (d : ℕ) (R : ℕ → ℂ) (A B : Polynomial ℂ) : Prop :=
  let L := layers (fun n => -(kappa : ℂ) * (starRingEnd ℂ) (R n)) R d
  ∀ m, m < d → (L 1 0 * A).coeff m = (L 0 0 * B).coeff m

open Polynomial in
theorem scatters_of_col {kappa : ℤ} {d : ℕ} {R : ℕ → ℂ} {V : Fin 2 → ℂ[X]} {A B : ℂ[X]}
    (h : ∀ m, m < d → ∀ i, ((layers (fun n => -(kappa : ℂ) * (starRingEnd ℂ) (R n)) R d).mulVec V i).coeff m = ((![A, B] : Fin 2 → ℂ[X]) i).coeff m) :
    Spec.Scatters kappa d R A B := by
  intro m hm
  set L := layers (fun n => -(kappa : ℂ) * (starRingEnd ℂ) (R n)) R d with hL
  have hd := layers_det (fun n => -(kappa : ℂ) * (starRingEnd ℂ) (R n)) R d
  rw [Matrix.det_fin_two, ← hL] at hd
  have h0 : X ^ d ∣ L.mulVec V 0 - A := by
    rw [X_pow_dvd_iff]; intro m hm; rw [coeff_sub, h m hm 0]; simp
  have h1 : X ^ d ∣ L.mulVec V 1 - B := by
    rw [X_pow_dvd_iff]; intro m hm; rw [coeff_sub, h m hm 1]; simp
  rw [← sub_eq_zero, ← coeff_sub]
  refine (X_pow_dvd_iff.mp ?_) m hm
  obtain ⟨y0, e0⟩ := h0
  obtain ⟨y1, e1⟩ := h1
  simp only [Matrix.mulVec, dotProduct, Fin.sum_univ_two] at e0 e1
  refine ⟨L 0 0 * y1 - L 1 0 * y0 - V 1 * C (∏ n ∈ Finset.range d, (1 - (fun n => -(kappa : ℂ) * (starRingEnd ℂ) (R n)) n * R n)), ?_⟩
  linear_combination -L 1 0 * e0 + L 0 0 * e1 - V 1 * hd

open Polynomial in
theorem col_of_scatters {kappa : ℤ} {d : ℕ} (hd : 1 ≤ d) {R : ℕ → ℂ} {A B : ℂ[X]} (hA : A.coeff 0 ≠ 0) (h : Spec.Scatters kappa d R A B) :
    ∃ V : Fin 2 → ℂ[X], (V 0).coeff 0 ≠ 0 ∧ ∀ m, m < d → ∀ i,
      ((![A, B] : Fin 2 → ℂ[X]) i).coeff m = ((layers (fun n => -(kappa : ℂ) * (starRingEnd ℂ) (R n)) R d).mulVec V i).coeff m := by
  set L := layers (fun n => -(kappa : ℂ) * (starRingEnd ℂ) (R n)) R d with hL
  have ha : (L 0 0).coeff 0 = 1 := layers_a_zero _ _ _
  have hco : IsCoprime (L 0 0) (X ^ d) := by
    apply IsCoprime.pow_right
    refine ⟨1, -divX (L 0 0), ?_⟩
    have := divX_mul_X_add (L 0 0)
    rw [ha] at this
    linear_combination -this + (1 : ℂ[X]) * C_1 (R := ℂ)
  obtain ⟨u, w, huw⟩ := hco
  have hu0 : u.coeff 0 ≠ 0 := by
    have := congrArg (fun p => coeff p 0) huw
    simp only [coeff_add, mul_coeff_zero, ha, coeff_X_pow, coeff_one_zero] at this
    rw [if_neg (by omega)] at this
    intro h0
    rw [h0] at this
    norm_num at this
  have hb : X ^ d ∣ L 1 0 * A - L 0 0 * B := by
    rw [X_pow_dvd_iff]; intro m hm; rw [coeff_sub, h m hm, sub_self]
  obtain ⟨y, hy⟩ := hb
  refine ⟨![u * A, 0], by simpa using ⟨hu0, hA⟩, fun m hm i => ?_⟩
  rw [← sub_eq_zero, ← coeff_sub]
  refine (X_pow_dvd_iff.mp ?_) m hm
  fin_cases i
  · refine ⟨w * A, ?_⟩
    simp only [Matrix.mulVec, dotProduct, Fin.sum_univ_two]
    simp
    linear_combination -A * huw
  · refine ⟨B * w - u * y, ?_⟩
    simp only [Matrix.mulVec, dotProduct, Fin.sum_univ_two]
    simp
    linear_combination -B * huw - u * hy

/-- The hypotheses on the arguments that all kinds of continuous spectra share: `D = 2^k` samples, an even number `M ≥ D` of values `cf`, and one of the two supported discretizations.
(`D` is below the bound at which the FFT would overflow its table of factors.) -/
structure Spec.InvCall (k M : ℕ) (cs q : Buf ℂ) (cf : ℕ → ℂ) (T0 T1 eps : ℝ) (o : InvOpts) : Prop where
  hk : 1 ≤ k
  hDM : 2 ^ k ≤ M
  hev : M % 2 = 0
  hsz : 2 * 2 ^ k + 1 ≤ 3 ^ 32
  hT : T0 < T1
  he : eps = (T1 - T0) / (((2 ^ k : ℕ) : ℝ) - 1)
  hd : o.disc = .D2SPLIT2A ∨ o.disc = .D2SPLIT2_MODAL
  hcs : cs.Holds 0 M cf
  hq : q.len = 2 ^ k

/-- What the call does with `A(z)` and `B(z)`. In the focusing case: if `A(0)` is not zero, the call succeeds and returns the signal of the unique layered medium with the ratio
`B/A` up to terms of order `z^D`. In both cases: if there is such a medium without singular layers, then its signal is returned. `post` is what is known about the array with
the continuous spectrum after the call. -/
def Spec.InvFrom (k M : ℕ) (cs q : Buf ℂ) (XI : Option (ℝ × ℝ)) (T0 T1 eps : ℝ) (kappa : ℤ) (o : InvOpts) (A B : Polynomial ℂ) (post : Buf ℂ → Prop) : Prop :=
  (kappa = 1 → ∀ g : Garbage, ∃ cs' q' R, fnft_nsev_inverse M (some cs) XI 0 none none (2 ^ k) (some q) (some (T0, T1)) 1 o g = some ⟨SUCCESS, some cs', some q'⟩ ∧ post cs' ∧
    q'.len = 2 ^ k ∧ (∀ n, n < 2 ^ k → q'.rd n = some (Spec.recovered o.disc eps (-(starRingEnd ℂ) (R n)))) ∧
    Spec.Scatters 1 (2 ^ k) R A B ∧ ∀ R', Spec.Scatters 1 (2 ^ k) R' A B → ∀ n, n < 2 ^ k → R' n = R n) ∧
  ∀ (g : Garbage) (R : ℕ → ℂ), Spec.Scatters kappa (2 ^ k) R A B → (∀ n, n < 2 ^ k → 1 + (kappa : ℝ) * ‖R n‖ ^ 2 ≠ 0) →
    ∃ cs' q', fnft_nsev_inverse M (some cs) XI 0 none none (2 ^ k) (some q) (some (T0, T1)) kappa o g = some ⟨SUCCESS, some cs', some q'⟩ ∧ post cs' ∧
      q'.len = 2 ^ k ∧ ∀ n, n < 2 ^ k → q'.rd n = some (Spec.recovered o.disc eps (-(kappa : ℂ) * (starRingEnd ℂ) (R n)))

open Spec

variable {k M : ℕ} {cs q : Buf ℂ} {cf : ℕ → ℂ} {T0 T1 eps : ℝ} {o : InvOpts}

theorem InvCall_two (h : InvCall k M cs q cf T0 T1 eps o) : 2 ≤ 2 ^ k ∧ 2 ≤ M := by
  have h2 : 2 ≤ 2 ^ k := calc 2 = 2 ^ 1 := rfl
    _ ≤ 2 ^ k := Nat.pow_le_pow_right (by norm_num) h.hk
  exact ⟨h2, h2.trans h.hDM⟩

theorem InvCall_eps (h : InvCall k M cs q cf T0 T1 eps o) : 0 < eps := by
  have h2 := (InvCall_two h).1
  have : (2 : ℝ) ≤ ((2 ^ k : ℕ) : ℝ) := by exact_mod_cast h2
  rw [h.he]
  exact div_pos (by linarith [h.hT]) (by linarith)

theorem InvCall_grid (h : InvCall k M cs q cf T0 T1 eps o) {XI : ℝ × ℝ}
    (hXI : ∃ Y, fnft_nsev_inverse_XI (2 ^ k) (some (T0, T1)) M (some Y) o.disc = some (SUCCESS, some XI)) : GridOK XI.1 XI.2 eps M := by
  obtain ⟨h2, hM⟩ := InvCall_two h
  obtain ⟨Y, hY⟩ := hXI
  obtain ⟨a, ha, hdeg, h1⟩ : ∃ a, nse_to_akns o.disc = .ok a ∧ akns_degree a ≠ 0 ∧ Spec.degree1step a = 1 := by
    rcases h.hd with h | h <;> rw [h] <;> exact ⟨_, rfl, by decide, by simp [Spec.degree1step, akns_degree, akns_upsampling_factor]⟩
  obtain ⟨X0, X1, e1, -, -, -, e4, -⟩ := C64_grid (2 ^ k) M h2 hM h.hev T0 T1 h.hT o.disc a ha hdeg Y
  rw [hY] at e1
  injection e1 with e1
  injection e1 with _ e1
  injection e1 with e1
  subst e1
  intro j hj
  have := e4 j hj
  rw [h1, ← h.he] at this
  simpa [invXi] using this

/-- From the transfer matrix to the signal. -/
theorem inv_from (h : InvCall k M cs q cf T0 T1 eps o) {XI : Option (ℝ × ℝ)} (hXI : XI ≠ none ∨ o.cs = .B_OF_TAU) {kappa : ℤ} (hkap : kappa = 1 ∨ kappa = -1)
    {cs' tm : Buf ℂ} {x : ℕ → ℂ} (htr : invTransfer M cs (XI.getD (0, 0)) 0 (Buf.malloc 0) (2 ^ k) T0 T1 (2 ^ k) kappa o = some ⟨SUCCESS, cs', tm⟩)
    (hx : tm.Holds 0 (4 * (2 ^ k + 1)) x) {A B : Polynomial ℂ} (hA0 : A.coeff 0 ≠ 0) (hA : ∀ m, m ≤ 2 ^ k → x (2 ^ k - m) = A.coeff m)
    (hB : ∀ m, m ≤ 2 ^ k → x (2 * (2 ^ k + 1) + (2 ^ k - m)) = B.coeff m) {post : Buf ℂ → Prop} (hpost : post cs') : InvFrom k M cs q XI T0 T1 eps kappa o A B post := by
  have hcol : ∀ m, m ≤ 2 ^ k → ∀ i, (Spec.pmat 2 (2 ^ k) (2 ^ k + 1) 0 x i 0).coeff m = ((![A, B] : Fin 2 → Polynomial ℂ) i).coeff m := by
    intro m hm i
    fin_cases i
    · show (Spec.poly (2 ^ k) (fun j => x ((2 * 0 + 0) * (2 ^ k + 1) + 0 + j))).coeff m = A.coeff m
      rw [Spec.poly_coeff, if_pos hm, ← hA m hm]
      congr 1
      omega
    · show (Spec.poly (2 ^ k) (fun j => x ((2 * 1 + 0) * (2 ^ k + 1) + 0 + j))).coeff m = B.coeff m
      rw [Spec.poly_coeff, if_pos hm, ← hB m hm]
      congr 1
  have hrun : ∀ (q' : Buf ℂ) (g : Garbage), nse_finvscatter (2 ^ k) (some tm) (some q) eps kappa o.disc = some (SUCCESS, some tm, some q') →
        fnft_nsev_inverse M (some cs) XI 0 none none (2 ^ k) (some q) (some (T0, T1)) kappa o g = some ⟨SUCCESS, some cs', some q'⟩ := by
    intro q' g hf
    have hdeg : nse_degree o.disc = 1 := by rcases h.hd with h | h <;> rw [h] <;> decide
    have hcont : invCont M cs (XI.getD (0, 0)) 0 (Buf.malloc 0) (2 ^ k) q T0 T1 kappa o = some (SUCCESS, cs', q') := by
      unfold invCont
      rw [hdeg, Nat.mul_one]
      dsimp only
      rw [if_neg (by have := (InvCall_two h).1; omega), htr]
      simp only [Option.bind_eq_bind, Option.bind_some]
      rw [if_neg (by simp), ← h.he, hf]
      rfl
    rw [inverse_cont h.hev h.hDM hkap (fun h => absurd h (lt_irrefl 0)) (fun h => absurd h (lt_irrefl 0)) (fun h => absurd h (lt_irrefl 0)) rfl ⟨k, h.hk, rfl⟩ h.hT h.hd hXI]
    simp only [Option.getD_none, hcont, Option.bind_eq_bind, Option.bind_some]
    rw [if_neg (by simp)]
    rfl
  constructor
  · intro hk1 g
    obtain ⟨q', R, V, b1, b2, b3, b4, b5⟩ := C30_finvscatter_focusing k h.hk h.hsz o.disc h.hd.symm eps (InvCall_eps h) tm q x hx h.hq (by
      have := hA 0 (Nat.zero_le _)
      rw [Nat.sub_zero] at this
      rw [this]; exact hA0)
    have hL : ∀ R : ℕ → ℂ, (fun n => -((1 : ℤ) : ℂ) * (starRingEnd ℂ) (R n)) = fun n => -(starRingEnd ℂ) (R n) := fun R => by
      funext n; push_cast; ring
    have hR : Scatters 1 (2 ^ k) R A B := by
      apply scatters_of_col (V := V)
      intro m hm i
      rw [hL, b5]
      exact hcol m hm.le i
    refine ⟨cs', q', R, ?_, hpost, b2, b3, hR, ?_⟩
    · subst hk1; exact hrun q' g b1
    intro R' hR' n hn
    obtain ⟨V1, v1, v2⟩ := col_of_scatters (Nat.one_le_two_pow) hA0 hR
    obtain ⟨V2, w1, w2⟩ := col_of_scatters (Nat.one_le_two_pow) hA0 hR'
    refine C30_layers_unique 1 (2 ^ k) R' R V2 V1 w1 v1 (fun n _ => ?_) (fun m hm i => ?_) n hn
    · push_cast
      have : 0 ≤ ‖R' n‖ ^ 2 := by positivity
      linarith
    · rw [← w2 m hm i, ← v2 m hm i]
  · intro g R hR hreg
    obtain ⟨V, v1, v2⟩ := col_of_scatters (Nat.one_le_two_pow) hA0 hR
    obtain ⟨q', b1, b2, b3⟩ := C30_finvscatter k h.hk h.hsz o.disc h.hd.symm kappa hkap eps (InvCall_eps h) tm q x hx h.hq R V v1 hreg (fun m hm i => by
      rw [hcol m hm.le i, v2 m hm i])
    exact ⟨cs', q', hrun q' g b1, hpost, b2, b3⟩

end FNFT

import Verif.Proofs.NsevDisc
import Mathlib.Analysis.Convex.SpecificFunctions.Basic
/-!
# Proofs: the mixed method (subsample and refine)
-/
namespace FNFT
open Complex AknsDisc

variable {D Dg : ℕ} {q r : Buf ℂ} {qf rf : ℕ → ℂ} {T0 T1 eps : ℝ} {kappa : ℤ} {o : NsevOpts} {a : AknsDisc}

/-- `y_0, ..., y_deg` are the coefficients (highest power first) of `a(λ)` as polynomial in `z = e^(2iλ eps/degree)`, up to a power of two. -/
def Spec.IsAPoly (a : AknsDisc) (D : ℕ) (T0 T1 eps : ℝ) (U : ℂ → ℕ → Spec.M2) (deg : ℕ) (y : ℕ → ℂ) : Prop :=
  ∃ W : ℤ, ∀ l, Spec.jostA (Spec.chain (U l) (Spec.slowCount a D)) T0 T1 eps l =
    2 ^ W * ∑ k ∈ Finset.range (deg + 1), y k * exp (2 * I * l * eps / (Spec.degree1step a : ℕ)) ^ (deg - k)

theorem isAPoly (h : BaseArgs D Dg q r qf rf T0 T1 eps kappa o a) (hdeg : akns_degree a ≠ 0) {U : ℂ → ℕ → Spec.M2} {deg : ℕ} {W : ℤ}
    {tm : Option (Buf ℂ)} (ht : TransferData o.disc a D Dg eps qf rf U deg W tm) :
    deg = D * akns_degree a ∧ ∃ t y, tm = some t ∧ t.Holds 0 (4 * (deg + 1)) y ∧ Spec.IsAPoly a D T0 T1 eps U deg y := by
  obtain ⟨-, h1, t, y, h2, h3, hE⟩ := ht.fast (fun hs => hdeg (slow_degree hs))
  refine ⟨h1, t, y, h2, h3, W, fun l => ?_⟩
  have e := (hE l).1
  have e2 : (Spec.pmat 2 deg (deg + 1) 0 y 0 0).eval (exp (2 * I * l * eps / (Spec.degree1step a : ℕ))) =
      ∑ k ∈ Finset.range (deg + 1), y k * (exp (2 * I * l * eps / (Spec.degree1step a : ℕ))) ^ (deg - k) := by
    simp [Spec.pmat, Spec.poly, Polynomial.eval_finsetSum]
  rw [e2] at e
  rw [slowA_alt, mul_comm, mul_comm ((2 : ℂ) ^ W), e, mul_comm]
  congr 2
  have : (Dg : ℝ) - 1 ≠ 0 := by
    have : (2 : ℝ) ≤ Dg := by exact_mod_cast h.hDg2
    linarith
  have : T1 - T0 + eps = eps * Dg := by
    rw [h.heps]
    field_simp
    ring
  rw [this]
  push_cast; ring

theorem logb_le_self {x : ℝ} (hx : 1 ≤ x) : Real.logb 2 x ≤ x := by
  rw [Real.logb_le_iff_le_rpow (by norm_num) (by linarith)]
  have := one_add_mul_self_le_rpow_one_add (s := 1) (by norm_num) hx
  norm_num at this
  linarith

/-- The number of samples for the initial guesses is well-defined. -/
theorem dsub_ok {D Dsub : ℕ} (hD : 2 ≤ D) (hs : Dsub ≤ 2 * D) : ∃ n, nsevDsub D Dsub = some n ∧
    ∀ Ds s, Spec.SubGrid D n Ds s → Spec.SubGrid D Dsub Ds s := by
  have hDr : (2 : ℝ) ≤ D := by exact_mod_cast hD
  have hauto : 1 ≤ ⌊Real.sqrt (D * Real.logb 2 D * Real.logb 2 D)⌋₊ ∧ ⌊Real.sqrt (D * Real.logb 2 D * Real.logb 2 D)⌋₊ ≤ 2 * D := by
    have hl1 : 1 ≤ Real.logb 2 D := by
      rw [Real.le_logb_iff_rpow_le (by norm_num) (by linarith)]
      simpa using hDr
    constructor
    · apply Nat.le_floor
      rw [Nat.cast_one, Real.one_le_sqrt, mul_assoc]
      have : 1 ≤ Real.logb 2 D * Real.logb 2 D := by nlinarith
      nlinarith
    · apply Nat.floor_le_of_le
      push_cast
      have h2 : Real.logb 2 D ≤ 2 * Real.sqrt D := by
        have h3 : 1 ≤ Real.sqrt D := Real.one_le_sqrt.mpr (by linarith)
        have h4 : Real.logb 2 D = 2 * Real.logb 2 (Real.sqrt D) := by
          conv_lhs => rw [← Real.sq_sqrt (show (0 : ℝ) ≤ D by linarith)]
          rw [Real.logb_pow]; norm_num
        rw [h4]
        have := logb_le_self h3
        linarith
      apply Real.sqrt_le_iff.mpr
      refine ⟨by linarith, ?_⟩
      have h3 : Real.sqrt D * Real.sqrt D = D := Real.mul_self_sqrt (by linarith)
      have h4 : Real.logb 2 D * Real.logb 2 D ≤ (2 * Real.sqrt D) * (2 * Real.sqrt D) := by
        apply mul_self_le_mul_self (by linarith) h2
      nlinarith
  have hgen : ∀ n, 1 ≤ n → n ≤ 2 * D → roundDiv D n ≠ 0 := by
    intro n h1 h2
    rw [roundDiv_eq D n (by omega)]
    have : 1 ≤ (2 * D + n) / (2 * n) := (Nat.le_div_iff_mul_le (by omega)).mpr (by omega)
    omega
  by_cases h0 : Dsub = 0
  · subst h0
    refine ⟨roundDiv D (roundDiv D ⌊Real.sqrt (D * Real.logb 2 D * Real.logb 2 D)⌋₊), ?_,
      fun Ds s h => ⟨h.1, h.2.1, h.2.2.1, h.2.2.2.1, fun h => by omega, fun h => by omega⟩⟩
    · unfold nsevDsub
      dsimp only
      rw [if_pos rfl, if_neg]
      push Not
      exact ⟨by omega, hgen _ hauto.1 hauto.2⟩
  · refine ⟨roundDiv D (roundDiv D Dsub), ?_, fun Ds s h => ⟨h.1, h.2.1, h.2.2.1, h.2.2.2.1, fun h2 hd => ?_, fun hle => ?_⟩⟩
    · unfold nsevDsub
      dsimp only
      rw [if_neg h0, if_neg]
      push Not
      exact ⟨h0, hgen _ (by omega) hs⟩
    · obtain ⟨k, hk⟩ := hd
      have hk0 : 0 < k := Nat.pos_of_ne_zero (by rintro rfl; omega)
      have e1 : roundDiv D Dsub = k := by
        rw [roundDiv_eq D _ (by omega), hk]
        apply Nat.div_eq_of_lt_le <;> nlinarith
      have e2 : roundDiv D k = Dsub := by
        rw [roundDiv_eq D _ hk0, hk]
        apply Nat.div_eq_of_lt_le <;> nlinarith
      rw [e1, e2] at h
      exact h.2.2.2.2.1 h2 ⟨k, hk⟩
    · have e1 : roundDiv D Dsub = 1 := by
        rw [roundDiv_eq D _ (by omega)]
        apply Nat.div_eq_of_lt_le <;> omega
      have e2 : roundDiv D 1 = D := by
        rw [roundDiv_eq D _ (by omega)]
        apply Nat.div_eq_of_lt_le <;> omega
      rw [e1, e2] at h
      exact h.2.2.2.2.2 le_rfl

/-- The subsampled signal and the arguments of `fnft_nsev_base`. -/
theorem nsev_pre_sub {x : ℕ → ℂ} (h : Spec.NsevArgs D q x T0 T1 kappa o a) (Dsub0 : ℕ)
    (hal : a = .D2SPLIT2_MODAL → kappa = -1 → ∀ s n, s ≤ D → s * n < D → (T1 - T0) / (D - 1) * s * ‖x (s * n)‖ ≠ 1) :
    ∃ Ds s qp rp qf rf, Spec.SubGrid D Dsub0 Ds s ∧
      nse_preprocess_signal D (some q) ((T1 - T0) / (D - 1)) kappa Dsub0 o.disc =
        some ⟨SUCCESS, Ds, some (qp, rp), some (0, (Ds - 1) * s)⟩ ∧
      Spec.Processed a kappa D ((T1 - T0) / (D - 1)) x Ds s qf rf ∧
      ∀ o' : NsevOpts, o'.disc = o.disc →
        BaseArgs (Ds * akns_upsampling_factor a) Ds qp rp qf rf T0 (T0 + ((Ds - 1) * s : ℕ) * ((T1 - T0) / (D - 1)))
          ((T1 - T0) / (D - 1) * s) kappa o' a := by
  have hup : akns_upsampling_factor a ≠ 0 := ((C32_nse_names o.disc).1 a h.hd).2
  have heps := h.eps_pos
  obtain ⟨Ds, s, qp, rp, qf, rf, h1, h2, h3, h4, h5⟩ := nse_pre_ok h.hd h.hD h.hCF h.lt h.hq heps h.hk Dsub0
  have h2' := h2
  obtain ⟨g1, g2, g3, g4, -, -⟩ := h2'
  have hs0 : (1 : ℝ) ≤ s := by exact_mod_cast g1
  have hDs : (2 : ℝ) ≤ Ds := by exact_mod_cast g2
  have hsD : s ≤ D := by
    have : s ≤ (Ds - 1) * s := Nat.le_mul_of_pos_left _ (by omega)
    omega
  refine ⟨Ds, s, qp, rp, qf, rf, h2, h1, h5, fun o' ho' => ⟨by rw [ho']; exact h.hd, rfl, g2, ?_, h3, h4, ?_, h.hk, ?_, ?_⟩⟩
  · exact le_trans (Nat.mul_le_mul_right _ g3) h.hsize
  · have : 0 < (((Ds - 1) * s : ℕ) : ℝ) := by
      have : 0 < (Ds - 1) * s := Nat.mul_pos (by omega) (by omega)
      exact_mod_cast this
    have := mul_pos this heps
    linarith
  · rw [Nat.cast_mul, Nat.cast_sub (by omega), Nat.cast_one, add_sub_cancel_left, eq_div_iff (by linarith)]
    ring
  · rintro rfl n hn
    rw [Spec.Processed, if_pos (by rfl)] at h5
    have hn' : n < Ds := by simpa [akns_upsampling_factor] using hn
    obtain ⟨e1, e2⟩ := h5 n hn'
    rw [e1, e2]
    have hsn : s * n < D := by
      have : s * n ≤ (Ds - 1) * s := by rw [Nat.mul_comm]; exact Nat.mul_le_mul_right _ (by omega)
      omega
    have := modal_ok h.hk (mul_pos heps (by linarith : (0 : ℝ) < s)) (z := x (s * n)) (fun hk => hal rfl hk s n hsD hsn)
    push_cast at this ⊢
    exact this

end FNFT

import Verif.Model.Nsep
import Verif.Proofs.NsevFast
/-!
# The polynomials of fnft_nsep.c
-/
namespace FNFT
open Complex

theorem nsepPoly_ok {deg : ℕ} {tm : Buf ℂ} {y : ℕ → ℂ} (h : tm.Holds 0 (deg + 1) y) :
    ∃ p, nsepPoly deg tm = some p ∧ p.len = deg + 1 ∧ p.Holds 0 (deg + 1) fun i => y i + (starRingEnd ℂ) (y (deg - i)) := by
  obtain ⟨p, h1, h2, h3⟩ := fill_spec (off := 0) (cnt := deg + 1) (b := Buf.malloc (α := ℂ) (deg + 1))
    (f := fun i => do
      let x ← tm.rd i
      let y ← tm.rd (deg - i)
      return x + (starRingEnd ℂ) y) (fun i => y i + (starRingEnd ℂ) (y (deg - i)))
    (fun i _ hi => by
      have a1 := h i (by omega)
      have a2 := h (deg - i) (by omega)
      rw [Nat.zero_add] at a1 a2
      simp only [a1, a2, Option.bind_eq_bind, Option.bind_some]; rfl)
    (by simp)
  refine ⟨p, h1, by simpa using h2, fun i hi => ?_⟩
  rw [h3]; simp [hi]

theorem addCentre_ok {deg : ℕ} {p : Buf ℂ} {c : ℕ → ℂ} (hl : p.len = deg + 1) (h : p.Holds 0 (deg + 1) c) (v : ℂ) :
    ∃ p', addCentre deg v p = some p' ∧ p'.len = deg + 1 ∧ p'.Holds 0 (deg + 1) fun i => c i + if i = deg / 2 then v else 0 := by
  have a1 := h (deg / 2) (by omega)
  rw [Nat.zero_add] at a1
  refine ⟨p.set (deg / 2) (c (deg / 2) + v), ?_, by simpa using hl, fun i hi => ?_⟩
  · unfold addCentre
    simp only [a1, Option.bind_eq_bind, Option.bind_some]
    exact Buf.wr_eq _ (by omega)
  · rw [Buf.rd_set _ (by omega), Nat.zero_add]
    have := h i hi
    rw [Nat.zero_add] at this
    dsimp only
    split_ifs with hc
    · rw [hc]
    · rw [this, add_zero]

theorem poly_add (deg : ℕ) (c e : ℕ → ℂ) : Spec.poly deg (fun i => c i + e i) = Spec.poly deg c + Spec.poly deg e := by
  unfold Spec.poly
  rw [← Finset.sum_add_distrib]
  refine Finset.sum_congr rfl fun j _ => ?_
  rw [map_add, add_mul]

theorem poly_centre {deg : ℕ} (he : deg % 2 = 0) (v : ℂ) :
    Spec.poly deg (fun i => if i = deg / 2 then v else 0) = Polynomial.C v * Polynomial.X ^ (deg / 2) := by
  unfold Spec.poly
  rw [Finset.sum_eq_single (deg / 2)]
  · dsimp only
    rw [if_pos rfl]; congr 2; omega
  · intro j _ hj
    dsimp only
    rw [if_neg hj, map_zero, zero_mul]
  · intro h
    exact absurd (Finset.mem_range.mpr (by omega)) h

theorem poly_eval' (deg : ℕ) (c : ℕ → ℂ) (z : ℂ) :
    (Spec.poly deg c).eval z = ∑ j ∈ Finset.range (deg + 1), c j * z ^ (deg - j) := by
  unfold Spec.poly
  simp [Polynomial.eval_finsetSum]

/-- Reversed and conjugated coefficients: values on the unit circle. -/
theorem poly_conj_eval {z : ℂ} (hz : ‖z‖ = 1) (deg : ℕ) (y : ℕ → ℂ) :
    (Spec.poly deg fun i => (starRingEnd ℂ) (y (deg - i))).eval z = z ^ deg * (starRingEnd ℂ) ((Spec.poly deg y).eval z) := by
  rw [poly_eval', poly_eval', map_sum, Finset.mul_sum, ← Finset.sum_range_reflect]
  refine Finset.sum_congr rfl fun j hj => ?_
  have hj : j ≤ deg := by have := Finset.mem_range.mp hj; omega
  rw [show deg + 1 - 1 - j = deg - j by omega, show deg - (deg - j) = j by omega, map_mul, map_pow]
  have h1 : z * (starRingEnd ℂ) z = 1 := by rw [mul_conj', hz]; simp
  have h2 : z ^ deg * (starRingEnd ℂ) z ^ (deg - j) = z ^ j := by
    calc z ^ deg * (starRingEnd ℂ) z ^ (deg - j) = z ^ j * (z * (starRingEnd ℂ) z) ^ (deg - j) := by
          rw [mul_pow, ← mul_assoc, ← pow_add]; congr 2; omega
      _ = z ^ j := by rw [h1, one_pow, mul_one]
  rw [← h2]; ring

/-- Two polynomials that agree on the unit circle are equal. -/
theorem poly_eq_of_circle {P Q : Polynomial ℂ} (h : ∀ t : ℝ, P.eval (exp (I * t)) = Q.eval (exp (I * t))) : P = Q := by
  refine Polynomial.eq_of_infinite_eval_eq P Q ?_
  have hinj : Function.Injective fun n : ℕ => exp (I * ((1 / ((n : ℝ) + 1) : ℝ) : ℂ)) := by
    intro n m hnm
    have hb : ∀ k : ℕ, -Real.pi < (1 / ((k : ℝ) + 1)) ∧ (1 / ((k : ℝ) + 1)) ≤ Real.pi := by
      intro k
      have h1 : (0 : ℝ) < (k : ℝ) + 1 := by positivity
      have h2 : (1 / ((k : ℝ) + 1)) ≤ 1 := by
        rw [div_le_one h1]; linarith [Nat.cast_nonneg (α := ℝ) k]
      have h3 : 0 < (1 / ((k : ℝ) + 1)) := by positivity
      have := Real.two_le_pi
      constructor <;> linarith
    have him : ∀ k : ℕ, (I * ((1 / ((k : ℝ) + 1) : ℝ) : ℂ)).im = 1 / ((k : ℝ) + 1) := by
      intro k; simp only [mul_im, I_re, I_im, ofReal_re, ofReal_im]; ring
    have := exp_inj_of_neg_pi_lt_of_le_pi (by rw [him]; exact (hb n).1) (by rw [him]; exact (hb n).2)
      (by rw [him]; exact (hb m).1) (by rw [him]; exact (hb m).2) hnm
    have := congrArg Complex.im this
    rw [him, him] at this
    have h1 : (0 : ℝ) < (n : ℝ) + 1 := by positivity
    have h2 : (0 : ℝ) < (m : ℝ) + 1 := by positivity
    have : (m : ℝ) = n := by
      rw [div_eq_div_iff h1.ne' h2.ne'] at this; linarith
    exact_mod_cast this.symm
  exact Set.infinite_of_injective_forall_mem hinj fun n => h _

/-- The two polynomials searched for roots are the discriminant `Δ = S11 + S22` (plus a constant) up to the factor
`2^(-W) exp(iλ(T1-T0))`. -/
theorem floquet_poly {d : NseDisc} {a : AknsDisc} (hdeg : akns_degree a ≠ 0) (hup : akns_upsampling_factor a ≠ 0) {eps : ℝ}
    (heps : 0 < eps) {Dg : ℕ} {W : ℤ} {deg : ℕ} (hn : deg = Dg * akns_upsampling_factor a * akns_degree a) (hev : deg % 2 = 0)
    {y : ℕ → ℂ} {S : ℂ → Spec.M2} {κ : ℝ}
    (hE : ∀ l, EntriesOK d eps Dg W deg (exp (2 * I * l * eps / (Spec.degree1step a : ℕ))) l y (S l))
    (hS : ∀ l : ℝ, Spec.Sym κ (S l)) (v : ℂ) (l : ℂ) :
    (Spec.poly deg fun i => (y i + (starRingEnd ℂ) (y (deg - i))) + if i = deg / 2 then v * 2 ^ (-W) else 0).eval
      (exp (2 * I * l * eps / (Spec.degree1step a : ℕ))) = 2 ^ (-W) * exp (I * l * (eps * Dg)) * (S l 0 0 + S l 1 1 + v) := by
  have hds : (Spec.degree1step a : ℂ) ≠ 0 := by
    rw [Spec.degree1step]; push_cast
    exact mul_ne_zero (by exact_mod_cast hdeg) (by exact_mod_cast hup)
  have he : (eps : ℂ) ≠ 0 := by exact_mod_cast heps.ne'
  have hW : (2 : ℂ) ^ W ≠ 0 := zpow_ne_zero _ two_ne_zero
  have hnC : (deg : ℂ) = Dg * Spec.degree1step a := by rw [hn, Spec.degree1step]; push_cast; ring
  -- powers
  have hpow : ∀ l : ℂ, exp (2 * I * l * eps / (Spec.degree1step a : ℕ)) ^ deg = exp (I * l * (eps * Dg)) * exp (I * l * (eps * Dg)) := by
    intro l
    rw [← exp_nat_mul, ← exp_add, hnC]
    congr 1
    field_simp
    ring
  have hhalf : exp (2 * I * l * eps / (Spec.degree1step a : ℕ)) ^ (deg / 2) = exp (I * l * (eps * Dg)) := by
    have h2 : ((deg / 2 : ℕ) : ℂ) = deg / 2 := by
      have : deg = 2 * (deg / 2) := by omega
      have : (deg : ℂ) = 2 * ((deg / 2 : ℕ) : ℂ) := by exact_mod_cast this
      rw [this]; ring
    rw [← exp_nat_mul, h2, hnC]
    congr 1
    field_simp
  -- the second diagonal element
  have h11 : Spec.poly deg (fun i => (starRingEnd ℂ) (y (deg - i))) = Spec.pmat 2 deg (deg + 1) 0 y 1 1 := by
    refine poly_eq_of_circle fun t => ?_
    set lr : ℝ := t * Spec.degree1step a / (2 * eps) with hlr
    have hz : exp (I * t) = exp (2 * I * (lr : ℂ) * eps / (Spec.degree1step a : ℕ)) := by
      congr 1; rw [hlr]; push_cast; field_simp
    obtain ⟨e1, -, -, e4⟩ := hE lr
    have hp0 : Spec.pmat 2 deg (deg + 1) 0 y 0 0 = Spec.poly deg y := by
      unfold Spec.pmat
      simp
    rw [hp0] at e1
    have hn1 : ‖exp (I * (t : ℂ))‖ = 1 := by rw [mul_comm]; exact norm_exp_ofReal_mul_I t
    rw [poly_conj_eval hn1, hz, hpow]
    have hc : exp (I * (lr : ℂ) * (eps * Dg)) * (starRingEnd ℂ) (exp (I * (lr : ℂ) * (eps * Dg))) = 1 := by
      rw [mul_conj', ← ofReal_natCast, ← ofReal_mul, mul_assoc, ← ofReal_mul, mul_comm I, norm_exp_ofReal_mul_I]; simp
    have hcW : (starRingEnd ℂ) ((2 : ℂ) ^ W) = 2 ^ W := by rw [map_zpow₀, map_ofNat]
    have e1' := congrArg (starRingEnd ℂ) e1
    rw [map_mul, map_mul, hcW, ← (hS lr).1] at e1'
    have : exp (I * (lr : ℂ) * (eps * Dg)) * exp (I * (lr : ℂ) * (eps * Dg)) *
        (starRingEnd ℂ) (Polynomial.eval (exp (2 * I * (lr : ℂ) * eps / (Spec.degree1step a : ℕ))) (Spec.poly deg y)) * 2 ^ W =
        Polynomial.eval (exp (2 * I * (lr : ℂ) * eps / (Spec.degree1step a : ℕ))) (Spec.pmat 2 deg (deg + 1) 0 y 1 1) * 2 ^ W := by
      rw [e4]
      linear_combination (exp (I * (lr : ℂ) * (eps * Dg)) * exp (I * (lr : ℂ) * (eps * Dg))) * e1' +
        (exp (I * (lr : ℂ) * (eps * Dg)) * S lr 1 1) * hc
    exact mul_right_cancel₀ hW this
  obtain ⟨e1, -, -, e4⟩ := hE l
  have hp0 : Spec.pmat 2 deg (deg + 1) 0 y 0 0 = Spec.poly deg y := by
    unfold Spec.pmat
    simp
  rw [hp0] at e1
  rw [poly_add, poly_add, poly_centre hev, h11, Polynomial.eval_add, Polynomial.eval_add, Polynomial.eval_mul, Polynomial.eval_C,
    Polynomial.eval_pow, Polynomial.eval_X, hhalf, zpow_neg]
  have hi : ((2 : ℂ) ^ W)⁻¹ * 2 ^ W = 1 := inv_mul_cancel₀ hW
  linear_combination ((2 : ℂ) ^ W)⁻¹ * (e1 + e4) - (Polynomial.eval (exp (2 * I * l * eps / (Spec.degree1step a : ℕ))) (Spec.poly deg y) +
    Polynomial.eval (exp (2 * I * l * eps / (Spec.degree1step a : ℕ))) (Spec.pmat 2 deg (deg + 1) 0 y 1 1)) * hi

/-- The polynomial for the auxiliary spectrum. -/
theorem aux_poly {d : NseDisc} {a : AknsDisc} {eps : ℝ} {Dg : ℕ} {W : ℤ} {deg : ℕ} {y : ℕ → ℂ} {S : ℂ → Spec.M2}
    (hE : ∀ l, EntriesOK d eps Dg W deg (exp (2 * I * l * eps / (Spec.degree1step a : ℕ))) l y (S l)) (l : ℂ) :
    (Spec.poly deg fun i => y (deg + 1 + i)).eval (exp (2 * I * l * eps / (Spec.degree1step a : ℕ))) =
      2 ^ (-W) * exp (I * l * (eps * Dg)) * (exp (I * l * phB d eps) * S l 0 1) := by
  obtain ⟨-, -, e3, -⟩ := hE l
  have hW : (2 : ℂ) ^ W ≠ 0 := zpow_ne_zero _ two_ne_zero
  have hp : Spec.pmat 2 deg (deg + 1) 0 y 0 1 = Spec.poly deg (fun i => y (deg + 1 + i)) := by
    unfold Spec.pmat
    simp
  rw [hp] at e3
  rw [zpow_neg]
  have hi : ((2 : ℂ) ^ W)⁻¹ * 2 ^ W = 1 := inv_mul_cancel₀ hW
  linear_combination ((2 : ℂ) ^ W)⁻¹ * e3 - (Polynomial.eval (exp (2 * I * l * eps / (Spec.degree1step a : ℕ)))
    (Spec.poly deg fun i => y (deg + 1 + i))) * hi

end FNFT

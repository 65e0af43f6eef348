import Verif.Proofs.SpecfactId
import Mathlib.LinearAlgebra.Lagrange
import Mathlib.Tactic.IntervalCases
/-!
# C66: `poly_specfact`
-/
namespace FNFT
open Kiss Complex Finset

theorem zetaT (N : ℕ) (i : ℕ) : zeta N true ^ i = exp (2 * Real.pi * I * i / N) := by
  unfold zeta sgn
  rw [← exp_nat_mul]
  congr 1
  push_cast
  simp
  ring

theorem zetaF' (N : ℕ) (i : ℕ) : zeta N false ^ i = exp (-(2 * Real.pi * I * i / N)) := by
  unfold zeta sgn
  rw [← exp_nat_mul]
  congr 1
  push_cast
  simp
  ring

theorem spec_poly_eval (deg : ℕ) (p : ℕ → ℂ) (z : ℂ) : (Spec.poly deg p).eval z = ∑ j ∈ range (deg + 1), p j * z ^ (deg - j) := by
  unfold Spec.poly
  rw [Polynomial.eval_finsetSum]
  simp

/-- The values that the first FFT gives. -/
theorem specfact_values {deg N : ℕ} (p : ℕ → ℂ) (i : ℕ) :
    ‖∑ j ∈ range (deg + 1), p j * zeta N false ^ (j * i)‖ = ‖(Spec.poly deg p).eval (exp (2 * Real.pi * I * i / N))‖ := by
  rw [spec_poly_eval, ← zetaT]
  have hz : ‖zeta N true‖ = 1 := by
    have := zetaT N 1
    rw [pow_one] at this
    rw [this, show 2 * (Real.pi : ℂ) * I * ((1 : ℕ) : ℂ) / N = ((2 * Real.pi / N : ℝ) : ℂ) * I by push_cast; ring, norm_exp_ofReal_mul_I]
  have e : ∑ j ∈ range (deg + 1), p j * (zeta N true ^ i) ^ (deg - j) = (zeta N true ^ i) ^ deg * ∑ j ∈ range (deg + 1), p j * zeta N false ^ (j * i) := by
    rw [Finset.mul_sum]
    refine Finset.sum_congr rfl fun j hj => ?_
    have hj' : j ≤ deg := by have := mem_range.mp hj; omega
    have h1 : zeta N false = (zeta N true)⁻¹ := by simpa using zeta_not N true
    have h2 := zeta_ne_zero N true
    rw [h1, inv_pow, mul_comm j i, pow_mul, pow_sub₀ _ (pow_ne_zero _ h2) hj']
    ring
  rw [e, norm_mul, norm_pow, norm_pow, hz, one_pow, one_pow, one_mul]

/-- The run of `poly_specfact` when nothing is rejected. -/
theorem specfact_run {deg over N : ℕ} {kappa : ℤ} {poly result r : Buf ℂ} {pf pi : Plan} (hdeg : 1 ≤ deg) (hover : 1 ≤ over) (hk : kappa = 0 ∨ kappa = 1 ∨ kappa = -1)
    (n1 : nextLen ((deg + 1) * over) = some N) (f1 : mkPlan N (-1) = some (SUCCESS, some pf)) (g1 : mkPlan N 1 = some (SUCCESS, some pi))
    (r1 : sfMain deg poly kappa N pf pi result = some r) : poly_specfact deg (some poly) (some result) over kappa = some (SUCCESS, some r) := by
  unfold poly_specfact
  rw [if_neg (by omega)]
  dsimp only
  rw [if_neg (by omega), n1]
  simp only [Option.bind_eq_bind, Option.bind_some, f1, g1]
  rw [if_neg (by rcases hk with h | h | h <;> simp [h]), r1]
  rfl

/-- C66: spectral factorization. For a polynomial `b` (coefficients `p`, highest power first) and `kappa = -1, 0, 1` such that `1 - kappa |b|²` (or `|b|²`) is positive on the unit
circle, there is a number `N ≥ (deg+1)·oversampling_factor` of the form `2^a 3^b 5^c` and a polynomial `C` of degree less than `N` (determined by `b`, `kappa` and the oversampling
factor) such that `poly_specfact` succeeds and returns the coefficients of the powers of `C` up to `deg` (highest power first). If the Fourier modes number `N/2-1, N/2, N/2+1` of the logarithm of the modulus, sampled at the `N` roots of unity, vanish, then
at these points `|C|² = 1 - kappa |b|²` (or `|b|²`), and `log C` is a polynomial in `z` there, i.e. `C` is the factor without zeros in the unit disk that the sampled modulus determines. -/
theorem C66_specfact (deg over : ℕ) (hdeg : 1 ≤ deg) (hover : 1 ≤ over) (hsz : (deg + 1) * over ≤ 3 ^ 32) (kappa : ℤ) (hk : kappa = 0 ∨ kappa = 1 ∨ kappa = -1)
    (p : ℕ → ℂ) (hpos : ∀ z : ℂ, ‖z‖ = 1 → 0 < Spec.sfSq kappa ((Spec.poly deg p).eval z)) :
    ∃ (N : ℕ) (F : Polynomial ℂ), (deg + 1) * over ≤ N ∧ N < 2 * ((deg + 1) * over) ∧ Smooth N ∧ F.degree < N ∧
      (∀ poly result : Buf ℂ, poly.Holds 0 (deg + 1) p → deg + 1 ≤ result.len → ∃ r,
        poly_specfact deg (some poly) (some result) over kappa = some (SUCCESS, some r) ∧ r.len = result.len ∧
        ∀ j, r.rd j = if j ≤ deg then some (F.coeff (deg - j)) else result.rd j) ∧
      ((∀ k, (k = N / 2 - 1 ∨ k = N / 2 ∨ k = N / 2 + 1) → 0 < k → k < N → Spec.sfMode N kappa (Spec.poly deg p) k = 0) →
        ∀ i, i < N → ‖F.eval (exp (2 * Real.pi * I * i / N))‖ ^ 2 = Spec.sfSq kappa ((Spec.poly deg p).eval (exp (2 * Real.pi * I * i / N))) ∧
          F.eval (exp (2 * Real.pi * I * i / N)) = exp ((Spec.sfMode N kappa (Spec.poly deg p) 0 +
            2 * ∑ m ∈ Finset.Ico 1 (N / 2 - 1), Spec.sfMode N kappa (Spec.poly deg p) m * exp (2 * Real.pi * I * i / N) ^ m) / N)) := by
  have hn : 1 ≤ (deg + 1) * over := Nat.mul_pos (by omega) hover
  obtain ⟨N, n1, n2, n3, n4, -⟩ := nextLen_spec _ hn
  have hdN : deg + 1 ≤ N := le_trans (Nat.le_mul_of_pos_right _ hover) n2
  have hlt : N < 2 * 3 ^ 32 := by omega
  obtain ⟨pf, f1, f2⟩ := mkPlan_fwd N (by omega) hlt
  obtain ⟨pi, g1, g2⟩ := mkPlan_inv N (by omega) hlt
  set v : ℕ → ℂ := fun i => ∑ j ∈ range (deg + 1), p j * zeta N false ^ (j * i) with hv
  have hsq : ∀ i, Spec.sfSq kappa (v i) = Spec.sfSq kappa ((Spec.poly deg p).eval (exp (2 * Real.pi * I * i / N))) := by
    intro i; unfold Spec.sfSq; rw [hv]; dsimp only; rw [specfact_values]
  have hc1 : ∀ i : ℕ, ‖exp (2 * Real.pi * I * i / N)‖ = 1 := fun i => by
    rw [show 2 * (Real.pi : ℂ) * I * i / N = ((2 * Real.pi * i / N : ℝ) : ℂ) * I by push_cast; ring, norm_exp_ofReal_mul_I]
  set u : ℕ → ℝ := fun i => sfLg kappa (v i) with hu
  have hmode : ∀ k, Spec.sfMode N kappa (Spec.poly deg p) k = sfX N u k := by
    intro k
    unfold Spec.sfMode sfX
    refine Finset.sum_congr rfl fun j _ => ?_
    rw [hu]
    dsimp only
    rw [sfLg, hsq, zetaF']
    congr 3
    push_cast
    ring
  set c : ℕ → ℂ := fun k => (starRingEnd ℂ) (sfC N (fun i => (u i : ℂ)) k) with hcc
  have hcoef : ∀ k, (∑ k ∈ range N, Polynomial.C (c k) * Polynomial.X ^ k).coeff k = if k < N then c k else 0 := by
    intro k
    rw [Polynomial.finsetSum_coeff]
    simp only [Polynomial.coeff_C_mul, Polynomial.coeff_X_pow, mul_ite, mul_one, mul_zero, Finset.sum_ite_eq, mem_range]
  refine ⟨N, ∑ k ∈ range N, Polynomial.C (c k) * Polynomial.X ^ k, n2, n3, n4, ?_, ?_, ?_⟩
  · rw [Polynomial.degree_lt_iff_coeff_zero]
    intro m hm
    rw [hcoef, if_neg (by omega)]
  · intro poly result hp hres
    obtain ⟨r, r1, r2, r3⟩ := sfMain_ok (kappa := kappa) (result := result) hk hp hdN hres f2 g2 (v := v) (fun _ _ => rfl) (fun i _ => by rw [hsq]; exact hpos _ (hc1 i))
    refine ⟨r, specfact_run hdeg hover hk n1 f1 g1 r1, r2, fun j => ?_⟩
    rw [r3 j, hcoef, if_pos (by omega : deg - j < N)]
  · intro hb i hi
    have hband : SfBand N u := fun k h h0 hk => by rw [← hmode]; exact hb k h h0 hk
    have hev : (∑ k ∈ range N, Polynomial.C (c k) * Polynomial.X ^ k).eval (exp (2 * Real.pi * I * i / N)) =
        exp ((u i : ℂ) + I * sfY N (fun j => (u j : ℂ)) i) := by
      rw [Polynomial.eval_finsetSum]
      simp only [Polynomial.eval_mul, Polynomial.eval_C, Polynomial.eval_pow, Polynomial.eval_X]
      have h1 := congrArg (starRingEnd ℂ) (sfC_eval (N := N) (x := fun i => (u i : ℂ)) hi)
      rw [map_sum, ← exp_conj, map_sub, map_mul, conj_I, conj_ofReal, sfY_real hband (by omega)] at h1
      rw [← sub_neg_eq_add, ← neg_mul, ← h1]
      refine Finset.sum_congr rfl fun k _ => ?_
      rw [map_mul, map_pow, zeta_star, Bool.not_false, ← zetaT, ← pow_mul, mul_comm i k]
    constructor
    · rw [hev]
      have hy : (sfY N (fun j => (u j : ℂ)) i).im = 0 := conj_eq_iff_im.mp (sfY_real hband (by omega) i)
      rw [norm_exp]
      have : ((u i : ℂ) + I * sfY N (fun j => (u j : ℂ)) i).re = u i := by simp [hy]
      rw [this, hu]
      dsimp only
      rw [sfLg, ← Real.exp_nat_mul, show ((2 : ℕ) : ℝ) * (Real.log (Spec.sfSq kappa (v i)) / 2) = Real.log (Spec.sfSq kappa (v i)) by push_cast; ring, hsq,
        Real.exp_log (hpos _ (hc1 i))]
    · rw [hev, sfExp hband hi]
      simp only [hmode]
      congr 3
      refine congrArg (fun t => 2 * t) (Finset.sum_congr rfl fun m _ => ?_)
      rw [← zetaT, ← pow_mul, mul_comm i m]

/-- C66: rejected calls do not touch the result. -/
theorem C66_rejects (deg over : ℕ) (kappa : ℤ) (poly result : Option (Buf ℂ)) (h : deg = 0 ∨ over = 0 ∨ poly = none ∨ result = none) :
    poly_specfact deg poly result over kappa = some (EC_INVALID_ARGUMENT, result) := by
  unfold poly_specfact
  rcases h with h | h | h | h
  · rw [if_pos h]
  · split_ifs
    · rfl
    · cases poly
      · rfl
      · cases result <;> rfl
  · subst h; split_ifs <;> rfl
  · subst h; split_ifs <;> cases poly <;> rfl

/-- C66: if only one coefficient `β` of the polynomial is not zero, the result is exact: the constant `sqrt(1 - kappa |β|²)` (or `|β|`). -/
theorem C66_monomial (deg over : ℕ) (hdeg : 1 ≤ deg) (hover : 1 ≤ over) (hsz : (deg + 1) * over ≤ 3 ^ 32) (kappa : ℤ) (hk : kappa = 0 ∨ kappa = 1 ∨ kappa = -1)
    (poly result : Buf ℂ) (j0 : ℕ) (hj0 : j0 ≤ deg) (β : ℂ) (hp : poly.Holds 0 (deg + 1) (fun j => if j = j0 then β else 0)) (hres : deg + 1 ≤ result.len)
    (hpos : 0 < Spec.sfSq kappa β) :
    ∃ r, poly_specfact deg (some poly) (some result) over kappa = some (SUCCESS, some r) ∧ r.len = result.len ∧
      ∀ j, r.rd j = if j ≤ deg then some (if j = deg then (Real.sqrt (Spec.sfSq kappa β) : ℂ) else 0) else result.rd j := by
  have hval : ∀ z : ℂ, ‖z‖ = 1 → Spec.sfSq kappa ((Spec.poly deg (fun j => if j = j0 then β else 0)).eval z) = Spec.sfSq kappa β := by
    intro z hz
    have : (Spec.poly deg (fun j => if j = j0 then β else 0)).eval z = β * z ^ (deg - j0) := by
      rw [spec_poly_eval]
      rw [Finset.sum_eq_single j0]
      · rw [if_pos rfl]
      · intro j _ hj; rw [if_neg hj, zero_mul]
      · intro h; exact absurd (mem_range.mpr (by omega)) h
    unfold Spec.sfSq
    rw [this, norm_mul, norm_pow, hz, one_pow, mul_one]
  obtain ⟨N, F, n1, n2, -, hF, hr, r4⟩ := C66_specfact deg over hdeg hover hsz kappa hk _ (fun z hz => by rw [hval z hz]; exact hpos)
  obtain ⟨r, r1, r2, r3⟩ := hr poly result hp hres
  have hN : 2 ≤ N := le_trans (by nlinarith) n1
  have hc1 : ∀ i : ℕ, ‖exp (2 * Real.pi * I * i / N)‖ = 1 := fun i => by
    rw [show 2 * (Real.pi : ℂ) * I * i / N = ((2 * Real.pi * i / N : ℝ) : ℂ) * I by push_cast; ring, norm_exp_ofReal_mul_I]
  have hm : ∀ k, k < N → Spec.sfMode N kappa (Spec.poly deg (fun j => if j = j0 then β else 0)) k = if k = 0 then N * ((Real.log (Spec.sfSq kappa β) / 2 : ℝ) : ℂ) else 0 := by
    intro k hk
    unfold Spec.sfMode
    have e : ∀ j ∈ range N, ((Real.log (Spec.sfSq kappa ((Spec.poly deg (fun j => if j = j0 then β else 0)).eval (exp (2 * Real.pi * I * j / N)))) / 2 : ℝ) : ℂ) *
        exp (-(2 * Real.pi * I * j * k / N)) = ((Real.log (Spec.sfSq kappa β) / 2 : ℝ) : ℂ) * (zeta N false ^ (k * j) * zeta N true ^ (j * 0)) := by
      intro j _
      rw [hval _ (hc1 j), zetaF', Nat.mul_zero, pow_zero, mul_one]
      congr 3
      push_cast
      ring
    have ho := zeta_orth (n := N) false hk (show 0 < N by omega)
    simp only [Bool.not_false] at ho
    rw [Finset.sum_congr rfl e, ← Finset.mul_sum, ho]
    split_ifs <;> ring
  have hev : ∀ i, i < N → F.eval (exp (2 * Real.pi * I * i / N)) = (Real.sqrt (Spec.sfSq kappa β) : ℂ) := by
    intro i hi
    rw [(r4 (fun k _ h0 hk => by rw [hm k hk, if_neg (by omega)]) i hi).2, hm 0 (by omega), if_pos rfl]
    have hNc : (N : ℂ) ≠ 0 := by exact_mod_cast (by omega : N ≠ 0)
    rw [Finset.sum_eq_zero (fun m hm' => by
      have := Finset.mem_Ico.mp hm'
      rw [hm m (by omega), if_neg (by omega), zero_mul]), mul_zero, add_zero, mul_div_cancel_left₀ _ hNc, ← ofReal_exp, Real.sqrt_eq_rpow, Real.rpow_def_of_pos hpos]
    congr 2
    ring
  have hFc : F = Polynomial.C (Real.sqrt (Spec.sfSq kappa β) : ℂ) := by
    refine Polynomial.eq_of_degrees_lt_of_eval_finset_eq ((range N).image fun i : ℕ => exp (2 * Real.pi * I * i / N)) ?_ ?_ ?_
    all_goals try
      rw [Finset.card_image_of_injOn (by
        intro i hi j hj hij
        have hi' := mem_range.mp hi
        have hj' := mem_range.mp hj
        simp only [← zetaT] at hij
        by_contra hne
        have key : ∀ a b, a < b → b < N → zeta N true ^ a ≠ zeta N true ^ b := by
          intro a b hab hb h
          have : zeta N true ^ (b - a) = 1 := by
            rw [pow_sub₀ _ (zeta_ne_zero N true) hab.le, h, mul_inv_cancel₀ (pow_ne_zero _ (zeta_ne_zero N true))]
          exact zeta_pow_ne_one true (by omega) (by omega) this
        rcases lt_or_gt_of_ne hne with h | h
        · exact key i j h hj' hij
        · exact key j i h hi' hij.symm), card_range]
    · exact hF
    · exact lt_of_le_of_lt Polynomial.degree_C_le (by exact_mod_cast (by omega : 0 < N))
    · intro x hx
      obtain ⟨i, hi, rfl⟩ := Finset.mem_image.mp hx
      rw [hev i (mem_range.mp hi), Polynomial.eval_C]
  refine ⟨r, r1, r2, fun j => ?_⟩
  rw [r3 j, hFc, Polynomial.coeff_C]
  by_cases hj : j ≤ deg
  · rw [if_pos hj, if_pos hj]
    by_cases h : j = deg
    · rw [if_pos h, if_pos (by omega)]
    · rw [if_neg h, if_neg (by omega)]
  · rw [if_neg hj, if_neg hj]

/-- C66 (finding): in general the modulus is wrong even at the sample points, because the Hilbert transform sets the coefficient `N/2-1` instead of `N/2` to zero. For a polynomial of degree one
without oversampling (`N = 2`; nothing is cut off), the returned polynomial `A` satisfies `|A(1)|⁴ = s(1)³/s(-1)` and `|A(-1)|⁴ = s(-1)³/s(1)` with `s = 1 - kappa |b|²`, so that `|A|² = s` at
the points 1 and -1 only if `s(1) = s(-1)`. -/
theorem C66_off_by_one (kappa : ℤ) (hk : kappa = 0 ∨ kappa = 1 ∨ kappa = -1) (poly result : Buf ℂ) (p : ℕ → ℂ) (hp : poly.Holds 0 2 p) (hres : 2 ≤ result.len)
    (hpos : ∀ z : ℂ, ‖z‖ = 1 → 0 < Spec.sfSq kappa ((Spec.poly 1 p).eval z)) :
    ∃ r y, poly_specfact 1 (some poly) (some result) 1 kappa = some (SUCCESS, some r) ∧ r.Holds 0 2 y ∧
      ‖(Spec.poly 1 y).eval 1‖ ^ 4 * Spec.sfSq kappa ((Spec.poly 1 p).eval (-1)) = Spec.sfSq kappa ((Spec.poly 1 p).eval 1) ^ 3 ∧
      ‖(Spec.poly 1 y).eval (-1)‖ ^ 4 * Spec.sfSq kappa ((Spec.poly 1 p).eval 1) = Spec.sfSq kappa ((Spec.poly 1 p).eval (-1)) ^ 3 := by
  have n1 : nextLen ((1 + 1) * 1) = some 2 := by
    obtain ⟨N, n1, n2, n3, n4, n5⟩ := nextLen_spec ((1 + 1) * 1) (by norm_num)
    have hN : N = 2 := le_antisymm (n5 2 le_rfl ⟨1, 0, 0, by norm_num⟩) n2
    rw [n1, hN]
  obtain ⟨pf, f1, f2⟩ := mkPlan_fwd 2 (by omega) (by norm_num)
  obtain ⟨pi, g1, g2⟩ := mkPlan_inv 2 (by omega) (by norm_num)
  set v : ℕ → ℂ := fun i => ∑ j ∈ range 2, p j * zeta 2 false ^ (j * i) with hv
  have hz1 : exp (2 * Real.pi * I * (1 : ℕ) / (2 : ℕ)) = -1 := by
    rw [← exp_pi_mul_I]; congr 1; push_cast; ring
  have hzT : zeta 2 true = -1 := by rw [← pow_one (zeta 2 true), zetaT, hz1]
  have hzF : zeta 2 false = -1 := by
    have := zeta_not 2 true
    rw [Bool.not_true] at this
    rw [this, hzT]; norm_num
  have hs0 : Spec.sfSq kappa (v 0) = Spec.sfSq kappa ((Spec.poly 1 p).eval 1) := by
    have := specfact_values (deg := 1) (N := 2) p 0
    unfold Spec.sfSq; rw [hv]; dsimp only; rw [this]; simp
  have hs1 : Spec.sfSq kappa (v 1) = Spec.sfSq kappa ((Spec.poly 1 p).eval (-1)) := by
    have := specfact_values (deg := 1) (N := 2) p 1
    rw [hz1] at this
    unfold Spec.sfSq; rw [hv]; dsimp only; rw [this]
  have p0 := hpos 1 (by simp)
  have p1 := hpos (-1) (by simp)
  obtain ⟨r, r1, r2, r3⟩ := sfMain_ok (deg := 1) (N := 2) (kappa := kappa) (result := result) hk hp le_rfl hres f2 g2 (v := v) (fun _ _ => rfl) (by
    intro i hi
    interval_cases i
    · rw [hs0]; exact p0
    · rw [hs1]; exact p1)
  set u : ℕ → ℝ := fun i => sfLg kappa (v i) with hu
  refine ⟨r, fun j => (starRingEnd ℂ) (sfC 2 (fun i => (u i : ℂ)) (1 - j)), ?_, ?_, ?_⟩
  · exact specfact_run (deg := 1) (over := 1) le_rfl le_rfl hk n1 f1 g1 r1
  · intro j hj
    rw [Nat.zero_add, r3 j, if_pos (by omega)]
  have hY : ∀ i, sfY 2 (fun i => (u i : ℂ)) i = ((u 0 : ℂ) - u 1) * (I / 2) * (-1) ^ i := by
    intro i
    unfold sfY sfHilbert
    simp [Finset.sum_range_succ, hzT, hzF]
    ring
  have e0 := sfC_eval (N := 2) (x := fun i => (u i : ℂ)) (i := 0) (by norm_num)
  have e1 := sfC_eval (N := 2) (x := fun i => (u i : ℂ)) (i := 1) (by norm_num)
  rw [hY] at e0 e1
  simp only [Finset.sum_range_succ, Finset.sum_range_zero, zero_add, Nat.mul_zero, pow_zero, pow_one, mul_one, hzF] at e0 e1
  have q0 : ‖exp ((u 0 : ℂ) - I * (((u 0 : ℂ) - u 1) * (I / 2)))‖ = Real.exp ((3 * u 0 - u 1) / 2) := by
    rw [norm_exp]
    congr 1
    simp
    ring
  have q1 : ‖exp ((u 1 : ℂ) - I * (((u 0 : ℂ) - u 1) * (I / 2) * -1))‖ = Real.exp ((3 * u 1 - u 0) / 2) := by
    rw [norm_exp]
    congr 1
    simp
    ring
  have a0 : ‖(Spec.poly 1 (fun j => (starRingEnd ℂ) (sfC 2 (fun i => (u i : ℂ)) (1 - j)))).eval 1‖ = Real.exp ((3 * u 0 - u 1) / 2) := by
    rw [← q0, ← e0, spec_poly_eval]
    simp only [Finset.sum_range_succ, Finset.sum_range_zero, zero_add, one_pow, mul_one, ← map_add, RCLike.norm_conj]
    rw [add_comm]
  have a1 : ‖(Spec.poly 1 (fun j => (starRingEnd ℂ) (sfC 2 (fun i => (u i : ℂ)) (1 - j)))).eval (-1)‖ = Real.exp ((3 * u 1 - u 0) / 2) := by
    rw [← q1, ← e1, spec_poly_eval]
    simp only [Finset.sum_range_succ, Finset.sum_range_zero, zero_add, Nat.sub_zero, Nat.sub_self, pow_one, pow_zero, mul_one]
    rw [← RCLike.norm_conj (_ + _ * _)]
    congr 1
    simp
    ring
  have l0 : Real.exp (2 * u 0) = Spec.sfSq kappa ((Spec.poly 1 p).eval 1) := by
    rw [← hs0, hu]; dsimp only; rw [sfLg, mul_div_cancel₀ _ (by norm_num), Real.exp_log (by rw [hs0]; exact p0)]
  have l1 : Real.exp (2 * u 1) = Spec.sfSq kappa ((Spec.poly 1 p).eval (-1)) := by
    rw [← hs1, hu]; dsimp only; rw [sfLg, mul_div_cancel₀ _ (by norm_num), Real.exp_log (by rw [hs1]; exact p1)]
  constructor
  · rw [a0, ← l0, ← l1, ← Real.exp_nat_mul, ← Real.exp_nat_mul, ← Real.exp_add]
    congr 1
    push_cast
    ring
  · rw [a1, ← l0, ← l1, ← Real.exp_nat_mul, ← Real.exp_nat_mul, ← Real.exp_add]
    congr 1
    push_cast
    ring

/-- The hypotheses of C66 are met: `b(z) = 3 z`, `kappa = -1`, oversampling 8; the factor is the constant `sqrt 10`. -/
example : ∃ r, poly_specfact 1 (some (Buf.ofList [3, 0])) (some (Buf.malloc 2)) 8 (-1) = some (SUCCESS, some r) ∧ r.rd 1 = some (Real.sqrt 10 : ℂ) ∧ r.rd 0 = some 0 := by
  have hs : Spec.sfSq (-1) (3 : ℂ) = 10 := by unfold Spec.sfSq; rw [if_neg (by norm_num)]; norm_num
  obtain ⟨r, h1, -, h3⟩ := C66_monomial 1 8 le_rfl (by norm_num) (by norm_num) (-1) (by norm_num) (Buf.ofList [3, 0]) (Buf.malloc 2) 0 (by norm_num) 3 (by
    intro i hi
    interval_cases i <;> simp [Buf.ofList, Buf.rd]) (by simp) (by rw [hs]; norm_num)
  exact ⟨r, h1, by rw [h3, hs]; simp, by rw [h3]; simp⟩

end FNFT

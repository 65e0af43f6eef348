import Verif.Proofs.MiscNum
import Mathlib.LinearAlgebra.Matrix.Notation
/-!
# Properties C18-C21 (numerical helpers)
-/
namespace FNFT
open Finset

/-! ## C18 normalisation -/

/-- `misc_normalize_vector`: returns `a`, scales every entry by `2^-a`, and the largest modulus of the
result is in `[1,2)`; a zero vector is left alone with `a = 0`. -/
theorem C18_normalize_vector (len : ℕ) (v : Buf ℂ) (x : ℕ → ℂ) (hv : v.Holds 0 len x) :
    ∃ (a : ℤ) (v' : Buf ℂ), misc_normalize_vector len v = some (a, v') ∧ v'.len = v.len ∧
      v'.Holds 0 len (fun i => (2 : ℂ) ^ (-a) * x i) ∧ (∀ j, len ≤ j → v'.rd j = v.rd j) ∧
      ((∀ i, i < len → x i = 0) → a = 0 ∧ v' = v) ∧
      ((∃ i, i < len ∧ x i ≠ 0) →
        (∃ i, i < len ∧ 1 ≤ ‖(2 : ℂ) ^ (-a) * x i‖) ∧ ∀ i, i < len → ‖(2 : ℂ) ^ (-a) * x i‖ < 2) := by
  obtain ⟨m, hm, h0, h1, h2⟩ := maxAbs_spec len v x hv
  by_cases hz : m = 0
  · have hall : ∀ i, i < len → x i = 0 := fun i hi => by
      have := h1 i hi; rw [hz] at this; exact norm_le_zero_iff.mp this
    refine ⟨0, v, ?_, rfl, ?_, fun _ _ => rfl, fun _ => ⟨rfl, rfl⟩, ?_⟩
    · simp [misc_normalize_vector, hm, hz]
    · simpa using hv
    · rintro ⟨i, hi, hne⟩; exact absurd (hall i hi) hne
  · have hpos : 0 < m := lt_of_le_of_ne h0 (Ne.symm hz)
    obtain ⟨i0, hi0, hi0m⟩ := h2.resolve_left hz
    have hb := floor_log_bounds hpos
    set a := ⌊Real.logb 2 m⌋ with ha
    obtain ⟨v', e1, e2, e3, e4⟩ := scaleBy_spec len ((2 : ℝ) ^ (-(a : ℝ))) v x hv
    have hs : (((2 : ℝ) ^ (-(a : ℝ)) : ℝ) : ℂ) = (2 : ℂ) ^ (-a) := by
      rw [← Int.cast_neg, Real.rpow_intCast]; push_cast; rfl
    have hn : ∀ i, ‖(2 : ℂ) ^ (-a) * x i‖ = ‖x i‖ * (2 : ℝ) ^ (-(a : ℝ)) := by
      intro i
      rw [norm_mul, ← hs, Complex.norm_real, Real.norm_of_nonneg (by positivity), mul_comm]
    refine ⟨a, v', ?_, e2, ?_, e4, ?_, ?_⟩
    · simp only [misc_normalize_vector, hm, Option.bind_eq_bind, Option.bind_some, if_neg hz,
        ← ha, e1]; rfl
    · intro i hi; rw [e3 i hi, hs]; exact congrArg some (mul_comm _ _)
    · intro hall; rw [hall i0 hi0] at hi0m; simp at hi0m; exact absurd hi0m.symm hz
    · intro _
      refine ⟨⟨i0, hi0, ?_⟩, fun i hi => ?_⟩
      · rw [hn, hi0m]; exact hb.1
      · rw [hn]; refine lt_of_le_of_lt ?_ hb.2
        exact mul_le_mul_of_nonneg_right (h1 i hi) (by positivity)

example : (Buf.ofFn 2 (fun i => if i = 0 then (5 : ℂ) else 0)).Holds 0 2 (fun i => if i = 0 then (5 : ℂ) else 0) ∧
    ∃ i, i < 2 ∧ (fun i => if i = 0 then (5 : ℂ) else 0) i ≠ 0 :=
  ⟨Buf.holds_ofFn _ _, 0, by norm_num, by norm_num⟩

/-! ## C19 dense matrix product -/

/-- A row-major `n × m` matrix stored in an array. -/
def Spec.Stores {n m : ℕ} (b : Buf ℂ) (A : Matrix (Fin n) (Fin m) ℂ) : Prop :=
  ∀ (i : Fin n) (j : Fin m), b.rd (i * m + j) = some (A i j)

/-- `misc_matrix_mult` computes the matrix product, for all sizes. -/
theorem C19_matrix_mult {n m p : ℕ} (A : Matrix (Fin n) (Fin m) ℂ) (B : Matrix (Fin m) (Fin p) ℂ)
    (bA bB bC : Buf ℂ) (hA : Spec.Stores bA A) (hB : Spec.Stores bB B) (hC : n * p ≤ bC.len) :
    ∃ bC', misc_matrix_mult n m p bA bB bC = some bC' ∧ Spec.Stores bC' (A * B) ∧
      bC'.len = bC.len ∧ ∀ l, n * p ≤ l → bC'.rd l = bC.rd l := by
  have split : ∀ {r c : ℕ} (b : Buf ℂ) (M : Matrix (Fin r) (Fin c) ℂ), Spec.Stores b M →
      b.Holds 0 (r * c) (fun l => (b.rd l).getD 0) := by
    intro r c b M h l hl
    have hc : 0 < c := by
      rcases Nat.eq_zero_or_pos c with h | h
      · subst h; simp at hl
      · exact h
    have h1 : l / c < r := Nat.div_lt_of_lt_mul (by rw [mul_comm]; exact hl)
    have := h ⟨l / c, h1⟩ ⟨l % c, Nat.mod_lt _ hc⟩
    simp only [Nat.div_add_mod'] at this
    rw [Nat.zero_add]
    simp [this]
  obtain ⟨C', e1, e2, e3, e4⟩ := matMult_spec (split bA A hA) (split bB B hB) hC
  refine ⟨C', e1, ?_, e2, e4⟩
  intro i j
  rw [e3 i j i.2 j.2, Matrix.mul_apply, Finset.sum_range]
  congr 1
  refine Finset.sum_congr rfl fun k _ => ?_
  rw [hA i k, hB k j]; rfl

example : Spec.Stores (Buf.ofFn 4 (fun i => (i : ℂ))) (!![0, 1; 2, 3] : Matrix (Fin 2) (Fin 2) ℂ) := by
  intro i j
  fin_cases i <;> fin_cases j <;> simp [Buf.rd, Buf.ofFn]

/-! ## C20 Hausdorff distance -/

/-- `misc_hausdorff_dist` of two nonempty point lists is the Hausdorff distance of the point sets. -/
theorem C20_hausdorff {nA nB : ℕ} (A B : Buf ℂ) (a b : ℕ → ℂ) (hA : A.Holds 0 nA a)
    (hB : B.Holds 0 nB b) (h1 : 0 < nA) (h2 : 0 < nB) :
    misc_hausdorff_dist nA A nB B =
      some ((Metric.hausdorffDist (a '' Set.Iio nA) (b '' Set.Iio nB) : ℝ) : EReal) := by
  set s := a '' Set.Iio nA with hs
  set t := b '' Set.Iio nB with ht
  have fs : s.Finite := (Set.finite_Iio nA).image a
  have ft : t.Finite := (Set.finite_Iio nB).image b
  have ns : s.Nonempty := ⟨a 0, 0, h1, rfl⟩
  have nt : t.Nonempty := ⟨b 0, 0, h2, rfl⟩
  have fin : Metric.hausdorffEDist s t ≠ ⊤ :=
    Metric.hausdorffEDist_ne_top_of_nonempty_of_bounded ns nt fs.isBounded ft.isBounded
  have fin' : Metric.hausdorffEDist t s ≠ ⊤ := by rw [Metric.hausdorffEDist_comm]; exact fin
  obtain ⟨M1, e1, f1, f2, f3⟩ := hausdorffOuter_spec (a := a) hA hB (-1)
  obtain ⟨M, g1, g2, g3, g4⟩ := hausdorffOuter_spec (a := b) hB hA M1
  rw [misc_hausdorff_dist, e1, Option.bind_eq_bind, Option.bind_some, g1]
  congr 1
  have key : ∀ {x : ℂ} {n : ℕ} {y : ℕ → ℂ} {d : EReal}, 0 < n → DistTo x n y d →
      ∃ j, j < n ∧ d = (dist x (y j) : ℝ) ∧ Metric.infDist x (y '' Set.Iio n) = dist x (y j) := by
    intro x n y d hn hd
    obtain ⟨j, hj, hd2⟩ := hd.2.resolve_left (by omega)
    refine ⟨j, hj, by rw [hd2, dist_eq_norm], ?_⟩
    apply le_antisymm (Metric.infDist_le_dist_of_mem (Set.mem_image_of_mem y (Set.mem_Iio.mpr hj)))
    refine (Metric.le_infDist ⟨y j, Set.mem_image_of_mem y (Set.mem_Iio.mpr hj)⟩).mpr ?_
    rintro _ ⟨k, hk, rfl⟩
    have := hd.1 k hk
    rw [hd2] at this
    rw [dist_eq_norm, dist_eq_norm]
    exact_mod_cast this
  -- upper bound of M
  have hle : M ≤ ((Metric.hausdorffDist s t : ℝ) : EReal) := by
    rcases g4 with rfl | ⟨i, hi, hd⟩
    · rcases f3 with rfl | ⟨i, hi, hd⟩
      · have : (-1 : EReal) ≤ 0 := by norm_num
        exact le_trans this (by exact_mod_cast Metric.hausdorffDist_nonneg)
      · obtain ⟨j, hj, rfl, h⟩ := key h2 hd
        rw [← h]
        exact_mod_cast Metric.infDist_le_hausdorffDist_of_mem (Set.mem_image_of_mem a (Set.mem_Iio.mpr hi)) fin
    · obtain ⟨j, hj, rfl, h⟩ := key h1 hd
      rw [← h, Metric.hausdorffDist_comm]
      exact_mod_cast Metric.infDist_le_hausdorffDist_of_mem (Set.mem_image_of_mem b (Set.mem_Iio.mpr hi)) fin'
  -- lower bound: M is a real number that bounds all distances
  obtain ⟨d0, hd0, hd0M⟩ := g3 0 h2
  obtain ⟨j0, _, hj0, _⟩ := key h1 hd0
  have hM0 : (0 : EReal) ≤ M := le_trans (by rw [hj0]; exact_mod_cast dist_nonneg) hd0M
  have hMtop : M ≠ ⊤ := fun h => by rw [h] at hle; exact absurd (top_le_iff.mp hle) (EReal.coe_ne_top _)
  have hMbot : M ≠ ⊥ := fun h => by rw [h] at hM0; simp at hM0
  lift M to ℝ using ⟨hMtop, hMbot⟩
  apply le_antisymm hle
  have : Metric.hausdorffDist s t ≤ M := by
    apply Metric.hausdorffDist_le_of_mem_dist (by exact_mod_cast hM0)
    · rintro _ ⟨i, hi, rfl⟩
      obtain ⟨d, hd, hdM⟩ := f2 i hi
      obtain ⟨j, hj, rfl, _⟩ := key h2 hd
      exact ⟨b j, ⟨j, hj, rfl⟩, by exact_mod_cast le_trans hdM g2⟩
    · rintro _ ⟨i, hi, rfl⟩
      obtain ⟨d, hd, hdM⟩ := g3 i hi
      obtain ⟨j, hj, rfl, _⟩ := key h1 hd
      exact ⟨a j, ⟨j, hj, rfl⟩, by exact_mod_cast hdM⟩
  exact_mod_cast this

/-- Two empty lists: -1. One empty list: infinity. -/
theorem C20_hausdorff_empty (A B : Buf ℂ) (n : ℕ) (b : ℕ → ℂ) (hB : B.Holds 0 n b) (hn : 0 < n) :
    misc_hausdorff_dist 0 A 0 B = some (-1) ∧ misc_hausdorff_dist 0 A n B = some ⊤ ∧
      misc_hausdorff_dist n B 0 A = some ⊤ := by
  have hA : A.Holds 0 0 b := fun i h => by omega
  have top : ∀ m, ∃ M, hausdorffOuter n B 0 A m = some M ∧ M = ⊤ := by
    intro m
    obtain ⟨M, e1, e2, e3, -⟩ := hausdorffOuter_spec hB hA m
    obtain ⟨d, hd, hd2⟩ := e3 0 hn
    obtain ⟨-, rfl⟩ := hd.2.resolve_right (by rintro ⟨j, hj, -⟩; omega)
    exact ⟨M, e1, top_le_iff.mp hd2⟩
  refine ⟨rfl, ?_, ?_⟩
  · obtain ⟨M, h1, rfl⟩ := top (-1)
    rw [misc_hausdorff_dist]; exact h1
  · obtain ⟨M, h1, rfl⟩ := top (-1)
    rw [misc_hausdorff_dist, h1]; rfl

example : (Buf.ofFn 3 (fun i => (i : ℂ))).Holds 0 3 (fun i => (i : ℂ)) := Buf.holds_ofFn _ _

/-! ## C21 Legendre polynomials -/

/-- `misc_legendre_poly(n, x)` is `P_n(x)`; Mathlib's `shiftedLegendre n` is `P_n(1-2t)` as a
polynomial in `t`. -/
theorem C21_legendre (n : ℕ) (x : ℝ) :
    misc_legendre_poly n x = (Polynomial.shiftedLegendre n).aeval ((1 - x) / 2) := by
  set y := (x - 1) / 2 with hy
  have hx : x = 1 + 2 * y := by rw [hy]; ring
  have e : (1 - x) / 2 = -y := by rw [hy]; ring
  rw [e, shiftedLegendre_eval]
  unfold misc_legendre_poly
  split_ifs with h0 h1
  · subst h0; simp [legP, legA]
  · subst h1
    have := congrArg Prod.fst (legendreLoop_eq y 2 0 le_rfl)
    rw [legendreLoop] at this
    rw [hx]; exact this
  · obtain ⟨m, rfl⟩ : ∃ m, n = m + 1 := ⟨n - 1, by omega⟩
    rw [hx, Nat.add_sub_cancel, legendreLoop_eq y (m + 2) m le_rfl]

/-- Rodrigues' formula: `n! P_n(1-2t)` is the `n`-th derivative of `t^n (1-t)^n`. -/
theorem C21_legendre_rodrigues (n : ℕ) (t : ℝ) :
    (n.factorial : ℝ) * misc_legendre_poly n (1 - 2 * t) =
      (Polynomial.derivative^[n] (Polynomial.X ^ n * (1 - (Polynomial.X : Polynomial ℤ)) ^ n)).aeval t := by
  rw [← Polynomial.factorial_mul_shiftedLegendre_eq, map_mul, map_natCast, C21_legendre]
  congr 3; ring

example : misc_legendre_poly 2 3 = 13 := by norm_num [misc_legendre_poly, legendreLoop]

end FNFT

import Verif.Model.MiscNum
import Mathlib.RingTheory.Polynomial.ShiftedLegendre
import Mathlib.Topology.MetricSpace.HausdorffDistance
import Mathlib.Algebra.BigOperators.Intervals
import Mathlib.Tactic.LinearCombination
import Mathlib.Tactic.FieldSimp
/-! Proofs about the numerical helpers. -/
namespace FNFT
open Finset

/-! ### Hausdorff distance -/

theorem hausdorffInner_spec (a : ℂ) (n : ℕ) (v : Buf ℂ) (b : ℕ → ℂ) (hv : v.Holds 0 n b) :
    ∃ d, hausdorffInner a n v = some d ∧ (∀ j, j < n → d ≤ (‖a - b j‖ : ℝ)) ∧
      ((n = 0 ∧ d = ⊤) ∨ ∃ j, j < n ∧ d = (‖a - b j‖ : ℝ)) := by
  apply forLoop_inv (fun k (d : EReal) => (∀ j, j < k → d ≤ (‖a - b j‖ : ℝ)) ∧
      ((k = 0 ∧ d = ⊤) ∨ ∃ j, j < k ∧ d = (‖a - b j‖ : ℝ)))
  · exact ⟨fun j h => by omega, Or.inl ⟨rfl, rfl⟩⟩
  · rintro i d hi ⟨h1, h2⟩
    have hr := hv i hi
    rw [Nat.zero_add] at hr
    simp only [hr, Option.bind_eq_bind, Option.bind_some]
    refine ⟨_, rfl, ?_, Or.inr ?_⟩
    · intro j hj
      split_ifs with hlt
      · rcases Nat.lt_succ_iff_lt_or_eq.mp hj with h | h
        · exact le_trans hlt.le (h1 j h)
        · rw [h]
      · rcases Nat.lt_succ_iff_lt_or_eq.mp hj with h | h
        · exact h1 j h
        · rw [h]; exact not_lt.mp hlt
    · split_ifs with hlt
      · exact ⟨i, by omega, rfl⟩
      · rcases h2 with ⟨-, rfl⟩ | ⟨j, hj, rfl⟩
        · exact absurd (EReal.coe_lt_top _) hlt
        · exact ⟨j, by omega, rfl⟩

/-- Distance of a point to a finite list, as left by the inner loop. -/
def DistTo (a : ℂ) (n : ℕ) (b : ℕ → ℂ) (d : EReal) : Prop :=
  (∀ j, j < n → d ≤ (‖a - b j‖ : ℝ)) ∧ ((n = 0 ∧ d = ⊤) ∨ ∃ j, j < n ∧ d = (‖a - b j‖ : ℝ))

theorem hausdorffOuter_spec {nA nB : ℕ} {A B : Buf ℂ} {a b : ℕ → ℂ} (hA : A.Holds 0 nA a)
    (hB : B.Holds 0 nB b) (m : EReal) :
    ∃ M, hausdorffOuter nA A nB B m = some M ∧ m ≤ M ∧
      (∀ i, i < nA → ∃ d, DistTo (a i) nB b d ∧ d ≤ M) ∧
      (M = m ∨ ∃ i, i < nA ∧ DistTo (a i) nB b M) := by
  apply forLoop_inv (fun k (M : EReal) => m ≤ M ∧
      (∀ i, i < k → ∃ d, DistTo (a i) nB b d ∧ d ≤ M) ∧
      (M = m ∨ ∃ i, i < k ∧ DistTo (a i) nB b M))
  · exact ⟨le_rfl, fun i h => by omega, Or.inl rfl⟩
  · rintro i M hi ⟨h1, h2, h3⟩
    have hr := hA i hi
    rw [Nat.zero_add] at hr
    obtain ⟨d, hd, hd2⟩ := hausdorffInner_spec (a i) nB B b hB
    have hd2 : DistTo (a i) nB b d := hd2
    simp only [hr, hd, Option.bind_eq_bind, Option.bind_some]
    refine ⟨_, rfl, ?_, ?_, ?_⟩
    · split_ifs with h
      · exact le_trans h1 h.le
      · exact h1
    · intro j hj
      rcases Nat.lt_succ_iff_lt_or_eq.mp hj with h | h
      · obtain ⟨e, he, he2⟩ := h2 j h
        refine ⟨e, he, le_trans he2 ?_⟩
        split_ifs with h
        · exact h.le
        · exact le_rfl
      · rw [h]; refine ⟨d, hd2, ?_⟩
        split_ifs with h
        · exact le_rfl
        · exact not_lt.mp h
    · split_ifs with h
      · exact Or.inr ⟨i, by omega, hd2⟩
      · rcases h3 with h3 | ⟨j, hj, h3⟩
        · exact Or.inl h3
        · exact Or.inr ⟨j, by omega, h3⟩

/-! ### matrix product -/

theorem matMult_inner {m p cn cp : ℕ} {A B : Buf ℂ} {a b : ℕ → ℂ} {N M : ℕ} (hA : A.Holds 0 N a)
    (hB : B.Holds 0 M b) (hN : cn * m + m ≤ N) (hM : ∀ cm, cm < m → cm * p + cp < M)
    (C : Buf ℂ) (hC : cn * p + cp < C.len) :
    ∃ C', forLoop m (fun cm C => do
        let c ← C.rd (cn * p + cp)
        let a ← A.rd (cn * m + cm)
        let b ← B.rd (cm * p + cp)
        C.wr (cn * p + cp) (c + a * b)) (C.set (cn * p + cp) 0) = some C' ∧ C'.len = C.len ∧
      C'.rd (cn * p + cp) = some (∑ k ∈ range m, a (cn * m + k) * b (k * p + cp)) ∧
      ∀ j, j ≠ cn * p + cp → C'.rd j = C.rd j := by
  apply forLoop_inv (fun k (C' : Buf ℂ) => C'.len = C.len ∧
      C'.rd (cn * p + cp) = some (∑ i ∈ range k, a (cn * m + i) * b (i * p + cp)) ∧
      ∀ j, j ≠ cn * p + cp → C'.rd j = C.rd j)
  · refine ⟨by simp, ?_, ?_⟩
    · rw [Buf.rd_set _ hC]; simp
    · intro j hj; rw [Buf.rd_set _ hC, if_neg hj]
  · rintro i C' hi ⟨h1, h2, h3⟩
    have ha := hA (cn * m + i) (by omega)
    have hb := hB (i * p + cp) (hM i hi)
    rw [Nat.zero_add] at ha hb
    simp only [h2, ha, hb, Option.bind_eq_bind, Option.bind_some]
    refine ⟨_, Buf.wr_eq _ (by omega), by simp [h1], ?_, ?_⟩
    · rw [Buf.rd_set _ (by omega), if_pos rfl, sum_range_succ]
    · intro j hj; rw [Buf.rd_set _ (by omega), if_neg hj]; exact h3 j hj

theorem matMult_spec {n m p : ℕ} {A B C : Buf ℂ} {a b : ℕ → ℂ} (hA : A.Holds 0 (n * m) a)
    (hB : B.Holds 0 (m * p) b) (hC : n * p ≤ C.len) :
    ∃ C', misc_matrix_mult n m p A B C = some C' ∧ C'.len = C.len ∧
      (∀ i j, i < n → j < p → C'.rd (i * p + j) =
        some (∑ k ∈ range m, a (i * m + k) * b (k * p + j))) ∧
      ∀ l, n * p ≤ l → C'.rd l = C.rd l := by
  apply forLoop_inv (fun cn (C' : Buf ℂ) => C'.len = C.len ∧
      (∀ i j, i < cn → j < p → C'.rd (i * p + j) =
        some (∑ k ∈ range m, a (i * m + k) * b (k * p + j))) ∧
      ∀ l, cn * p ≤ l → C'.rd l = C.rd l)
  · exact ⟨rfl, fun i j h => by omega, fun l _ => rfl⟩
  · rintro cn C1 hcn ⟨h1, h2, h3⟩
    have hnp : cn * p + p ≤ n * p := by
      calc cn * p + p = (cn + 1) * p := by ring
        _ ≤ n * p := Nat.mul_le_mul_right _ hcn
    have hnm : cn * m + m ≤ n * m := by
      calc cn * m + m = (cn + 1) * m := by ring
        _ ≤ n * m := Nat.mul_le_mul_right _ hcn
    have := forLoop_inv (n := p) (body := fun cp C => do
      let C ← C.wr (cn * p + cp) 0
      forLoop m (fun cm C => do
        let c ← C.rd (cn * p + cp)
        let a ← A.rd (cn * m + cm)
        let b ← B.rd (cm * p + cp)
        C.wr (cn * p + cp) (c + a * b)) C) (s := C1)
      (fun cp (C' : Buf ℂ) => C'.len = C.len ∧
        (∀ j, j < cp → C'.rd (cn * p + j) = some (∑ k ∈ range m, a (cn * m + k) * b (k * p + j))) ∧
        ∀ l, (l < cn * p ∨ cn * p + cp ≤ l) → C'.rd l = C1.rd l) ?_ ?_
    · obtain ⟨C', e1, e2, e3, e4⟩ := this
      refine ⟨C', e1, e2, ?_, ?_⟩
      · intro i j hi hj
        rcases Nat.lt_succ_iff_lt_or_eq.mp hi with h | h
        · rw [e4 _ (Or.inl ?_)]
          · exact h2 i j h hj
          · calc i * p + j < (i + 1) * p := by rw [add_mul]; omega
              _ ≤ cn * p := Nat.mul_le_mul_right _ h
        · rw [h]; exact e3 j hj
      · intro l hl
        rw [add_mul, one_mul] at hl
        rw [e4 l (Or.inr hl)]
        exact h3 l (by omega)
    · exact ⟨h1, fun j h => by omega, fun l _ => rfl⟩
    · rintro cp C2 hcp ⟨e1, e2, e3⟩
      obtain ⟨C3, f1, f2, f3, f4⟩ := matMult_inner (m := m) (p := p) (cn := cn) (cp := cp) hA hB hnm
        (fun cm hcm => by
          calc cm * p + cp < (cm + 1) * p := by rw [add_mul]; omega
            _ ≤ m * p := Nat.mul_le_mul_right _ hcm) C2 (by omega)
      refine ⟨C3, ?_, by omega, ?_, ?_⟩
      · simp only [Buf.wr_eq (0 : ℂ) (show cn * p + cp < C2.len by omega), Option.bind_eq_bind, Option.bind_some]
        exact f1
      · intro j hj
        rcases Nat.lt_succ_iff_lt_or_eq.mp hj with h | h
        · rw [f4 _ (by omega)]; exact e2 j h
        · rw [h]; exact f3
      · intro l hl
        rw [f4 l (by omega)]
        exact e3 l (by omega)

/-! ### Legendre polynomials -/

/-- `∏_{i<k} (x-i)(x+1+i)`. -/
noncomputable def legA (x : ℝ) (k : ℕ) : ℝ := ∏ i ∈ range k, (x - i) * (x + 1 + i)

theorem legA_succ (x : ℝ) (k : ℕ) : legA x (k + 1) = legA x k * ((x - k) * (x + 1 + k)) := by
  rw [legA, prod_range_succ]; rfl

theorem legA_shift (x : ℝ) (k : ℕ) :
    legA (x + 1) (k + 1) = legA x k * ((x + k + 1) * (x + k + 2)) := by
  induction k with
  | zero => rw [legA_succ]; simp only [legA, range_zero, prod_empty]; push_cast; ring
  | succ k ih =>
    rw [legA_succ, ih, legA_succ]; push_cast; ring

theorem legA_shift' (x : ℝ) (k : ℕ) :
    legA (x - 1) (k + 1) = legA x k * ((x - k - 1) * (x - k)) := by
  induction k with
  | zero => rw [legA_succ]; simp only [legA, range_zero, prod_empty]; push_cast; ring
  | succ k ih =>
    rw [legA_succ, ih, legA_succ]; push_cast; ring

/-- Three term recurrence of the coefficients. -/
theorem legA_rec (x : ℝ) (k : ℕ) :
    (x + 1) * legA (x + 1) (k + 1) = (2 * x + 1) * (legA x (k + 1) + 2 * (k + 1) ^ 2 * legA x k)
      - x * legA (x - 1) (k + 1) := by
  rw [legA_shift, legA_shift', legA_succ]; ring

theorem legA_nat (n k : ℕ) :
    legA n k / ((k.factorial : ℝ) ^ 2) = n.choose k * (n + k).choose n := by
  induction k with
  | zero => simp [legA]
  | succ k ih =>
    have hk : (k.factorial : ℝ) ≠ 0 := by exact_mod_cast k.factorial_ne_zero
    have hk1 : ((k : ℝ) + 1) ≠ 0 := by positivity
    have e1 : ((k + 1 : ℕ).factorial : ℝ) = (k + 1) * k.factorial := by
      rw [Nat.factorial_succ]; push_cast; ring
    have h1 : (n.choose (k + 1) : ℝ) * (k + 1) = n.choose k * (n - k) := by
      rcases Nat.lt_or_ge n k with h | h
      · rw [Nat.choose_eq_zero_of_lt h, Nat.choose_eq_zero_of_lt (by omega)]; simp
      · have := Nat.choose_succ_right_eq n k
        have h2 : ((n - k : ℕ) : ℝ) = n - k := by push_cast [h]; ring
        rw [← h2]; exact_mod_cast this
    have h2 : ((n + (k + 1)).choose n : ℝ) * (k + 1) = (n + k).choose n * (n + 1 + k) := by
      have := Nat.add_one_mul_choose_eq (n + k) k
      rw [show n + (k + 1) = (n + k).succ by rfl]
      have e3 : (n + k).succ.choose n = (n + k).succ.choose (k + 1) := by
        rw [← Nat.choose_symm_of_eq_add (show (n + k).succ = n + (k + 1) by omega)]
      have e4 : (n + k).choose n = (n + k).choose k := Nat.choose_symm_add
      rw [e3, e4]
      have h5 : (((n + k).succ * (n + k).choose k : ℕ) : ℝ) = (((n + k).succ.choose k.succ * k.succ : ℕ) : ℝ) := by
        exact_mod_cast this
      push_cast at h5
      linear_combination -h5
    rw [legA_succ, e1]
    have h3 : legA n k = (n.choose k * (n + k).choose n) * (k.factorial : ℝ) ^ 2 := by
      rw [← ih]; field_simp
    rw [h3]
    have e5 : (n.choose (k + 1) : ℝ) = n.choose k * (n - k) / (k + 1) := by
      rw [← h1]; field_simp
    have e6 : ((n + (k + 1)).choose n : ℝ) = (n + k).choose n * (n + 1 + k) / (k + 1) := by
      rw [← h2]; field_simp
    rw [e5, e6]; field_simp

/-- `P_n(1+2y)` as a power series in `y` (any cut-off above `n`). -/
noncomputable def legP (K : ℕ) (x y : ℝ) : ℝ :=
  ∑ k ∈ range K, legA x k / ((k.factorial : ℝ) ^ 2) * y ^ k

theorem legA_zero_of_lt {n k : ℕ} (h : n < k) : legA n k = 0 := by
  rw [legA, prod_eq_zero (mem_range.mpr h)]; simp

theorem legP_rec (K n : ℕ) (h : n + 3 ≤ K) (y : ℝ) :
    ((n : ℝ) + 2) * legP K (n + 2 : ℕ) y =
      (2 * ((n : ℝ) + 1) + 1) * (1 + 2 * y) * legP K (n + 1 : ℕ) y - ((n : ℝ) + 1) * legP K n y := by
  obtain ⟨L, rfl⟩ : ∃ L, K = L + 1 := ⟨K - 1, by omega⟩
  have hy : y * legP (L + 1) (n + 1 : ℕ) y =
      ∑ k ∈ range L, legA (n + 1 : ℕ) k / ((k.factorial : ℝ) ^ 2) * y ^ (k + 1) := by
    rw [legP, sum_range_succ, legA_zero_of_lt (show n + 1 < L by omega), zero_div, zero_mul, add_zero,
      mul_sum]
    exact sum_congr rfl fun k _ => by ring
  have e : (2 * ((n : ℝ) + 1) + 1) * (1 + 2 * y) * legP (L + 1) (n + 1 : ℕ) y =
      (2 * ((n : ℝ) + 1) + 1) * (legP (L + 1) (n + 1 : ℕ) y + 2 * (y * legP (L + 1) (n + 1 : ℕ) y)) := by
    ring
  rw [e, hy]
  simp only [legP]
  rw [sum_range_succ' _ L, sum_range_succ' _ L, sum_range_succ' _ L]
  simp only [legA, range_zero, prod_empty, Nat.factorial_zero, Nat.cast_one, one_pow, div_one,
    pow_zero, mul_one]
  have key : ∀ k, legA (n + 2 : ℕ) (k + 1) / (((k + 1).factorial : ℝ) ^ 2) * y ^ (k + 1) * ((n : ℝ) + 2) =
      (2 * ((n : ℝ) + 1) + 1) * (legA (n + 1 : ℕ) (k + 1) / (((k + 1).factorial : ℝ) ^ 2) * y ^ (k + 1) +
        2 * (legA (n + 1 : ℕ) k / ((k.factorial : ℝ) ^ 2) * y ^ (k + 1)))
      - ((n : ℝ) + 1) * (legA n (k + 1) / (((k + 1).factorial : ℝ) ^ 2) * y ^ (k + 1)) := by
    intro k
    have hk : (k.factorial : ℝ) ≠ 0 := by exact_mod_cast k.factorial_ne_zero
    have hk1 : ((k : ℝ) + 1) ≠ 0 := by positivity
    have e1 : ((k + 1 : ℕ).factorial : ℝ) = (k + 1) * k.factorial := by
      rw [Nat.factorial_succ]; push_cast; ring
    have hr := legA_rec ((n + 1 : ℕ) : ℝ) k
    have e2 : ((n + 1 : ℕ) : ℝ) - 1 = n := by push_cast; ring
    have e3 : ((n + 1 : ℕ) : ℝ) + 1 = (n + 2 : ℕ) := by push_cast; ring
    rw [e2, e3] at hr
    rw [e1]
    field_simp
    push_cast at hr ⊢
    linear_combination y ^ (k + 1) * hr
  have hs := sum_congr (rfl : range L = range L) fun k _ => key k
  rw [← sum_mul, sum_sub_distrib, ← mul_sum, ← mul_sum, sum_add_distrib, ← mul_sum] at hs
  simp only [legA] at hs
  linear_combination hs

theorem legendreLoop_eq (y : ℝ) (K : ℕ) : ∀ j, j + 2 ≤ K →
    legendreLoop (1 + 2 * y) j = (legP K (j + 1 : ℕ) y, legP K j y) := by
  have h0 : ∀ L, 1 ≤ L → legP L (0 : ℕ) y = 1 := by
    intro L hL
    obtain ⟨L, rfl⟩ : ∃ M, L = M + 1 := ⟨L - 1, by omega⟩
    rw [legP, sum_range_succ']
    rw [sum_eq_zero]
    · simp [legA]
    · intro k _; rw [legA_zero_of_lt (by omega)]; simp
  have h1 : ∀ L, 2 ≤ L → legP L (1 : ℕ) y = 1 + 2 * y := by
    intro L hL
    obtain ⟨L, rfl⟩ : ∃ M, L = M + 1 + 1 := ⟨L - 2, by omega⟩
    rw [legP, sum_range_succ', sum_range_succ', sum_eq_zero]
    · simp [legA]; ring
    · intro k _; rw [legA_zero_of_lt (by omega)]; simp
  intro j
  induction j with
  | zero => intro h; rw [legendreLoop]; simp only [Nat.zero_add]; rw [h0 K (by omega), h1 K (by omega)]
  | succ j ih =>
    intro h
    rw [legendreLoop, ih (by omega)]
    simp only
    have hr := legP_rec K j (by omega) y
    have hj : ((j : ℝ) + 2) ≠ 0 := by positivity
    rw [Prod.mk.injEq]
    refine ⟨?_, rfl⟩
    rw [show j + 1 + 1 = j + 2 by rfl]
    apply mul_left_cancel₀ hj
    rw [hr]
    field_simp
    ring

theorem shiftedLegendre_eval (n : ℕ) (y : ℝ) :
    (Polynomial.shiftedLegendre n).aeval (-y) = legP (n + 1) n y := by
  rw [Polynomial.shiftedLegendre, map_sum, legP]
  refine sum_congr rfl fun k _ => ?_
  rw [legA_nat]
  simp only [map_mul, map_pow, Polynomial.aeval_X, map_neg, map_one, map_natCast]
  rw [neg_pow y k]
  have : ((-1 : ℝ) ^ k) * (-1) ^ k = 1 := by rw [← mul_pow]; norm_num
  linear_combination ((n.choose k : ℝ) * ((n + k).choose n) * y ^ k) * this

theorem legP_cut (K n : ℕ) (h : n + 1 ≤ K) (y : ℝ) : legP K n y = legP (n + 1) n y := by
  obtain ⟨d, rfl⟩ := Nat.exists_eq_add_of_le h
  rw [legP, sum_range_add, legP, add_eq_left]
  refine sum_eq_zero fun k _ => ?_
  rw [legA_zero_of_lt (by omega)]; simp

/-! ### normalisation -/

theorem maxAbs_spec (len : ℕ) (v : Buf ℂ) (x : ℕ → ℂ) (hv : v.Holds 0 len x) :
    ∃ m, maxAbs len v = some m ∧ 0 ≤ m ∧ (∀ i, i < len → ‖x i‖ ≤ m) ∧
      (m = 0 ∨ ∃ i, i < len ∧ ‖x i‖ = m) := by
  apply forLoop_inv (fun k (m : ℝ) => 0 ≤ m ∧ (∀ i, i < k → ‖x i‖ ≤ m) ∧
      (m = 0 ∨ ∃ i, i < k ∧ ‖x i‖ = m))
  · exact ⟨le_rfl, fun i h => by omega, Or.inl rfl⟩
  · rintro i m hi ⟨h1, h2, h3⟩
    have hr := hv i hi
    rw [Nat.zero_add] at hr
    simp only [hr, Option.bind_eq_bind, Option.bind_some]
    refine ⟨_, rfl, ?_, ?_, ?_⟩
    · split_ifs <;> [positivity; exact h1]
    · intro j hj
      rcases Nat.lt_succ_iff_lt_or_eq.mp hj with h | h
      · refine le_trans (h2 j h) ?_
        split_ifs with h' <;> [exact h'.le; exact le_rfl]
      · rw [h]; split_ifs with h' <;> [exact le_rfl; exact not_lt.mp h']
    · split_ifs with h'
      · exact Or.inr ⟨i, by omega, rfl⟩
      · rcases h3 with h3 | ⟨j, hj, h3⟩
        · exact Or.inl h3
        · exact Or.inr ⟨j, by omega, h3⟩

theorem scaleBy_spec (len : ℕ) (scl : ℝ) (v : Buf ℂ) (x : ℕ → ℂ) (hv : v.Holds 0 len x) :
    ∃ v', scaleBy len scl v = some v' ∧ v'.len = v.len ∧ v'.Holds 0 len (fun i => x i * scl) ∧
      ∀ j, len ≤ j → v'.rd j = v.rd j := by
  have := forLoop_inv (n := len) (body := fun i v => do
    let z ← v.rd i
    v.wr i (z * (scl : ℂ))) (s := v)
    (fun k (v' : Buf ℂ) => v'.len = v.len ∧ (∀ j, j < k → v'.rd j = some (x j * scl)) ∧
      ∀ j, k ≤ j → v'.rd j = v.rd j) ?_ ?_
  · obtain ⟨v', h1, h2, h3, h4⟩ := this
    exact ⟨v', h1, h2, fun i hi => by rw [Nat.zero_add]; exact h3 i hi, h4⟩
  · exact ⟨rfl, fun j h => by omega, fun j _ => rfl⟩
  · rintro i v' hi ⟨h1, h2, h3⟩
    have hr := hv i hi
    rw [Nat.zero_add] at hr
    have hl := Buf.rd_lt hr
    simp only [h3 i le_rfl, hr, Option.bind_eq_bind, Option.bind_some]
    refine ⟨_, Buf.wr_eq _ (by omega), by simp [h1], ?_, ?_⟩
    · intro j hj
      rw [Buf.rd_set _ (by omega)]
      split_ifs with h
      · rw [h]
      · exact h2 j (by omega)
    · intro j hj
      rw [Buf.rd_set _ (by omega), if_neg (by omega)]; exact h3 j (by omega)

theorem floor_log_bounds {m : ℝ} (hm : 0 < m) :
    1 ≤ m * (2 : ℝ) ^ (-((⌊Real.logb 2 m⌋ : ℤ) : ℝ)) ∧ m * (2 : ℝ) ^ (-((⌊Real.logb 2 m⌋ : ℤ) : ℝ)) < 2 := by
  have h2 : m = 2 ^ Real.logb 2 m := (Real.rpow_logb (by norm_num) (by norm_num) hm).symm
  have e : m * (2 : ℝ) ^ (-((⌊Real.logb 2 m⌋ : ℤ) : ℝ)) = 2 ^ (Real.logb 2 m - ⌊Real.logb 2 m⌋) := by
    conv_lhs => rw [h2]
    rw [← Real.rpow_add (by norm_num), sub_eq_add_neg]
    rw [← h2]
  rw [e]
  constructor
  · exact Real.one_le_rpow (by norm_num) (by linarith [Int.floor_le (Real.logb 2 m)])
  · calc (2 : ℝ) ^ (Real.logb 2 m - ⌊Real.logb 2 m⌋) < 2 ^ (1 : ℝ) :=
          Real.rpow_lt_rpow_of_exponent_lt (by norm_num) (by linarith [Int.lt_floor_add_one (Real.logb 2 m)])
      _ = 2 := by simp

end FNFT

import Verif.Props.GridSearch
/-!
# C38: roots on the unit circle by grid search (general polynomials)
-/
namespace FNFT
open Complex

/-- Distance of neighbouring grid angles. -/
noncomputable def Spec.gridEps (PHI : ℝ × ℝ) (M : ℕ) : ℝ := (PHI.2 - PHI.1) / ((M : ℝ) - 1)

/-- Grid point number `i` on the unit circle. -/
noncomputable def Spec.unitPt (PHI : ℝ × ℝ) (M i : ℕ) : ℂ := exp (I * Spec.theta PHI M i)

/-- The point of ring `k` (0, 1, 2) at grid angle `j` at which the polynomial is evaluated: modulus `1/(1+(k-1)eps)`. -/
noncomputable def Spec.ringPt (PHI : ℝ × ℝ) (M k j : ℕ) : ℂ :=
  ((1 + ((k : ℝ) - 1) * Spec.gridEps PHI M : ℝ) : ℂ)⁻¹ * Spec.unitPt PHI M j

/-- The point of ring `k` at grid angle `j` that is used in the least squares fit: modulus `1-(k-1)eps`. -/
noncomputable def Spec.fitPt (PHI : ℝ × ℝ) (M k j : ℕ) : ℂ :=
  ((1 - ((k : ℝ) - 1) * Spec.gridEps PHI M : ℝ) : ℂ) * Spec.unitPt PHI M j

/-- `|p|` at grid point `i` is minimal among the nine grid points around it. -/
def Spec.gridMin (P : Polynomial ℂ) (PHI : ℝ × ℝ) (M i : ℕ) : Prop :=
  ∀ k < 3, ∀ a < 3, ‖P.eval (Spec.unitPt PHI M i)‖ ≤ ‖P.eval (Spec.ringPt PHI M k (i - 1 + a))‖

/-- The points `(a,k)` (angle `i-1+a`, ring `k`) used for the fit at grid point `i`: all but `(0,1)` for `i = 1`. -/
def Spec.fitSet (i : ℕ) : Finset (ℕ × ℕ) :=
  ((Finset.range 3) ×ˢ (Finset.range 3)).filter fun ak => ¬ (i - 1 + ak.1 = 0 ∧ ak.2 = 1)

/-- Slope of the linear fit at grid point `i`. -/
noncomputable def Spec.fitSlope (P : Polynomial ℂ) (PHI : ℝ × ℝ) (M i : ℕ) : ℂ :=
  (∑ ak ∈ Spec.fitSet i, (starRingEnd ℂ) (Spec.fitPt PHI M ak.2 (i - 1 + ak.1) - Spec.unitPt PHI M i) *
    (P.eval (Spec.ringPt PHI M ak.2 (i - 1 + ak.1)) - P.eval (Spec.unitPt PHI M i))) /
  ((∑ ak ∈ Spec.fitSet i, ‖Spec.fitPt PHI M ak.2 (i - 1 + ak.1) - Spec.unitPt PHI M i‖ ^ 2 : ℝ) : ℂ)

open Classical in
/-- What is reported for grid point `i`. -/
noncomputable def Spec.gridHit (P : Polynomial ℂ) (PHI : ℝ × ℝ) (M i : ℕ) : Option ℂ :=
  if Spec.gridMin P PHI M i then
    if Spec.fitSlope P PHI M i = 0 then
      if P.eval (Spec.unitPt PHI M i) = 0 then some (Spec.unitPt PHI M i) else none
    else
      if ‖P.eval (Spec.unitPt PHI M i) / Spec.fitSlope P PHI M i‖ ≤ Spec.gridEps PHI M then
        some (Spec.unitPt PHI M i - P.eval (Spec.unitPt PHI M i) / Spec.fitSlope P PHI M i)
      else none
  else none

/-- Everything that is reported: grid points `1, …, M-2` in this order. -/
noncomputable def Spec.gridHits (P : Polynomial ℂ) (PHI : ℝ × ℝ) (M : ℕ) : List ℂ :=
  (List.range (M - 2)).filterMap fun i => Spec.gridHit P PHI M (i + 1)

/-! ## Proofs -/

theorem gridTests_ok (vals : Buf ℂ) (t : ℝ) (f : ℕ → ℂ) : ∀ l : List ℕ, (∀ o ∈ l, vals.rd o = some (f o)) →
    ∃ b, gridTests vals t l = some b ∧ (b = false ↔ ∀ o ∈ l, t ≤ ‖f o‖) := by
  intro l
  induction l with
  | nil => intro _; exact ⟨false, rfl, by simp⟩
  | cons o os ih =>
    intro h
    obtain ⟨b, hb, hb'⟩ := ih fun x hx => h x (List.mem_cons_of_mem _ hx)
    unfold gridTests gridLarger
    simp only [h o (List.mem_cons_self ..), Option.bind_eq_bind, Option.bind_some, Option.pure_def]
    by_cases hc : t > ‖f o‖
    · refine ⟨true, by simp [hc], ?_⟩
      simp only [Bool.true_eq_false, false_iff]
      intro hh
      exact absurd (hh o (List.mem_cons_self ..)) (not_le.mpr hc)
    · refine ⟨b, by simp [hc, hb], ?_⟩
      rw [hb']
      simp [not_lt.mp hc]

theorem unitPt_eq (PHI : ℝ × ℝ) (M i : ℕ) : Spec.unitPt PHI M i = exp (I * (PHI.1 + i * Spec.gridEps PHI M)) := by
  unfold Spec.unitPt Spec.theta Spec.gridEps
  push_cast
  rfl

theorem gridFit_ok (P : Polynomial ℂ) (PHI : ℝ × ℝ) (M i : ℕ) (vals : Buf ℂ)
    (hv : ∀ k < 3, ∀ j < M, vals.rd (k * M + j) = some (P.eval (Spec.ringPt PHI M k j))) (h1 : 1 ≤ i) (h2 : i + 1 < M) :
    gridFit M PHI.1 (Spec.gridEps PHI M) vals (Spec.unitPt PHI M i) (P.eval (Spec.unitPt PHI M i)) i =
      some (∑ ak ∈ Spec.fitSet i, (starRingEnd ℂ) (Spec.fitPt PHI M ak.2 (i - 1 + ak.1) - Spec.unitPt PHI M i) *
          (P.eval (Spec.ringPt PHI M ak.2 (i - 1 + ak.1)) - P.eval (Spec.unitPt PHI M i)),
        ∑ ak ∈ Spec.fitSet i, ‖Spec.fitPt PHI M ak.2 (i - 1 + ak.1) - Spec.unitPt PHI M i‖ ^ 2) := by
  obtain ⟨T, hT⟩ : ∃ T : ℕ → ℕ → ℂ, T = fun a k => if i - 1 + a = 0 ∧ k = 1 then 0 else
    (starRingEnd ℂ) (Spec.fitPt PHI M k (i - 1 + a) - Spec.unitPt PHI M i) *
          (P.eval (Spec.ringPt PHI M k (i - 1 + a)) - P.eval (Spec.unitPt PHI M i)) := ⟨_, rfl⟩
  obtain ⟨N, hN⟩ : ∃ N : ℕ → ℕ → ℝ, N = fun a k => if i - 1 + a = 0 ∧ k = 1 then 0 else
    ‖Spec.fitPt PHI M k (i - 1 + a) - Spec.unitPt PHI M i‖ ^ 2 := ⟨_, rfl⟩
  have hterm : ∀ a < 3, ∀ k < 3, ∀ s : ℂ × ℝ, gridTerm M PHI.1 (Spec.gridEps PHI M) vals (Spec.unitPt PHI M i) (P.eval (Spec.unitPt PHI M i))
      (i - 1 + a) k s = some (s.1 + T a k, s.2 + N a k) := by
    intro a ha k hk s
    unfold gridTerm
    rw [hT, hN]
    dsimp only
    by_cases hc : i - 1 + a = 0 ∧ k = 1
    · rw [if_pos hc, if_pos hc, if_pos hc, add_zero, add_zero]
    · rw [if_neg hc, if_neg hc, if_neg hc, hv k hk _ (by omega)]
      unfold Spec.fitPt
      rw [unitPt_eq PHI M (i - 1 + a)]
      simp only [Option.bind_eq_bind, Option.bind_some, Option.pure_def, pow_two]
  have hinner : ∀ a < 3, ∀ s : ℂ × ℝ, forLoop 3 (fun k s => gridTerm M PHI.1 (Spec.gridEps PHI M) vals (Spec.unitPt PHI M i)
      (P.eval (Spec.unitPt PHI M i)) (i - 1 + a) k s) s = some (s.1 + ∑ k ∈ Finset.range 3, T a k, s.2 + ∑ k ∈ Finset.range 3, N a k) := by
    intro a ha s
    simp only [forLoop_succ, forLoop_zero, Option.bind_some, hterm a ha 0 (by omega), hterm a ha 1 (by omega), hterm a ha 2 (by omega)]
    simp only [Finset.sum_range_succ, Finset.sum_range_zero]
    simp only [zero_add, add_assoc]
  unfold gridFit
  simp only [forLoop_succ, forLoop_zero, Option.bind_some] at hinner ⊢
  simp only [hterm 0 (by omega) _ (by omega : (0:ℕ) < 3), hterm 0 (by omega) _ (by omega : (1:ℕ) < 3), hterm 0 (by omega) _ (by omega : (2:ℕ) < 3),
    hterm 1 (by omega) _ (by omega : (0:ℕ) < 3), hterm 1 (by omega) _ (by omega : (1:ℕ) < 3), hterm 1 (by omega) _ (by omega : (2:ℕ) < 3),
    hterm 2 (by omega) _ (by omega : (0:ℕ) < 3), hterm 2 (by omega) _ (by omega : (1:ℕ) < 3), hterm 2 (by omega) _ (by omega : (2:ℕ) < 3),
    Option.bind_some]
  congr 2
  · unfold Spec.fitSet
    rw [Finset.sum_filter, Finset.sum_product]
    simp only [ite_not]
    rw [hT]
    simp only [Finset.sum_range_succ, Finset.sum_range_zero]
    simp only [zero_add, add_assoc]
  · unfold Spec.fitSet
    rw [Finset.sum_filter, Finset.sum_product]
    simp only [ite_not]
    rw [hN]
    simp only [Finset.sum_range_succ, Finset.sum_range_zero]
    simp only [zero_add, add_assoc]

theorem unitPt_norm (PHI : ℝ × ℝ) (M i : ℕ) : ‖Spec.unitPt PHI M i‖ = 1 := by
  unfold Spec.unitPt
  rw [mul_comm]
  exact norm_exp_ofReal_mul_I _

/-- The denominator of the fit is not zero. -/
theorem fit_pos (PHI : ℝ × ℝ) (M i : ℕ) (he : 0 < Spec.gridEps PHI M) (h1 : 1 ≤ i) :
    0 < ∑ ak ∈ Spec.fitSet i, ‖Spec.fitPt PHI M ak.2 (i - 1 + ak.1) - Spec.unitPt PHI M i‖ ^ 2 := by
  have hmem : (1, 0) ∈ Spec.fitSet i := by
    unfold Spec.fitSet
    simp
  refine lt_of_lt_of_le ?_ (Finset.single_le_sum (f := fun ak : ℕ × ℕ => ‖Spec.fitPt PHI M ak.2 (i - 1 + ak.1) - Spec.unitPt PHI M i‖ ^ 2)
    (fun _ _ => by positivity) hmem)
  dsimp only
  rw [show i - 1 + 1 = i by omega]
  have : Spec.fitPt PHI M 0 i - Spec.unitPt PHI M i = (Spec.gridEps PHI M : ℂ) * Spec.unitPt PHI M i := by
    unfold Spec.fitPt
    push_cast
    ring
  rw [this, norm_mul, unitPt_norm, norm_real, Real.norm_of_nonneg he.le]
  positivity

theorem ringPt_one (PHI : ℝ × ℝ) (M j : ℕ) : Spec.ringPt PHI M 1 j = Spec.unitPt PHI M j := by
  unfold Spec.ringPt
  norm_num

open Classical in
theorem gridRoot_eq (eps : ℝ) (z0 y0 c : ℂ) : gridRoot eps z0 y0 c =
    if c = 0 then if y0 = 0 then some z0 else none
    else if ‖y0 / c‖ ≤ eps then some (z0 - y0 / c) else none := by
  unfold gridRoot
  by_cases hc : c = 0
  · rw [if_pos hc, if_pos hc]
    by_cases hy : y0 = 0
    · rw [if_neg (not_not.mpr hy), if_pos hy]
    · rw [if_pos hy, if_neg hy]
  · rw [if_neg hc, if_neg hc]
    dsimp only
    rw [sub_sub_cancel_left, norm_neg]
    by_cases h : ‖y0 / c‖ ≤ eps
    · rw [if_neg (not_lt.mpr h), if_pos h]
    · rw [if_pos (not_le.mp h), if_neg h]

/-- One iteration. -/
theorem gridBody_ok (P : Polynomial ℂ) (PHI : ℝ × ℝ) (M i : ℕ) (vals : Buf ℂ) (he : 0 < Spec.gridEps PHI M)
    (hv : ∀ k < 3, ∀ j < M, vals.rd (k * M + j) = some (P.eval (Spec.ringPt PHI M k j))) (h2 : i + 2 < M) (b : Buf ℂ) (n : ℕ) :
    gridBody M PHI.1 (Spec.gridEps PHI M) vals i ⟨SUCCESS, b, n⟩ = gridStore ⟨SUCCESS, b, n⟩ (Spec.gridHit P PHI M (i + 1)) := by
  have hy : vals.rd (M + (i + 1)) = some (P.eval (Spec.unitPt PHI M (i + 1))) := by
    have := hv 1 (by omega) (i + 1) (by omega)
    rwa [one_mul, ringPt_one] at this
  obtain ⟨f, hf⟩ : ∃ f : ℕ → ℂ, f = fun o => P.eval (Spec.ringPt PHI M (o / M) (o % M)) := ⟨_, rfl⟩
  have hfo : ∀ k < 3, ∀ j < M, f (k * M + j) = P.eval (Spec.ringPt PHI M k j) := by
    intro k _ j hj
    rw [hf]
    dsimp only
    rw [Nat.mul_comm k M, Nat.mul_add_div (by omega), Nat.div_eq_of_lt hj, Nat.mul_add_mod, Nat.mod_eq_of_lt hj, add_zero]
  have hvf : ∀ k < 3, ∀ j < M, vals.rd (k * M + j) = some (f (k * M + j)) := fun k hk j hj => by rw [hv k hk j hj, hfo k hk j hj]
  obtain ⟨t, ht, ht'⟩ := gridTests_ok vals ‖P.eval (Spec.unitPt PHI M (i + 1))‖ f
    [i + 1 - 1, i + 1, i + 1 + 1, M + (i + 1) - 1, M + (i + 1) + 1, 2 * M + (i + 1) - 1, 2 * M + (i + 1), 2 * M + (i + 1) + 1] (by
      have a0 := hvf 0 (by omega) i (by omega)
      have a1 := hvf 0 (by omega) (i + 1) (by omega)
      have a2 := hvf 0 (by omega) (i + 2) (by omega)
      have b0 := hvf 1 (by omega) i (by omega)
      have b2 := hvf 1 (by omega) (i + 2) (by omega)
      have c0 := hvf 2 (by omega) i (by omega)
      have c1 := hvf 2 (by omega) (i + 1) (by omega)
      have c2 := hvf 2 (by omega) (i + 2) (by omega)
      simp only [zero_mul, zero_add, one_mul] at a0 a1 a2 b0 b2
      intro o ho
      simp only [List.mem_cons, List.not_mem_nil, or_false] at ho
      rcases ho with rfl | rfl | rfl | rfl | rfl | rfl | rfl | rfl
      · exact a0
      · exact a1
      · exact a2
      · exact b0
      · exact b2
      · exact c0
      · exact c1
      · exact c2)
  have hmin : t = false ↔ Spec.gridMin P PHI M (i + 1) := by
    rw [ht']
    have a0 := hfo 0 (by omega) i (by omega)
    have a1 := hfo 0 (by omega) (i + 1) (by omega)
    have a2 := hfo 0 (by omega) (i + 2) (by omega)
    have b0 := hfo 1 (by omega) i (by omega)
    have b2 := hfo 1 (by omega) (i + 2) (by omega)
    have c0 := hfo 2 (by omega) i (by omega)
    have c1 := hfo 2 (by omega) (i + 1) (by omega)
    have c2 := hfo 2 (by omega) (i + 2) (by omega)
    simp only [zero_mul, zero_add, one_mul] at a0 a1 a2 b0 b2
    constructor
    · intro h
      have hh : ∀ o, o = i ∨ o = i + 1 ∨ o = i + 2 ∨ o = M + i ∨ o = M + (i + 2) ∨ o = 2 * M + i ∨ o = 2 * M + (i + 1) ∨ o = 2 * M + (i + 2) →
          ‖P.eval (Spec.unitPt PHI M (i + 1))‖ ≤ ‖f o‖ := by
        intro o ho
        apply h
        simp only [List.mem_cons, List.not_mem_nil, or_false]
        omega
      intro k hk a ha
      rw [Nat.add_sub_cancel]
      interval_cases k <;> interval_cases a
      · rw [add_zero, ← a0]; exact hh _ (by omega)
      · rw [← a1]; exact hh _ (by omega)
      · rw [← a2]; exact hh _ (by omega)
      · rw [add_zero, ← b0]; exact hh _ (by omega)
      · rw [ringPt_one]
      · rw [← b2]; exact hh _ (by omega)
      · rw [add_zero, ← c0]; exact hh _ (by omega)
      · rw [← c1]; exact hh _ (by omega)
      · rw [← c2]; exact hh _ (by omega)
    · intro h
      have h' : ∀ k < 3, ∀ a < 3, ‖P.eval (Spec.unitPt PHI M (i + 1))‖ ≤ ‖P.eval (Spec.ringPt PHI M k (i + a))‖ := h
      intro o ho
      simp only [List.mem_cons, List.not_mem_nil, or_false] at ho
      rcases ho with ho | rfl | rfl | rfl | rfl | rfl | rfl | rfl
      · rw [ho, show i + 1 - 1 = i by omega, a0]; exact h' 0 (by omega) 0 (by omega)
      · rw [a1]; exact h' 0 (by omega) 1 (by omega)
      · rw [a2]; exact h' 0 (by omega) 2 (by omega)
      · rw [show M + (i + 1) - 1 = M + i by omega, b0]; exact h' 1 (by omega) 0 (by omega)
      · rw [show M + (i + 1) + 1 = M + (i + 2) by omega, b2]; exact h' 1 (by omega) 2 (by omega)
      · rw [show 2 * M + (i + 1) - 1 = 2 * M + i by omega, c0]; exact h' 2 (by omega) 0 (by omega)
      · rw [c1]; exact h' 2 (by omega) 1 (by omega)
      · rw [show 2 * M + (i + 1) + 1 = 2 * M + (i + 2) by omega, c2]; exact h' 2 (by omega) 2 (by omega)
  unfold gridBody
  rw [if_neg (by simp)]
  simp only [hy, Option.bind_eq_bind, Option.bind_some, ht]
  cases t with
  | true =>
    rw [if_pos rfl]
    unfold Spec.gridHit
    rw [if_neg (fun hh => by have := hmin.mpr hh; cases this)]
    rfl
  | false =>
    rw [if_neg (by simp), ← unitPt_eq, gridFit_ok P PHI M (i + 1) vals hv (by omega) (by omega), Option.bind_some]
    rw [if_neg (fit_pos PHI M (i + 1) he (by omega)).ne']
    congr 1
    unfold Spec.gridHit
    rw [if_pos (hmin.mp rfl)]
    exact gridRoot_eq _ _ _ _

/-- Least squares with one unknown. -/
theorem lsq_min {ι : Type*} (S : Finset ι) (d y : ι → ℂ) (hpos : 0 < ∑ k ∈ S, ‖d k‖ ^ 2) (c c0 : ℂ)
    (hc : c0 = (∑ k ∈ S, (starRingEnd ℂ) (d k) * y k) / ((∑ k ∈ S, ‖d k‖ ^ 2 : ℝ) : ℂ)) :
    ∑ k ∈ S, ‖y k - c0 * d k‖ ^ 2 ≤ ∑ k ∈ S, ‖y k - c * d k‖ ^ 2 := by
  have horth : ∑ k ∈ S, (starRingEnd ℂ) (d k) * (y k - c0 * d k) = 0 := by
    have h1 : ∑ k ∈ S, (starRingEnd ℂ) (d k) * (y k - c0 * d k) =
        ∑ k ∈ S, (starRingEnd ℂ) (d k) * y k - c0 * ((∑ k ∈ S, ‖d k‖ ^ 2 : ℝ) : ℂ) := by
      rw [ofReal_sum, Finset.mul_sum, ← Finset.sum_sub_distrib]
      refine Finset.sum_congr rfl fun k _ => ?_
      have := conj_mul' (d k)
      push_cast
      linear_combination (-c0) * this
    rw [h1, hc, div_mul_cancel₀ _ (by exact_mod_cast hpos.ne'), sub_self]
  have hexp : ∀ k, ‖y k - c * d k‖ ^ 2 = ‖y k - c0 * d k‖ ^ 2 + ‖c0 - c‖ ^ 2 * ‖d k‖ ^ 2 +
      2 * ((starRingEnd ℂ) (c0 - c) * ((starRingEnd ℂ) (d k) * (y k - c0 * d k))).re := by
    intro k
    have e : y k - c * d k = (y k - c0 * d k) + (c0 - c) * d k := by ring
    have hn : ∀ z : ℂ, ‖z‖ ^ 2 = z.re * z.re + z.im * z.im := fun z => by rw [← normSq_eq_norm_sq, normSq_apply]
    rw [e]
    generalize y k - c0 * d k = u
    generalize c0 - c = w
    simp only [hn, add_re, add_im, mul_re, mul_im, conj_re, conj_im]
    ring
  simp only [hexp, Finset.sum_add_distrib]
  have h0 : ∑ k ∈ S, 2 * ((starRingEnd ℂ) (c0 - c) * ((starRingEnd ℂ) (d k) * (y k - c0 * d k))).re = 0 := by
    rw [← Finset.mul_sum, ← re_sum, ← Finset.mul_sum, horth]
    simp
  rw [h0]
  have : 0 ≤ ∑ k ∈ S, ‖c0 - c‖ ^ 2 * ‖d k‖ ^ 2 := Finset.sum_nonneg fun k _ => by positivity
  linarith

/-- The evaluation on the three rings. -/
theorem gridRings_ok (deg M : ℕ) (p : Buf ℂ) (c : ℕ → ℂ) (PHI : ℝ × ℝ) (hp : p.Holds 0 (deg + 1) c) (hM : 2 ≤ M)
    (he : 0 < Spec.gridEps PHI M) (hne : Spec.gridEps PHI M ≠ 1) (hsize : deg + M < 3 ^ 32) :
    ∃ v, forLoop 3 (gridRing deg p M PHI.1 (Spec.gridEps PHI M)) (SUCCESS, Buf.malloc (3 * M)) = some (SUCCESS, v) ∧
      ∀ k < 3, ∀ j < M, v.rd (k * M + j) = some ((Spec.poly deg c).eval (Spec.ringPt PHI M k j)) := by
  have key := forLoop_inv (n := 3) (body := gridRing deg p M PHI.1 (Spec.gridEps PHI M)) (s := (SUCCESS, (Buf.malloc (3 * M) : Buf ℂ)))
    (fun n s => s.1 = SUCCESS ∧ s.2.len = 3 * M ∧ ∀ k < n, ∀ j < M, s.2.rd (k * M + j) = some ((Spec.poly deg c).eval (Spec.ringPt PHI M k j)))
    ⟨rfl, rfl, fun k hk => absurd hk (by omega)⟩ (by
    rintro k ⟨rc, v⟩ hk ⟨h1, h2, h3⟩
    dsimp only at h1 h2 h3
    have hA : ((1 + ((k : ℝ) - 1) * Spec.gridEps PHI M : ℝ) : ℂ) ≠ 0 := by
      rw [ne_eq, ofReal_eq_zero]
      interval_cases k
      · intro h; apply hne; push_cast at h; linarith
      · norm_num
      · push_cast; linarith
    have hkM : k * M + M ≤ 3 * M := by nlinarith
    obtain ⟨v', e1, l1, r1, -⟩ := C13_chirpz deg M p ⟨v.len - k * M, fun i => v.cell (k * M + i)⟩ c
      (((1 + ((k : ℝ) - 1) * Spec.gridEps PHI M : ℝ) : ℂ) * exp (-I * PHI.1)) (exp (I * Spec.gridEps PHI M)) hp (by omega)
      (by dsimp only; omega) (mul_ne_zero hA (exp_ne_zero _)) (exp_ne_zero _) hsize
    refine ⟨(SUCCESS, ⟨v.len, fun i => if i < k * M then v.cell i else v'.cell (i - k * M)⟩), ?_, rfl, h2, ?_⟩
    · unfold gridRing
      rw [if_neg (by simpa using h1)]
      dsimp only
      rw [e1]
      rfl
    · intro k' hk' j hj
      have hlt : k' * M + j < 3 * M := by
        have : k' + 1 ≤ 3 := by omega
        nlinarith
      by_cases hkk : k' < k
      · have : k' * M + j < k * M := by nlinarith
        have h4 := h3 k' hkk j hj
        unfold Buf.rd at h4 ⊢
        dsimp only
        rw [if_pos this]
        exact h4
      · have hkk' : k' = k := by omega
        subst hkk'
        have h4 := r1 j hj
        rw [Nat.zero_add] at h4
        unfold Buf.rd at h4 ⊢
        dsimp only
        rw [if_pos (by omega), if_neg (by omega), show k' * M + j - k' * M = j by omega]
        rw [if_pos (by rw [l1]; dsimp only; omega)] at h4
        rw [h4]
        congr 1
        dsimp only
        congr 1
        unfold Spec.ringPt
        rw [unitPt_eq, mul_inv, mul_assoc, ← exp_neg, ← exp_nat_mul, ← exp_add]
        congr 2
        ring)
  obtain ⟨⟨rc, v⟩, hs, h1, -, h3⟩ := key
  dsimp only at h1 h3
  subst h1
  exact ⟨v, hs, h3⟩

/-- C38: for every polynomial, `poly_roots_fftgridsearch` succeeds, stores the list `Spec.gridHits` of roots of the linear fits at the
beginning of `roots` and its length in `*M_ptr`; nothing outside of the first `M-2` entries is written. -/
theorem C38_gridsearch (deg M : ℕ) (p roots : Buf ℂ) (c : ℕ → ℂ) (PHI : ℝ × ℝ) (hp : p.Holds 0 (deg + 1) c) (hdeg : 2 ≤ deg)
    (hM : 2 ≤ M) (hPHI : PHI.1 < PHI.2) (hne : Spec.gridEps PHI M ≠ 1) (hr : M ≤ roots.len) (hsize : deg + M < 3 ^ 32) :
    ∃ b, poly_roots_fftgridsearch deg (some p) (some M) (some PHI) (some roots) =
        some ⟨SUCCESS, some (Spec.gridHits (Spec.poly deg c) PHI M).length, some b⟩ ∧
      b.HoldsList (Spec.gridHits (Spec.poly deg c) PHI M) ∧ b.len = roots.len ∧ ∀ j, M - 2 ≤ j → b.rd j = roots.rd j := by
  have hM1 : (0 : ℝ) < (M : ℝ) - 1 := by
    have : (2 : ℝ) ≤ M := by exact_mod_cast hM
    linarith
  have he : 0 < Spec.gridEps PHI M := div_pos (by linarith) hM1
  obtain ⟨v, ev, hv⟩ := gridRings_ok deg M p c PHI hp hM he hne hsize
  have key := forLoop_inv (n := M - 2) (body := gridBody M PHI.1 (Spec.gridEps PHI M) v) (s := ⟨SUCCESS, roots, 0⟩)
    (fun n s => s.ret = SUCCESS ∧ s.roots.len = roots.len ∧
      s.n = ((List.range n).filterMap fun i => Spec.gridHit (Spec.poly deg c) PHI M (i + 1)).length ∧ s.n ≤ n ∧
      s.roots.HoldsList ((List.range n).filterMap fun i => Spec.gridHit (Spec.poly deg c) PHI M (i + 1)) ∧
      ∀ j, n ≤ j → s.roots.rd j = roots.rd j)
    ⟨rfl, rfl, rfl, le_rfl, fun i hi => by simp at hi, fun _ _ => rfl⟩ (by
    rintro n ⟨rc, b, m⟩ hn ⟨h1, h2, h3, h4, h5, h6⟩
    dsimp only at h1 h2 h3 h4 h5 h6
    subst h1
    rw [gridBody_ok (Spec.poly deg c) PHI M n v he hv (by omega)]
    rw [List.range_succ, List.filterMap_append]
    cases hh : Spec.gridHit (Spec.poly deg c) PHI M (n + 1) with
    | none =>
      have e0 : List.filterMap (fun i => Spec.gridHit (Spec.poly deg c) PHI M (i + 1)) [n] = [] := by simp [hh]
      rw [e0, List.append_nil]
      exact ⟨_, rfl, rfl, h2, h3, by dsimp only; omega, h5, fun j hj => h6 j (by omega)⟩
    | some z =>
      have e0 : List.filterMap (fun i => Spec.gridHit (Spec.poly deg c) PHI M (i + 1)) [n] = [z] := by simp [hh]
      rw [e0]
      obtain ⟨b', hb', hl, -, -⟩ := Buf.wr_spec (b := b) (i := m) z (by omega)
      refine ⟨⟨SUCCESS, b', m + 1⟩, ?_, rfl, by dsimp only; rw [hl, h2], ?_, by dsimp only; omega, ?_, ?_⟩
      · unfold gridStore
        simp only [hb', Option.bind_eq_bind, Option.bind_some, Option.pure_def]
      · rw [List.length_append, ← h3]; rfl
      · refine holdsList_append_singleton h5 ?_
        rw [← h3]
        exact hb'
      · intro j hj
        show b'.rd j = _
        rw [Buf.wr_rd hb', if_neg (by omega)]
        exact h6 j (by omega))
  obtain ⟨⟨rc, b, m⟩, hs, h1, h2, h3, -, h5, h6⟩ := key
  dsimp only at h1 h2 h3 h5 h6
  subst h1
  refine ⟨b, ?_, h5, h2, h6⟩
  unfold poly_roots_fftgridsearch
  dsimp only
  rw [if_neg (by push Not; exact ⟨by omega, by omega, hPHI⟩), show (PHI.2 - PHI.1) / ((M : ℝ) - 1) = Spec.gridEps PHI M from rfl, ev]
  simp only [Option.bind_eq_bind, Option.bind_some]
  rw [if_neg (by simp), hs, Option.bind_some, if_pos rfl, h3]
  rfl

/-- C38: at most `M-2` values are reported. -/
theorem C38_count (P : Polynomial ℂ) (PHI : ℝ × ℝ) (M : ℕ) : (Spec.gridHits P PHI M).length ≤ M - 2 := by
  unfold Spec.gridHits
  refine (List.length_filterMap_le _ _).trans ?_
  simp

/-- C38: every reported value is within one grid step of an interior grid point on the unit circle at which `|p|` is minimal among the
nine grid points around it. -/
theorem C38_near (P : Polynomial ℂ) (PHI : ℝ × ℝ) (M : ℕ) (hM : 2 ≤ M) (hPHI : PHI.1 < PHI.2) (z : ℂ) (hz : z ∈ Spec.gridHits P PHI M) :
    ∃ i, 1 ≤ i ∧ i + 1 < M ∧ Spec.gridMin P PHI M i ∧ ‖z - Spec.unitPt PHI M i‖ ≤ Spec.gridEps PHI M := by
  unfold Spec.gridHits at hz
  obtain ⟨i, hi, h⟩ := List.mem_filterMap.mp hz
  rw [List.mem_range] at hi
  have hM1 : (0 : ℝ) < (M : ℝ) - 1 := by
    have : (2 : ℝ) ≤ M := by exact_mod_cast hM
    linarith
  have he : 0 < Spec.gridEps PHI M := div_pos (by linarith) hM1
  unfold Spec.gridHit at h
  split_ifs at h with h1 h2 h3 h4
  · cases h
    exact ⟨i + 1, by omega, by omega, h1, by simpa using he.le⟩
  · cases h
    refine ⟨i + 1, by omega, by omega, h1, ?_⟩
    rw [sub_sub_cancel_left, norm_neg]
    exact h4

/-- C38: a root that is an interior grid point is never missed. -/
theorem C38_exact (P : Polynomial ℂ) (PHI : ℝ × ℝ) (M : ℕ) (hPHI : PHI.1 < PHI.2) (i : ℕ) (h1 : 1 ≤ i) (h2 : i + 1 < M)
    (h : P.eval (Spec.unitPt PHI M i) = 0) : Spec.unitPt PHI M i ∈ Spec.gridHits P PHI M := by
  unfold Spec.gridHits
  refine List.mem_filterMap.mpr ⟨i - 1, List.mem_range.mpr (by omega), ?_⟩
  rw [show i - 1 + 1 = i by omega]
  have hM1 : (0 : ℝ) < (M : ℝ) - 1 := by
    have : (2 : ℝ) ≤ M := by exact_mod_cast (by omega : 2 ≤ M)
    linarith
  have he : 0 < Spec.gridEps PHI M := div_pos (by linarith) hM1
  unfold Spec.gridHit
  have hmin : Spec.gridMin P PHI M i := fun k _ a _ => by rw [h, norm_zero]; exact norm_nonneg _
  rw [if_pos hmin, h]
  simp [he.le]

/-- C38: the slope is that of the least squares fit `p(z) ≈ p(z_i) + c (z - z_i)`. -/
theorem C38_least_squares (P : Polynomial ℂ) (PHI : ℝ × ℝ) (M i : ℕ) (hM : 2 ≤ M) (hPHI : PHI.1 < PHI.2) (h1 : 1 ≤ i) (c : ℂ) :
    ∑ ak ∈ Spec.fitSet i, ‖P.eval (Spec.ringPt PHI M ak.2 (i - 1 + ak.1)) - P.eval (Spec.unitPt PHI M i) -
        Spec.fitSlope P PHI M i * (Spec.fitPt PHI M ak.2 (i - 1 + ak.1) - Spec.unitPt PHI M i)‖ ^ 2 ≤
      ∑ ak ∈ Spec.fitSet i, ‖P.eval (Spec.ringPt PHI M ak.2 (i - 1 + ak.1)) - P.eval (Spec.unitPt PHI M i) -
        c * (Spec.fitPt PHI M ak.2 (i - 1 + ak.1) - Spec.unitPt PHI M i)‖ ^ 2 := by
  have hM1 : (0 : ℝ) < (M : ℝ) - 1 := by
    have : (2 : ℝ) ≤ M := by exact_mod_cast hM
    linarith
  have he : 0 < Spec.gridEps PHI M := div_pos (by linarith) hM1
  have hpos := fit_pos PHI M i he h1
  exact lsq_min _ _ _ hpos c _ rfl

/-- C38: calls with invalid arguments are rejected and change nothing. -/
theorem C38_invalid (deg : ℕ) (p roots : Option (Buf ℂ)) (M : Option ℕ) (PHI : Option (ℝ × ℝ))
    (h : deg < 2 ∨ p = none ∨ M = none ∨ (∃ m, M = some m ∧ m < 2) ∨ PHI = none ∨ (∃ P, PHI = some P ∧ P.2 ≤ P.1) ∨ roots = none) :
    poly_roots_fftgridsearch deg p M PHI roots = some ⟨EC_INVALID_ARGUMENT, M, roots⟩ := by
  unfold poly_roots_fftgridsearch
  rcases p with _ | p <;> rcases M with _ | M <;> rcases PHI with _ | PHI <;> rcases roots with _ | roots <;> try rfl
  dsimp only
  rw [if_pos]
  rcases h with h | h | h | ⟨m, h1, h2⟩ | h | ⟨P, h1, h2⟩ | h
  · exact Or.inl h
  · cases h
  · cases h
  · cases h1; exact Or.inr (Or.inl h2)
  · cases h
  · cases h1; exact Or.inr (Or.inr (not_lt.mpr h2))
  · cases h

/-- The hypotheses are met, with a root at an interior grid point: `z^2 - 1` on `[-1,1]` with five points. -/
example : (Buf.ofFn 3 (fun j => if j = 0 then 1 else if j = 2 then -1 else (0 : ℂ))).Holds 0 (2 + 1)
      (fun j => if j = 0 then 1 else if j = 2 then -1 else 0) ∧ Spec.gridEps (-1, 1) 5 ≠ 1 ∧
    (Spec.poly 2 (fun j => if j = 0 then 1 else if j = 2 then -1 else 0)).eval (Spec.unitPt (-1, 1) 5 2) = 0 := by
  refine ⟨Buf.holds_ofFn _ _, by unfold Spec.gridEps; norm_num, ?_⟩
  have : Spec.unitPt (-1, 1) 5 2 = 1 := by
    unfold Spec.unitPt Spec.theta
    norm_num
  rw [this]
  simp [Spec.poly, Finset.sum_range_succ]

end FNFT

import Verif.Proofs.PolyTwo
import Verif.Proofs.PolyRescale
import Verif.Props.MiscNum
import Verif.Props.Misc
import Mathlib.Algebra.Polynomial.Reverse
import Mathlib.Data.Matrix.Mul
/-! `poly_fmult`: product of a list of polynomials. -/
namespace FNFT
open Finset Kiss Polynomial

/-- Ordered product `Q 0 * Q 1 * … * Q (n-1)`. -/
def prodL {A : Type*} [Monoid A] (n : ℕ) (Q : ℕ → A) : A := ((List.range n).map Q).prod

section
variable {A : Type*}

theorem prodL_succ [Monoid A] (n : ℕ) (Q : ℕ → A) : prodL (n + 1) Q = prodL n Q * Q n := by
  simp [prodL, List.range_succ]

@[simp] theorem prodL_zero [Monoid A] (Q : ℕ → A) : prodL 0 Q = 1 := by simp [prodL]

theorem prodL_pair [Monoid A] (n : ℕ) (Q : ℕ → A) :
    prodL (2 * n) Q = prodL n (fun i => Q (2 * i) * Q (2 * i + 1)) := by
  induction n with
  | zero => simp
  | succ n ih =>
    rw [prodL_succ, show 2 * (n + 1) = 2 * n + 1 + 1 by ring, prodL_succ, prodL_succ, ih, mul_assoc]

theorem prodL_add [Monoid A] (n k : ℕ) (Q : ℕ → A) :
    prodL (n + k) Q = prodL n Q * prodL k (fun i => Q (n + i)) := by
  induction k with
  | zero => simp
  | succ k ih => rw [← Nat.add_assoc, prodL_succ, prodL_succ, ih, mul_assoc]

theorem prodL_congr [Monoid A] {n : ℕ} {Q Q' : ℕ → A} (h : ∀ i, i < n → Q i = Q' i) :
    prodL n Q = prodL n Q' := by
  induction n with
  | zero => rfl
  | succ n ih => rw [prodL_succ, prodL_succ, ih (fun i hi => h i (by omega)), h n (by omega)]

theorem prodL_one [Monoid A] (n : ℕ) : prodL n (fun _ => (1 : A)) = 1 := by
  induction n with
  | zero => simp
  | succ n ih => rw [prodL_succ, ih, one_mul]

theorem prodL_smul [Ring A] [Algebra ℂ A] (n : ℕ) (w : ℕ → ℤ) (Q : ℕ → A) :
    prodL n (fun i => (2 : ℂ) ^ (-w i) • Q i) = (2 : ℂ) ^ (-∑ i ∈ range n, w i) • prodL n Q := by
  induction n with
  | zero => simp
  | succ n ih =>
    rw [prodL_succ, prodL_succ, ih, sum_range_succ, smul_mul_smul_comm, neg_add,
      zpow_add₀ (two_ne_zero)]

end

theorem prodL_natDegree {n d : ℕ} {Q : ℕ → ℂ[X]} (h : ∀ i, i < n → (Q i).natDegree ≤ d) :
    (prodL n Q).natDegree ≤ d * n := by
  induction n with
  | zero => simp
  | succ n ih =>
    rw [prodL_succ, Nat.mul_succ]
    exact natDegree_mul_le.trans (Nat.add_le_add (ih fun i hi => h i (by omega)) (h n (by omega)))

theorem nextpow2_spec (n : ℕ) (h1 : 1 ≤ n) (h2 : n ≤ 2 ^ 63) :
    ∃ k, nextpow2 n = some (2 ^ k) ∧ n ≤ 2 ^ k ∧ 2 ^ k < 2 * n := by
  have hn : (BitVec.ofNat 64 n).toNat = n := by
    rw [BitVec.toNat_ofNat]; exact Nat.mod_eq_of_lt (lt_of_le_of_lt h2 (by norm_num))
  obtain ⟨r, m, hr, hr2, h3, h4⟩ := np2Loop_ok (BitVec.ofNat 64 n) (by omega) 63 0 rfl 1 (by rfl)
    (fun i _ => by rw [pow_zero]; exact Nat.one_le_two_pow)
  have hn0 : BitVec.ofNat 64 n ≠ 0 := by
    intro h; rw [h] at hn; simp at hn; omega
  refine ⟨m, ?_, by rw [hn] at h3; exact h3, ?_⟩
  · rw [nextpow2, misc_nextpowerof2, if_neg hn0, hr, Option.map_some, hr2]
  · rw [hn] at h4
    by_contra hc
    cases m with
    | zero => simp at hc; omega
    | succ m =>
      have := h4 m (by rw [pow_succ] at hc; omega)
      rw [pow_succ] at this
      have : 0 < 2 ^ m := by positivity
      omega

/-- The largest modulus is in `[1,2)` unless everything is zero. -/
def Unit12 (K d : ℕ) (y : ℕ → ℕ → ℂ) : Prop :=
  (∃ e i, e < K ∧ i ≤ d ∧ y e i ≠ 0) →
    (∃ e i, e < K ∧ i ≤ d ∧ 1 ≤ ‖y e i‖) ∧ ∀ e i, e < K → i ≤ d → ‖y e i‖ < 2

theorem padLoop_spec (deg : ℕ) (lead : ℂ) (cnt o : ℕ) (p : Buf ℂ) (h : o + cnt * (deg + 1) ≤ p.len) :
    ∃ p', padLoop deg lead cnt o p = some p' ∧ p'.len = p.len ∧
      (∀ i, i < cnt → p'.Holds (o + i * (deg + 1)) (deg + 1) (C lead).coeff) ∧
      ∀ j, (j < o ∨ o + cnt * (deg + 1) ≤ j) → p'.rd j = p.rd j := by
  apply forLoop_inv (fun k (p' : Buf ℂ) => p'.len = p.len ∧
      (∀ i, i < k → p'.Holds (o + i * (deg + 1)) (deg + 1) (C lead).coeff) ∧
      ∀ j, (j < o ∨ o + k * (deg + 1) ≤ j) → p'.rd j = p.rd j)
  · exact ⟨rfl, fun i h => by omega, fun _ _ => rfl⟩
  · rintro i p' hi ⟨h1, h2, h3⟩
    have hm : (i + 1) * (deg + 1) ≤ cnt * (deg + 1) := Nat.mul_le_mul_right _ hi
    have hm' : (i + 1) * (deg + 1) = i * (deg + 1) + deg + 1 := by ring
    have hl : o + i * (deg + 1) < p'.len := by omega
    rw [Buf.wr_eq _ hl, Option.bind_eq_bind, Option.bind_some]
    obtain ⟨b, e, l, r⟩ := fill_spec (off := o + i * (deg + 1) + 1) (cnt := deg) (f := fun _ => some (0 : ℂ))
      (b := p'.set (o + i * (deg + 1)) lead) (fun _ => 0) (fun _ _ _ => rfl)
      (Or.inl (by rw [Buf.set_len]; omega))
    refine ⟨b, e, by rw [l, Buf.set_len, h1], ?_, ?_⟩
    · intro i' hi' j hj
      rcases Nat.lt_succ_iff_lt_or_eq.mp hi' with hlt | rfl
      · have hm2 : (i' + 1) * (deg + 1) ≤ i * (deg + 1) := Nat.mul_le_mul_right _ hlt
        have hm3 : (i' + 1) * (deg + 1) = i' * (deg + 1) + deg + 1 := by ring
        rw [r, if_neg (by omega), Buf.rd_set _ hl, if_neg (by omega)]
        exact h2 i' hlt j hj
      · rw [r]
        split_ifs with hc
        · rw [coeff_C, if_neg (by omega)]
        · have : j = 0 := by omega
          subst this
          rw [Buf.rd_set _ hl, if_pos (by omega)]; simp
    · intro j hj
      rw [r, if_neg (by omega), Buf.rd_set _ hl, if_neg (by omega)]
      exact h3 j (by omega)

/-- One level of `poly_fmult`. -/
theorem fmultPairs_spec {deg len n : ℕ} {pf pi : Plan} (normalize : Bool) {p : Buf ℂ} {B : Bufs} (W : ℤ)
    {Q : ℕ → ℂ[X]} (hlen : twoPolysLen deg = some len) (hpf : PlanOK pf len false)
    (hpi : PlanOK pi len true) (hb0 : len ≤ B.b0.len) (hb1 : len ≤ B.b1.len) (hb2 : len ≤ B.b2.len)
    (hd : ∀ i, i < 2 * n → (Q i).natDegree ≤ deg)
    (hQ : ∀ i, i < 2 * n → p.Holds (i * (deg + 1)) (deg + 1) (Q i).coeff) :
    ∃ p' B', ∃ w : ℕ → ℤ, forLoop n (fmultPair deg pf pi normalize) (p, B, W) =
        some (p', B', W + ∑ i ∈ range n, w i) ∧ p'.len = p.len ∧ B'.b0.len = B.b0.len ∧
      B'.b1.len = B.b1.len ∧ B'.b2.len = B.b2.len ∧
      (∀ i, i < n → p'.Holds (i * (2 * deg + 1)) (2 * deg + 1)
        ((2 : ℂ) ^ (-w i) • (Q (2 * i) * Q (2 * i + 1))).coeff) ∧
      (normalize = false → ∀ i, w i = 0) ∧
      (normalize = true → ∀ i, i < n →
        Unit12 1 (2 * deg) (fun _ => ((2 : ℂ) ^ (-w i) • (Q (2 * i) * Q (2 * i + 1))).coeff)) := by
  have := forLoop_inv (n := n) (body := fmultPair deg pf pi normalize) (s := (p, B, W))
    (fun k s => s.1.len = p.len ∧ s.2.1.b0.len = B.b0.len ∧
      s.2.1.b1.len = B.b1.len ∧ s.2.1.b2.len = B.b2.len ∧
      (∀ i, 2 * k ≤ i → i < 2 * n → s.1.Holds (i * (deg + 1)) (deg + 1) (Q i).coeff) ∧
      ∃ w : ℕ → ℤ, s.2.2 = W + ∑ i ∈ range k, w i ∧
      (∀ i, i < k → s.1.Holds (i * (2 * deg + 1)) (2 * deg + 1)
        ((2 : ℂ) ^ (-w i) • (Q (2 * i) * Q (2 * i + 1))).coeff) ∧
      (normalize = false → ∀ i, w i = 0) ∧
      (normalize = true → ∀ i, i < k →
        Unit12 1 (2 * deg) (fun _ => ((2 : ℂ) ^ (-w i) • (Q (2 * i) * Q (2 * i + 1))).coeff))) ?_ ?_
  · obtain ⟨⟨p', B', W'⟩, e, h1, h2, h3, h4, -, w, h5, h6, h7, h8⟩ := this
    simp only at h5; subst h5
    exact ⟨p', B', w, e, h1, h2, h3, h4, h6, h7, h8⟩
  · exact ⟨rfl, rfl, rfl, rfl, fun i _ h => hQ i h, fun _ => 0, by simp, fun i h => by omega,
      fun _ _ => rfl, fun _ i h => by omega⟩
  · rintro i ⟨q, D, V⟩ hi ⟨h1, h2, h3, h4, h5, w, h6, h7, h8, h9⟩
    simp only at h1 h2 h3 h4 h5 h6 h7
    have a1 : i * (2 * deg + 2) = 2 * i * (deg + 1) := by ring
    have a2 : deg + 1 + i * (2 * deg + 2) = (2 * i + 1) * (deg + 1) := by ring
    have a3 : (i + 1) * (2 * deg + 1) = i * (2 * deg + 1) + (2 * deg + 1) := by ring
    have a4 : i * (2 * deg + 2) = i * (2 * deg + 1) + i := by ring
    have hend : (2 * i + 1) * (deg + 1) + deg < q.len := Buf.rd_lt (h5 (2 * i + 1) (by omega) (by omega) deg (by omega))
    obtain ⟨r, D', e1, l1, l2, l3, l4, -, st, fr⟩ := twoPolys_spec (mode := 0) (st := .empty)
      (p1 := some (q, i * (2 * deg + 2))) (p2 := some (q, deg + 1 + i * (2 * deg + 2)))
      (res := q) (ro := i * (2 * deg + 1)) (B := D) (P1 := Q (2 * i)) (P2 := Q (2 * i + 1)) hlen hpf hpi
      (by omega) (by omega) (by omega)
      ⟨hd _ (by omega), by simp only; rw [a1]; exact h5 _ le_rfl (by omega)⟩
      ⟨hd _ (by omega), by simp only; rw [a2]; exact h5 _ (by omega) (by omega)⟩ trivial rfl
      (by have : ext deg len 0 = 2 * deg + 1 := rfl
          rw [this]; have : i * (2 * deg + 1) + (2 * deg + 1) ≤ (2 * i + 1) * (deg + 1) + deg + 1 := by
            nlinarith
          omega)
    have hx : ext deg len 0 = 2 * deg + 1 := rfl
    rw [hx] at fr
    replace st : r.Holds (i * (2 * deg + 1)) (2 * deg + 1) (Q (2 * i) * Q (2 * i + 1)).coeff := st
    -- common conclusion
    have key : ∀ (a : ℤ) (r' : Buf ℂ), fmultPair deg pf pi normalize i (q, D, V) = some (r', D', V + a) →
        r'.len = r.len → (normalize = false → a = 0) →
        r'.Holds (i * (2 * deg + 1)) (2 * deg + 1) ((2 : ℂ) ^ (-a) • (Q (2 * i) * Q (2 * i + 1))).coeff →
        (∀ j, j < i * (2 * deg + 1) ∨ (i + 1) * (2 * deg + 1) ≤ j → r'.rd j = r.rd j) →
        (normalize = true →
          Unit12 1 (2 * deg) (fun _ => ((2 : ℂ) ^ (-a) • (Q (2 * i) * Q (2 * i + 1))).coeff)) →
        ∃ t', fmultPair deg pf pi normalize i (q, D, V) = some t' ∧ (t'.1.len = p.len ∧ t'.2.1.b0.len = B.b0.len ∧
          t'.2.1.b1.len = B.b1.len ∧ t'.2.1.b2.len = B.b2.len ∧
          (∀ j, 2 * (i + 1) ≤ j → j < 2 * n → t'.1.Holds (j * (deg + 1)) (deg + 1) (Q j).coeff) ∧
          ∃ w : ℕ → ℤ, t'.2.2 = W + ∑ j ∈ range (i + 1), w j ∧
          (∀ j, j < i + 1 → t'.1.Holds (j * (2 * deg + 1)) (2 * deg + 1)
            ((2 : ℂ) ^ (-w j) • (Q (2 * j) * Q (2 * j + 1))).coeff) ∧
          (normalize = false → ∀ j, w j = 0) ∧
          (normalize = true → ∀ j, j < i + 1 →
            Unit12 1 (2 * deg) (fun _ => ((2 : ℂ) ^ (-w j) • (Q (2 * j) * Q (2 * j + 1))).coeff))) := by
      intro a r' e hl ha hh hf hu
      refine ⟨_, e, by simp only; omega, by simp only; omega, by simp only; omega, by simp only; omega, ?_,
        Function.update w i a, ?_, ?_, ?_, ?_⟩
      · intro j hj hj' k hk
        have : (i + 1) * (2 * deg + 1) ≤ j * (deg + 1) := by
          calc (i + 1) * (2 * deg + 1) ≤ (2 * (i + 1)) * (deg + 1) := by nlinarith
            _ ≤ j * (deg + 1) := Nat.mul_le_mul_right _ hj
        simp only
        rw [hf _ (by omega), fr _ (by omega)]
        exact h5 j (by omega) hj' k hk
      · simp only
        have hs : ∑ j ∈ range i, Function.update w i a j = ∑ j ∈ range i, w j :=
          sum_congr rfl (fun j hj => by
            rw [Function.update_of_ne (by have := mem_range.mp hj; omega)])
        rw [sum_range_succ, Function.update_self, h6, hs]; ring
      · intro j hj k hk
        rcases Nat.lt_succ_iff_lt_or_eq.mp hj with hlt | rfl
        · have : (j + 1) * (2 * deg + 1) ≤ i * (2 * deg + 1) := Nat.mul_le_mul_right _ hlt
          have : (j + 1) * (2 * deg + 1) = j * (2 * deg + 1) + (2 * deg + 1) := by ring
          simp only
          rw [hf _ (by omega), fr _ (by omega), Function.update_of_ne (by omega)]
          exact h7 j hlt k hk
        · rw [Function.update_self]; exact hh k hk
      · intro hn j
        by_cases h : j = i
        · rw [h, Function.update_self, ha hn]
        · rw [Function.update_of_ne h, h8 hn]
      · intro hn j hj
        rcases Nat.lt_succ_iff_lt_or_eq.mp hj with hlt | rfl
        · rw [Function.update_of_ne (by omega)]; exact h9 hn j hlt
        · rw [Function.update_self]; exact hu hn
    cases normalize with
    | false =>
      refine key 0 r ?_ rfl (fun _ => rfl) (by simpa using st) (fun _ _ => rfl) (fun h => by simp at h)
      rw [fmultPair, e1]; simp
    | true =>
      set Z : ℂ[X] := Q (2 * i) * Q (2 * i + 1)
      obtain ⟨a, v, f1, f2, f3, f4, f5, f6⟩ := C18_normalize_vector (2 * deg + 1)
        ⟨r.len - i * (2 * deg + 1), fun j => r.cell (i * (2 * deg + 1) + j)⟩ Z.coeff (fun j hj => by
          rw [Nat.zero_add, onTail_rd]; exact st j hj)
      obtain ⟨r', g1, g2, g3, g4⟩ := onTail_spec f1 f2
      refine key a r' ?_ g2 (fun h => by simp at h) ?_ ?_ ?_
      · rw [fmultPair, e1]
        simp only [Option.bind_eq_bind, Option.bind_some, if_true]
        rw [g1]; rfl
      · intro j hj
        have := f3 j hj
        rw [Nat.zero_add] at this
        rw [g3, this, coeff_smul, smul_eq_mul]
      · intro j hj
        rcases hj with hj | hj
        · exact g4 j hj
        · have := g3 (j - i * (2 * deg + 1))
          rw [show i * (2 * deg + 1) + (j - i * (2 * deg + 1)) = j by omega] at this
          rw [this, f4 _ (by omega), onTail_rd]; congr 1; omega
      · rintro - ⟨e, j, he, hj, hne⟩
        simp only [coeff_smul, smul_eq_mul] at hne
        obtain ⟨⟨l, hl, hl'⟩, hall⟩ := f6 ⟨j, by omega, right_ne_zero_of_mul hne⟩
        exact ⟨⟨0, l, by omega, by omega, by simpa using hl'⟩, fun e j _ hj => by
          simpa using hall j (by omega)⟩

theorem Unit12.congr {K d d' : ℕ} {y y' : ℕ → ℕ → ℂ} (hd : d = d') (h : ∀ e i, y e i = y' e i) :
    Unit12 K d y → Unit12 K d' y' := by
  subst hd
  have : y = y' := funext fun e => funext fun i => h e i
  rw [this]; exact id

/-- The main loop of `poly_fmult`. -/
theorem fmultLoop_spec (normalize : Bool) : ∀ (k fuel : ℕ), k ≤ fuel → ∀ (deg : ℕ) (p : Buf ℂ) (B : Bufs)
    (W : ℤ) (ret : Option ℤ) (Q : ℕ → ℂ[X]),
    (∀ i, i < 2 ^ k → (Q i).natDegree ≤ deg) →
    (∀ i, i < 2 ^ k → p.Holds (i * (deg + 1)) (deg + 1) (Q i).coeff) →
    (∀ len d, twoPolysLen d = some len → 2 * d ≤ deg * 2 ^ k →
      len ≤ B.b0.len ∧ len ≤ B.b1.len ∧ len ≤ B.b2.len) →
    deg * 2 ^ k + 1 ≤ 3 ^ 32 →
    ∃ p' w, fmultLoop normalize fuel (2 ^ k) deg p B W ret =
        some (if k = 0 then ret else some SUCCESS, deg * 2 ^ k, p', W + w) ∧ p'.len = p.len ∧
      p'.Holds 0 (deg * 2 ^ k + 1) ((2 : ℂ) ^ (-w) • prodL (2 ^ k) Q).coeff ∧
      (normalize = false → w = 0) ∧
      (normalize = true → (k = 0 → Unit12 1 deg (fun _ => (Q 0).coeff)) →
        Unit12 1 (deg * 2 ^ k) (fun _ => ((2 : ℂ) ^ (-w) • prodL (2 ^ k) Q).coeff)) := by
  intro k
  induction k with
  | zero =>
    intro fuel _ deg p B W ret Q hd hQ _ _
    refine ⟨p, 0, ?_, rfl, ?_, fun _ => rfl, fun _ h => ?_⟩
    · cases fuel <;> simp [fmultLoop]
    · have := hQ 0 (by norm_num)
      simpa [prodL] using this
    · simpa [prodL] using h rfl
  | succ k ih =>
    intro fuel hfuel deg p B W ret Q hd hQ hB hsz
    obtain ⟨fuel, rfl⟩ : ∃ f, fuel = f + 1 := ⟨fuel - 1, by omega⟩
    have h2 : 2 ^ (k + 1) = 2 * 2 ^ k := by ring
    have hk : 1 ≤ 2 ^ k := Nat.one_le_two_pow
    have hdk : deg * 2 ^ (k + 1) = 2 * deg * 2 ^ k := by ring
    have hdeg : 2 * deg ≤ deg * 2 ^ (k + 1) := by rw [hdk]; exact Nat.le_mul_of_pos_right _ (by omega)
    obtain ⟨len, hlen, hl1, hl2, -⟩ := twoPolysLen_spec deg
    obtain ⟨hb0, hb1, hb2⟩ := hB len deg hlen hdeg
    obtain ⟨pf, hpf, hpf'⟩ := mkPlan_fwd len (by omega) (by omega)
    obtain ⟨pi, hpi, hpi'⟩ := mkPlan_inv len (by omega) (by omega)
    obtain ⟨p', B', w, e, l, m0, m1, m2, hH, hw, hu⟩ := fmultPairs_spec (n := 2 ^ k) normalize W hlen hpf' hpi'
      hb0 hb1 hb2 (fun i hi => hd i (by omega)) (fun i hi => hQ i (by omega))
    obtain ⟨p'', w', e', l', hH', hw', hu'⟩ := ih fuel (by omega) (deg * 2) p' B' (W + ∑ i ∈ range (2 ^ k), w i)
      (some SUCCESS) (fun i => (2 : ℂ) ^ (-w i) • (Q (2 * i) * Q (2 * i + 1)))
      (fun i hi => (natDegree_smul_le _ _).trans (natDegree_mul_le.trans (by
        have := hd (2 * i) (by omega); have := hd (2 * i + 1) (by omega); omega)))
      (fun i hi => by rw [mul_comm deg 2]; exact hH i hi)
      (fun len d h1 h2 => by
        rw [m0, m1, m2]; exact hB len d h1 (by rw [hdk]; rw [mul_comm deg 2] at h2; exact h2))
      (by rw [mul_comm deg 2]; omega)
    have hprod : (2 : ℂ) ^ (-w') • prodL (2 ^ k) (fun i => (2 : ℂ) ^ (-w i) • (Q (2 * i) * Q (2 * i + 1))) =
        (2 : ℂ) ^ (-(∑ i ∈ range (2 ^ k), w i + w')) • prodL (2 ^ (k + 1)) Q := by
      rw [prodL_smul, h2, prodL_pair, smul_smul, ← zpow_add₀ (two_ne_zero)]
      congr 2; ring
    have hdk' : deg * 2 * 2 ^ k = deg * 2 ^ (k + 1) := by ring
    rw [hprod, hdk'] at hH'
    rw [hprod, hdk'] at hu'
    rw [hdk'] at e'
    refine ⟨p'', ∑ i ∈ range (2 ^ k), w i + w', ?_, by omega, hH', ?_, ?_⟩
    · rw [fmultLoop, if_pos (by omega), hlen, Option.bind_eq_bind, Option.bind_some, hpf]
      simp only [Option.bind_eq_bind, Option.bind_some, hpi]
      rw [show (2 ^ (k + 1) + 1) / 2 = 2 ^ k by omega, e]
      simp only [Option.bind_some]
      rw [if_neg (by omega), show 2 ^ (k + 1) / 2 = 2 ^ k by omega, e']
      simp [add_assoc]
    · intro hn; rw [hw' hn, sum_eq_zero (fun i _ => hw hn i)]; rfl
    · intro hn _
      exact hu' hn (fun _ => (hu hn 0 (by omega)).congr (by ring) (fun _ _ => rfl))

end FNFT

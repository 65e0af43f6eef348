import Verif.Model.GridSearch
import Verif.Props.PolyChirpz
import Verif.Proofs.Misc
import Mathlib.Topology.Order.IntermediateValue
import Mathlib.Analysis.SpecialFunctions.ExpDeriv
import Mathlib.Topology.Algebra.Polynomial
import Mathlib.Tactic.IntervalCases
/-!
# C37: roots of para-Hermitian polynomials on the unit circle by grid search
-/
namespace FNFT
open Complex

/-- Grid angle number `i`: `PHI[0] + i*(PHI[1]-PHI[0])/(M-1)`. -/
noncomputable def Spec.theta (PHI : ℝ × ℝ) (M : ℕ) (i : ℕ) : ℝ := PHI.1 + i * ((PHI.2 - PHI.1) / ((M : ℝ) - 1))

/-- `p(z) z^(-deg/2)` at `z = e^{it}`. -/
noncomputable def Spec.paraVal (deg : ℕ) (c : ℕ → ℂ) (t : ℝ) : ℂ :=
  (Spec.poly deg c).eval (exp (I * t)) * exp (-I * t * ((deg / 2 : ℕ) : ℂ))

open Classical in
/-- The grid intervals `[θ_i, θ_{i+1}]` whose end values do not have the same sign. -/
noncomputable def Spec.signChanges (deg : ℕ) (c : ℕ → ℂ) (PHI : ℝ × ℝ) (M : ℕ) : List ℕ :=
  (List.range (M - 1)).filter fun i =>
    (Spec.paraVal deg c (Spec.theta PHI M i)).re * (Spec.paraVal deg c (Spec.theta PHI M (i + 1))).re ≤ 0

/-- Coefficients of a para-Hermitian polynomial: `p[deg-j]` is the conjugate of `p[j]`. -/
def Spec.ParaHerm (deg : ℕ) (c : ℕ → ℂ) : Prop := ∀ j, j ≤ deg → c (deg - j) = (starRingEnd ℂ) (c j)

theorem paraVal_sum (deg : ℕ) (c : ℕ → ℂ) (t : ℝ) :
    Spec.paraVal deg c t = ∑ j ∈ Finset.range (deg + 1), c j * exp (I * t * (((deg - j : ℕ) : ℂ) - ((deg / 2 : ℕ) : ℂ))) := by
  unfold Spec.paraVal Spec.poly
  rw [Polynomial.eval_finsetSum, Finset.sum_mul]
  refine Finset.sum_congr rfl fun j _ => ?_
  simp only [Polynomial.eval_mul, Polynomial.eval_C, Polynomial.eval_pow, Polynomial.eval_X]
  rw [← exp_nat_mul, mul_assoc, ← exp_add]
  congr 2
  ring

/-- On the unit circle the function is real. -/
theorem C37_real (deg : ℕ) (c : ℕ → ℂ) (hdeg : deg % 2 = 0) (hc : Spec.ParaHerm deg c) (t : ℝ) :
    (Spec.paraVal deg c t).im = 0 := by
  rw [← conj_eq_iff_im, paraVal_sum, map_sum, ← Finset.sum_range_reflect]
  refine Finset.sum_congr rfl fun j hj => ?_
  have hj' : j ≤ deg := by simpa [Nat.lt_succ_iff] using hj
  have e1 : deg + 1 - 1 - j = deg - j := by omega
  rw [e1, map_mul, ← hc (deg - j) (by omega), show deg - (deg - j) = j by omega, ← exp_conj]
  congr 2
  simp only [map_mul, conj_I, conj_ofReal, map_sub, map_natCast]
  have h2 : (deg : ℂ) = 2 * ((deg / 2 : ℕ) : ℂ) := by
    exact_mod_cast (by omega : deg = 2 * (deg / 2))
  rw [Nat.cast_sub hj', h2]
  ring

theorem paraVal_cont (deg : ℕ) (c : ℕ → ℂ) : Continuous fun t : ℝ => (Spec.paraVal deg c t).re := by
  apply continuous_re.comp
  unfold Spec.paraVal
  apply Continuous.mul
  · exact (Polynomial.continuous _).comp (continuous_exp.comp (continuous_const.mul continuous_ofReal))
  · exact continuous_exp.comp ((continuous_const.mul continuous_ofReal).mul continuous_const)

theorem paraVal_zero {deg : ℕ} {c : ℕ → ℂ} {t : ℝ} (hdeg : deg % 2 = 0) (hc : Spec.ParaHerm deg c)
    (h : (Spec.paraVal deg c t).re = 0) : (Spec.poly deg c).eval (exp (I * t)) = 0 := by
  have h0 : Spec.paraVal deg c t = 0 := Complex.ext h (C37_real deg c hdeg hc t)
  unfold Spec.paraVal at h0
  exact (mul_eq_zero.mp h0).resolve_right (exp_ne_zero _)

theorem ivt_mul {f : ℝ → ℝ} (hf : Continuous f) {a b : ℝ} (hab : a ≤ b) (h : f a * f b ≤ 0) :
    ∃ t, a ≤ t ∧ t ≤ b ∧ f t = 0 := by
  rcases mul_nonpos_iff.mp h with ⟨h1, h2⟩ | ⟨h1, h2⟩
  · obtain ⟨t, ht, h⟩ := intermediate_value_Icc' hab hf.continuousOn ⟨h2, h1⟩
    exact ⟨t, ht.1, ht.2, h⟩
  · obtain ⟨t, ht, h⟩ := intermediate_value_Icc hab hf.continuousOn ⟨h1, h2⟩
    exact ⟨t, ht.1, ht.2, h⟩

/-- The angle for two real values of different sign lies in the interval and is the zero of the linear interpolant. -/
theorem gridAngle_ok (PHI0 eps : ℝ) (he : 0 < eps) (i : ℕ) (u v : ℂ) (hu : u.im = 0) (hv : v.im = 0) (h : u.re * v.re ≤ 0) :
    ∃ phi, gridAngle PHI0 eps (i + 1) u v = some phi ∧ PHI0 + i * eps ≤ phi ∧ phi ≤ PHI0 + (i + 1) * eps ∧
      u.re * (PHI0 + (i + 1) * eps - phi) + v.re * (phi - (PHI0 + i * eps)) = 0 ∧
      (u = v → phi = PHI0 + i * eps + eps / 2) := by
  unfold gridAngle
  by_cases huv : u = v
  · have h0 : u.re = 0 := by
      rw [← huv] at h
      nlinarith
    refine ⟨_, if_neg (by simpa using huv), ?_, ?_, ?_, ?_⟩
    · push_cast; nlinarith
    · push_cast; nlinarith
    · rw [← huv, h0]; ring
    · intro _; push_cast; ring
  · have hne : (v - u).re ≠ 0 := by
      intro h0
      apply huv
      rw [sub_re, sub_eq_zero] at h0
      exact Complex.ext h0.symm (by rw [hu, hv])
    refine ⟨PHI0 + eps * (((i + 1 : ℕ) : ℝ) - 1) - u.re * (PHI0 + eps * (((i + 1 : ℕ) : ℝ) - 1) + eps - (PHI0 + eps * (((i + 1 : ℕ) : ℝ) - 1))) / (v - u).re,
      by rw [if_pos huv, if_neg hne], ?_⟩
    rw [sub_re] at hne ⊢
    generalize hx : u.re = x at *
    generalize hy : v.re = y at *
    have hq : x / (y - x) ≤ 0 := by
      rcases lt_or_gt_of_ne hne with hlt | hgt
      · exact div_nonpos_of_nonneg_of_nonpos (by nlinarith) hlt.le
      · exact div_nonpos_of_nonpos_of_nonneg (by nlinarith) hgt.le
    have hq' : -1 ≤ x / (y - x) := by
      have : x / (y - x) + 1 = y / (y - x) := by field_simp; ring
      have h3 : 0 ≤ y / (y - x) := by
        rcases lt_or_gt_of_ne hne with hlt | hgt
        · exact div_nonneg_of_nonpos (by nlinarith) hlt.le
        · exact div_nonneg (by nlinarith) hgt.le
      linarith
    have he2 : x * (PHI0 + eps * (((i + 1 : ℕ) : ℝ) - 1) + eps - (PHI0 + eps * (((i + 1 : ℕ) : ℝ) - 1))) / (y - x) = eps * (x / (y - x)) := by
      ring
    rw [he2]
    push_cast
    refine ⟨by nlinarith, by nlinarith, ?_, fun hh => absurd hh huv⟩
    field_simp
    ring

/-- The search loop, for any values `F` that are real. -/
theorem gridPara_loop (PHI0 eps : ℝ) (M : ℕ) (b0 : Buf ℂ) (F : ℕ → ℂ) (hF : b0.Holds 0 M F)
    (S : List ℕ) [DecidablePred fun i => (F i).re * (F (i + 1)).re ≤ 0]
    (hS : S = (List.range (M - 1)).filter fun i => (F i).re * (F (i + 1)).re ≤ 0) (φ : ℕ → ℝ)
    (hφ : ∀ i, (F i).re * (F (i + 1)).re ≤ 0 → gridAngle PHI0 eps (i + 1) (F i) (F (i + 1)) = some (φ i)) :
    ∃ s, forLoop (M - 1) (gridParaBody PHI0 eps) (b0, 0) = some s ∧ s.2 = S.length ∧ s.1.len = b0.len ∧
      s.1.HoldsList (S.map fun i => exp (I * φ i)) ∧ ∀ j, M ≤ j → s.1.rd j = b0.rd j := by
  have key := forLoop_inv (n := M - 1) (body := gridParaBody PHI0 eps) (s := (b0, 0))
    (fun k s => s.2 = ((List.range k).filter fun i => (F i).re * (F (i + 1)).re ≤ 0).length ∧ s.2 ≤ k ∧ s.1.len = b0.len ∧
      s.1.HoldsList (((List.range k).filter fun i => (F i).re * (F (i + 1)).re ≤ 0).map fun i => exp (I * φ i)) ∧
      ∀ j, k ≤ j → s.1.rd j = b0.rd j) ?_ ?_
  · obtain ⟨s, hs, h1, h2, h3, h4, h5⟩ := key
    refine ⟨s, hs, by rw [h1, hS], h3, by rw [hS]; exact h4, fun j hj => h5 j (by omega)⟩
  · exact ⟨rfl, le_rfl, rfl, fun i hi => by simp at hi, fun j _ => rfl⟩
  · rintro k ⟨b, n⟩ hk ⟨h1, h2, h3, h4, h5⟩
    dsimp only at h1 h2 h3 h4 h5
    have r1 : b.rd (k + 1 - 1) = some (F k) := by
      rw [Nat.add_sub_cancel, h5 k le_rfl]
      simpa using hF k (by omega)
    have r2 : b.rd (k + 1) = some (F (k + 1)) := by
      rw [h5 (k + 1) (by omega)]
      simpa using hF (k + 1) (by omega)
    have hlen : k + 1 < b.len := Buf.rd_lt r2
    unfold gridParaBody
    simp only [r1, r2, Option.bind_eq_bind, Option.bind_some]
    by_cases hc : (F k).re * (F (k + 1)).re ≤ 0
    · rw [if_pos hc, hφ k hc]
      obtain ⟨b', hb', hl, -, -⟩ := Buf.wr_spec (b := b) (i := n) (exp (I * φ k)) (by omega)
      refine ⟨(b', n + 1), ?_, ?_, ?_, ?_, ?_, ?_⟩
      · rw [Option.bind_some, hb']; rfl
      · rw [List.range_succ, List.filter_append, List.length_append, ← h1]
        simp [hc]
      · dsimp only; omega
      · rw [hl, h3]
      · rw [List.range_succ, List.filter_append, List.map_append]
        have : List.map (fun i => exp (I * φ i)) (List.filter (fun i => decide ((F i).re * (F (i + 1)).re ≤ 0)) [k]) = [exp (I * φ k)] := by
          simp [hc]
        rw [this]
        refine holdsList_append_singleton h4 ?_
        rw [List.length_map, ← h1]
        exact hb'
      · intro j hj
        show b'.rd j = _
        rw [Buf.wr_rd hb', if_neg (by omega)]
        exact h5 j (by omega)
    · rw [if_neg hc]
      refine ⟨(b, n), rfl, ?_, by dsimp only; omega, h3, ?_, fun j hj => h5 j (by omega)⟩
      · rw [List.range_succ, List.filter_append, List.length_append, ← h1]
        simp [hc]
      · rw [List.range_succ, List.filter_append, List.map_append]
        have : List.map (fun i => exp (I * φ i)) (List.filter (fun i => decide ((F i).re * (F (i + 1)).re ≤ 0)) [k]) = [] := by
          simp [hc]
        rw [this, List.append_nil]
        exact h4

/-- C37: for every para-Hermitian polynomial, `poly_roots_fftgridsearch_paraherm` reports exactly one value `e^{iφ}` per grid
interval on whose ends `p(z)z^{-deg/2}` does not have the same sign, in increasing order, at the zero `φ` of the linear interpolant
(the midpoint if both end values are equal); `φ` is in the interval, and the interval contains a true root, so that each reported
value is at most one grid step away from a true root. Entries beyond the first `M` are untouched. -/
theorem C37_paraherm (deg M : ℕ) (p roots : Buf ℂ) (c : ℕ → ℂ) (PHI : ℝ × ℝ) (hp : p.Holds 0 (deg + 1) c) (hdeg : deg % 2 = 0)
    (hdeg2 : 2 ≤ deg) (hc : Spec.ParaHerm deg c) (hM : 2 ≤ M) (hPHI : PHI.1 < PHI.2) (hr : M ≤ roots.len)
    (hsize : deg + M < 3 ^ 32) :
    ∃ (b : Buf ℂ) (φ : ℕ → ℝ),
      poly_roots_fftgridsearch_paraherm deg (some p) (some M) (some PHI) (some roots) =
        some ⟨SUCCESS, some (Spec.signChanges deg c PHI M).length, some b⟩ ∧
      b.HoldsList ((Spec.signChanges deg c PHI M).map fun i => exp (I * φ i)) ∧
      b.len = roots.len ∧ (∀ j, M ≤ j → b.rd j = roots.rd j) ∧
      ∀ i ∈ Spec.signChanges deg c PHI M,
        Spec.theta PHI M i ≤ φ i ∧ φ i ≤ Spec.theta PHI M (i + 1) ∧
        (Spec.paraVal deg c (Spec.theta PHI M i)).re * (Spec.theta PHI M (i + 1) - φ i) +
          (Spec.paraVal deg c (Spec.theta PHI M (i + 1))).re * (φ i - Spec.theta PHI M i) = 0 ∧
        (Spec.paraVal deg c (Spec.theta PHI M i) = Spec.paraVal deg c (Spec.theta PHI M (i + 1)) →
          φ i = (Spec.theta PHI M i + Spec.theta PHI M (i + 1)) / 2) ∧
        ∃ t, Spec.theta PHI M i ≤ t ∧ t ≤ Spec.theta PHI M (i + 1) ∧ (Spec.poly deg c).eval (exp (I * t)) = 0 ∧
          |φ i - t| ≤ (PHI.2 - PHI.1) / ((M : ℝ) - 1) := by
  classical
  have hM1 : (0 : ℝ) < (M : ℝ) - 1 := by
    have : (2 : ℝ) ≤ M := by exact_mod_cast hM
    linarith
  have he : 0 < (PHI.2 - PHI.1) / ((M : ℝ) - 1) := div_pos (by linarith) hM1
  have heps : ∃ eps, eps = (PHI.2 - PHI.1) / ((M : ℝ) - 1) := ⟨_, rfl⟩
  obtain ⟨eps, hepsd⟩ := heps
  rw [← hepsd] at he
  have hth : ∀ i : ℕ, Spec.theta PHI M i = PHI.1 + i * eps := by
    intro i; unfold Spec.theta; rw [hepsd]
  obtain ⟨b1, e1, l1, r1, u1⟩ := C13_chirpz deg M p roots c (exp (-I * PHI.1)) (exp (I * eps)) hp (by omega) hr (exp_ne_zero _)
    (exp_ne_zero _) hsize
  -- phase factor
  have key := forLoop_inv (n := M) (body := gridPhase (deg / 2 + 1) PHI.1 eps) (s := b1)
    (fun k b => b.len = b1.len ∧ (∀ i, i < k → b.rd i = some (Spec.paraVal deg c (Spec.theta PHI M i))) ∧
      ∀ j, k ≤ j → b.rd j = b1.rd j) ⟨rfl, fun i hi => absurd hi (by omega), fun j _ => rfl⟩ (by
    rintro k b hk ⟨h1, h2, h3⟩
    have hv : b.rd k = some ((Spec.poly deg c).eval ((exp (-I * PHI.1))⁻¹ * exp (I * eps) ^ k)) := by
      rw [h3 k le_rfl]
      simpa using r1 k hk
    have hlt : k < b.len := Buf.rd_lt hv
    unfold gridPhase
    rw [hv, Option.bind_eq_bind, Option.bind_some]
    obtain ⟨b', hb', hl, -, -⟩ := Buf.wr_spec (b := b) (i := k) ((Spec.poly deg c).eval ((exp (-I * PHI.1))⁻¹ * exp (I * eps) ^ k) *
      exp (-I * ((PHI.1 + eps * k : ℝ) : ℂ) * (((deg / 2 + 1 : ℕ) : ℂ) - 1))) hlt
    refine ⟨b', hb', by rw [hl, h1], ?_, ?_⟩
    · intro i hi
      rw [Buf.wr_rd hb']
      by_cases hik : i = k
      · rw [if_pos hik, hik, hth]
        unfold Spec.paraVal
        have e1 : (exp (-I * PHI.1))⁻¹ * exp (I * eps) ^ k = exp (I * ((PHI.1 + k * eps : ℝ) : ℂ)) := by
          rw [← exp_neg, ← exp_nat_mul, ← exp_add]
          congr 1
          push_cast
          ring
        rw [e1]
        congr 3
        push_cast
        ring
      · rw [if_neg hik]
        exact h2 i (by omega)
    · intro j hj
      rw [Buf.wr_rd hb', if_neg (by omega)]
      exact h3 j (by omega))
  obtain ⟨b2, e2, l2, r2, u2⟩ := key
  -- search
  have hreal : ∀ t, (Spec.paraVal deg c t).im = 0 := C37_real deg c hdeg hc
  have hang := fun i => gridAngle_ok PHI.1 eps he i (Spec.paraVal deg c (Spec.theta PHI M i)) (Spec.paraVal deg c (Spec.theta PHI M (i + 1)))
    (hreal _) (hreal _)
  have hch : ∀ i : ℕ, ∃ phi, (Spec.paraVal deg c (Spec.theta PHI M i)).re * (Spec.paraVal deg c (Spec.theta PHI M (i + 1))).re ≤ 0 →
      gridAngle PHI.1 eps (i + 1) (Spec.paraVal deg c (Spec.theta PHI M i)) (Spec.paraVal deg c (Spec.theta PHI M (i + 1))) = some phi ∧
      PHI.1 + i * eps ≤ phi ∧ phi ≤ PHI.1 + (i + 1) * eps ∧
      (Spec.paraVal deg c (Spec.theta PHI M i)).re * (PHI.1 + (i + 1) * eps - phi) +
        (Spec.paraVal deg c (Spec.theta PHI M (i + 1))).re * (phi - (PHI.1 + i * eps)) = 0 ∧
      (Spec.paraVal deg c (Spec.theta PHI M i) = Spec.paraVal deg c (Spec.theta PHI M (i + 1)) → phi = PHI.1 + i * eps + eps / 2) := by
    intro i
    by_cases h : (Spec.paraVal deg c (Spec.theta PHI M i)).re * (Spec.paraVal deg c (Spec.theta PHI M (i + 1))).re ≤ 0
    · obtain ⟨phi, hphi⟩ := hang i h
      exact ⟨phi, fun _ => hphi⟩
    · exact ⟨0, fun h' => absurd h' h⟩
  choose φ hφ using hch
  obtain ⟨s, e3, n3, l3, r3, u3⟩ := gridPara_loop PHI.1 eps M b2 (fun i => Spec.paraVal deg c (Spec.theta PHI M i))
    (fun i hi => by rw [Nat.zero_add]; exact r2 i hi) (Spec.signChanges deg c PHI M) rfl φ
    (fun i hi => (hφ i hi).1)
  refine ⟨s.1, φ, ?_, r3, by rw [l3, l2, l1], fun j hj => by rw [u3 j hj, u2 j hj, u1 j hj], ?_⟩
  · unfold poly_roots_fftgridsearch_paraherm
    dsimp only
    rw [if_neg (by push Not; exact ⟨by omega, by omega, by omega, hPHI⟩)]
    rw [← hepsd, e1]
    simp only [Option.bind_eq_bind, Option.bind_some]
    rw [if_neg (by simp)]
    simp only [e2, e3, Option.bind_some, n3]
    rfl
  · intro i hi
    have hs : (Spec.paraVal deg c (Spec.theta PHI M i)).re * (Spec.paraVal deg c (Spec.theta PHI M (i + 1))).re ≤ 0 := by
      unfold Spec.signChanges at hi
      simpa using (List.mem_filter.mp hi).2
    obtain ⟨-, h1, h2, h3, h4⟩ := hφ i hs
    have hi1 : Spec.theta PHI M (i + 1) = PHI.1 + (i + 1) * eps := by rw [hth]; push_cast; ring
    have hle : Spec.theta PHI M i ≤ Spec.theta PHI M (i + 1) := by rw [hi1, hth]; nlinarith
    obtain ⟨t, ht1, ht2, ht3⟩ := ivt_mul (paraVal_cont deg c) hle hs
    rw [← hepsd]
    refine ⟨by rw [hth]; exact h1, by rw [hi1]; exact h2, ?_, ?_, t, ht1, ht2, paraVal_zero hdeg hc ht3, ?_⟩
    · rw [hi1] at h3 ⊢
      rw [hth i] at h3 ⊢
      exact h3
    · intro h
      rw [h4 h, hi1, hth]
      ring
    · rw [hi1] at ht2
      rw [hth] at ht1
      rw [abs_le]
      constructor <;> linarith

/-- C37: calls with invalid arguments are rejected and change nothing. -/
theorem C37_paraherm_invalid (deg : ℕ) (p roots : Option (Buf ℂ)) (M : Option ℕ) (PHI : Option (ℝ × ℝ))
    (h : deg % 2 = 1 ∨ deg < 2 ∨ p = none ∨ M = none ∨ (∃ m, M = some m ∧ m < 2) ∨ PHI = none ∨ (∃ P, PHI = some P ∧ P.2 ≤ P.1) ∨
      roots = none) :
    poly_roots_fftgridsearch_paraherm deg p M PHI roots = some ⟨EC_INVALID_ARGUMENT, M, roots⟩ := by
  unfold poly_roots_fftgridsearch_paraherm
  rcases p with _ | p <;> rcases M with _ | M <;> rcases PHI with _ | PHI <;> rcases roots with _ | roots <;> try rfl
  dsimp only
  rw [if_pos]
  rcases h with h | h | h | h | ⟨m, h1, h2⟩ | h | ⟨P, h1, h2⟩ | h
  · exact Or.inl h
  · exact Or.inr (Or.inl h)
  · cases h
  · cases h
  · cases h1; exact Or.inr (Or.inr (Or.inl h2))
  · cases h
  · cases h1; exact Or.inr (Or.inr (Or.inr (not_lt.mpr h2)))
  · cases h

/-- The hypotheses are met: `z^2 - 1`-like example `i z^2 - i` on five grid points. -/
example : Spec.ParaHerm 2 (fun j => if j = 0 then I else if j = 2 then -I else 0) ∧
    (Buf.ofFn 3 (fun j => if j = 0 then I else if j = 2 then -I else (0 : ℂ))).Holds 0 (2 + 1)
      (fun j => if j = 0 then I else if j = 2 then -I else 0) ∧ (2 + 5 : ℕ) < 3 ^ 32 := by
  refine ⟨fun j hj => ?_, Buf.holds_ofFn _ _, by norm_num⟩
  interval_cases j <;> simp

end FNFT

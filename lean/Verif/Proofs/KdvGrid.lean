import Verif.Proofs.KdvNewton
/-!
# Proofs: the grid search on the imaginary axis
-/
namespace FNFT
open Complex AknsDisc

theorem kdvGridY_pos {next : ℝ → ℝ → ℝ} {b : ℝ} {M : ℕ} (hM : 2 ≤ M) (hn : Spec.NextOK next b M) (hb : 0 < b) {i : ℕ} :
    0 < Spec.kdvGridY next b M i := by
  have hM1 : (1 : ℝ) ≤ (M : ℝ) - 1 := by have : (2 : ℝ) ≤ M := by exact_mod_cast hM
                                         linarith
  unfold Spec.kdvGridY
  split_ifs with h1 h2
  · exact hn.left
  · have h := hn.right'
    have : b / ((M : ℝ) - 1) / 2 < b := by
      have : b / ((M : ℝ) - 1) ≤ b := div_le_self hb.le hM1
      linarith
    linarith
  · have : (0 : ℝ) < i := by exact_mod_cast Nat.pos_of_ne_zero h1
    exact div_pos (mul_pos hb this) (by linarith)

theorem kdvGridY_lt {next : ℝ → ℝ → ℝ} {b : ℝ} {M : ℕ} (hM : 2 ≤ M) (hn : Spec.NextOK next b M) (hb : 0 < b) {i : ℕ} (hi : i + 1 < M) :
    Spec.kdvGridY next b M i < Spec.kdvGridY next b M (i + 1) := by
  have hM1 : (1 : ℝ) ≤ (M : ℝ) - 1 := by have : (2 : ℝ) ≤ M := by exact_mod_cast hM
                                         linarith
  have hd : (0 : ℝ) < b / (M - 1) := div_pos hb (by linarith)
  have hlast : b = b / ((M : ℝ) - 1) * (M - 1) := by field_simp
  have hmul : ∀ j : ℕ, b * j / ((M : ℝ) - 1) = b / (M - 1) * j := fun j => by ring
  unfold Spec.kdvGridY
  rw [if_neg (by omega : ¬ i + 1 = 0), hmul, hmul]
  by_cases h0 : i = 0
  · subst h0
    rw [if_pos rfl]
    split_ifs with h2
    · have h1 := hn.left'; have h2' := hn.right'
      have : b / ((M : ℝ) - 1) ≤ b := div_le_self hb.le hM1
      linarith
    · have := hn.left'
      push_cast; linarith
  · rw [if_neg h0, if_neg (by omega)]
    split_ifs with h2
    · have h1 := hn.right'
      have : (i : ℝ) = M - 1 - 1 := by
        have : i + 2 = M := by omega
        rw [← this]; push_cast; ring
      rw [this]
      nlinarith
    · push_cast; nlinarith

theorem kdvGridY_lt_b {next : ℝ → ℝ → ℝ} {b : ℝ} {M : ℕ} (hM : 2 ≤ M) (hn : Spec.NextOK next b M) (hb : 0 < b) {i : ℕ} (hi : i < M) :
    Spec.kdvGridY next b M i < b := by
  have hM1 : (1 : ℝ) ≤ (M : ℝ) - 1 := by have : (2 : ℝ) ≤ M := by exact_mod_cast hM
                                         linarith
  unfold Spec.kdvGridY
  split_ifs with h1 h2
  · have h := hn.left'
    have : b / ((M : ℝ) - 1) ≤ b := div_le_self hb.le hM1
    linarith
  · exact hn.right
  · rw [div_lt_iff₀ (by linarith)]
    have : (i : ℝ) < M - 1 := by
      have : i + 1 < M := by omega
      have : ((i + 1 : ℕ) : ℝ) < M := by exact_mod_cast this
      push_cast at this; linarith
    nlinarith

/-- The interpolated point is between the two points. -/
theorem falsi_between {c y0 y1 P0 P1 : ℝ} (hc : 0 < c) (hy : y0 < y1) (hP : P0 * P1 < 0) :
    y0 < Spec.falsi c y0 y1 P0 P1 ∧ Spec.falsi c y0 y1 P0 P1 < y1 := by
  unfold Spec.falsi
  rcases mul_neg_iff.mp hP with ⟨h0, h1⟩ | ⟨h0, h1⟩
  · have hden : c * P1 - P0 < 0 := by nlinarith
    constructor
    · rw [lt_div_iff_of_neg hden]; nlinarith
    · rw [div_lt_iff_of_neg hden]; nlinarith [mul_pos hc (neg_pos.mpr h1)]
  · have hden : 0 < c * P1 - P0 := by nlinarith
    constructor
    · rw [lt_div_iff₀ hden]; nlinarith
    · rw [div_lt_iff₀ hden]; nlinarith [mul_pos hc h1]

theorem kdvGrid_ok (next : NextToward) (b : ℝ) (M : ℕ) :
    ∃ xi, kdvGrid next b M = some xi ∧ xi.Holds 0 M (fun i => I * (Spec.kdvGridY next b M i : ℂ)) := by
  obtain ⟨xi, h1, h2, h3⟩ := fill_spec (off := 0) (cnt := M) (b := (Buf.malloc M : Buf ℂ))
    (f := fun i => some (if i = 0 then I * (next 0 b : ℝ) else if i = M - 1 then I * (next b 0 : ℝ)
    else I * (((I * ((b - 0 : ℝ) : ℂ) / ((M : ℂ) - 1) * (i : ℂ)).im : ℝ) : ℂ)))
    (fun i => I * (Spec.kdvGridY next b M i : ℂ)) (fun i _ hi => by
      congr 1
      unfold Spec.kdvGridY
      split_ifs with c1 c2
      · rfl
      · rfl
      · congr 2
        have : I * ((b - 0 : ℝ) : ℂ) / ((M : ℂ) - 1) * (i : ℂ) = ((b * i / (M - 1) : ℝ) : ℂ) * I := by
          push_cast; ring
        rw [this, Complex.im_ofReal_mul, I_im, mul_one]) (Or.inl (by simp))
  refine ⟨xi, h1, fun i hi => ?_⟩
  rw [Nat.zero_add, h3, if_pos (by omega)]

/-! ## The scan -/

theorem two_zpow_mul_re (w : ℤ) (z : ℂ) : ((2 : ℂ) ^ w * z).re = (2 : ℝ) ^ w * z.re := by
  have e : (2 : ℂ) ^ w = (((2 : ℝ) ^ w : ℝ) : ℂ) := by push_cast; rfl
  rw [e, Complex.re_ofReal_mul]

/-- The ratio of the scaling factors that the regula falsi uses. -/
noncomputable def sclRatio (Ws : Option (Buf ℤ)) (w : ℕ → ℤ) (i : ℕ) : ℝ :=
  if Ws.isSome then (2 : ℝ) ^ (2 * (w i - w (i - 1)).tdiv 2 - (w i - w (i - 1))) else 1

theorem sclRatio_vals (Ws : Option (Buf ℤ)) (w : ℕ → ℤ) (i : ℕ) :
    sclRatio Ws w i = 1 ∨ Ws.isSome = true ∧ (sclRatio Ws w i = 2 ∨ sclRatio Ws w i = 1 / 2) := by
  unfold sclRatio
  split_ifs with h
  · generalize w i - w (i - 1) = d
    have h3 : 2 * d.tdiv 2 - d = 0 ∨ 2 * d.tdiv 2 - d = 1 ∨ 2 * d.tdiv 2 - d = -1 := by
      have h1 := Int.tmod_add_mul_tdiv d 2
      have h2 : d.tmod 2 = 0 ∨ d.tmod 2 = 1 ∨ d.tmod 2 = -1 := by
        have := Int.tmod_two_eq d
        omega
      omega
    rcases h3 with h3 | h3 | h3 <;> rw [h3]
    · left; simp
    · right; exact ⟨h, Or.inl (by norm_num)⟩
    · right; exact ⟨h, Or.inr (by norm_num)⟩
  · left; rfl

theorem sclRatio_pos (Ws : Option (Buf ℤ)) (w : ℕ → ℤ) (i : ℕ) : 0 < sclRatio Ws w i := by
  rcases sclRatio_vals Ws w i with h | ⟨-, h | h⟩ <;> rw [h] <;> norm_num

variable {M K0 : ℕ} {xi coef : Buf ℂ} {Ws : Option (Buf ℤ)} {y : ℕ → ℝ} {p : ℕ → ℂ} {w : ℕ → ℤ}

theorem kdvFalsi_ok (hxi : xi.Holds 0 M (fun i => I * (y i : ℂ))) (hc : ∀ i, i < M → coef.rd (4 * i) = some ((2 : ℂ) ^ (-w i) * p i))
    (hW : ∀ V, Ws = some V → ∀ i, i < M → V.rd i = some (w i)) (hW0 : Ws = none → ∀ i, w i = 0) {i : ℕ} (hi0 : 0 < i) (hi : i < M) :
    kdvFalsi xi coef Ws i = some (I * (Spec.falsi (sclRatio Ws w i) (y (i - 1)) (y i) (p (i - 1)).re (p i).re : ℂ)) := by
  have hs : ∃ s : ℤ, kdvScl Ws i = some s ∧ sclRatio Ws w i = (2 : ℝ) ^ (2 * s - (w i - w (i - 1))) := by
    cases hWs : Ws with
    | none => exact ⟨0, rfl, by simp [sclRatio, hW0 hWs]⟩
    | some V =>
      refine ⟨(w i - w (i - 1)).tdiv 2, ?_, by simp [sclRatio]⟩
      unfold kdvScl
      simp only [hW V hWs i hi, hW V hWs (i - 1) (by omega), Option.bind_eq_bind, Option.bind_some]
      rfl
  obtain ⟨s, hs1, hs2⟩ := hs
  have h1 := hxi i hi
  have h0 := hxi (i - 1) (by omega)
  rw [Nat.zero_add] at h1 h0
  unfold kdvFalsi
  simp only [h1, h0, hc i hi, hc (i - 1) (by omega), hs1, Option.bind_eq_bind, Option.bind_some, Option.pure_def]
  congr 1
  rw [hs2, two_zpow_mul_re, two_zpow_mul_re]
  have hden : (((((2 : ℝ) ^ s : ℝ) : ℂ) * ((2 : ℂ) ^ (-w i) * p i) - (((2 : ℝ) ^ (-s) : ℝ) : ℂ) * ((2 : ℂ) ^ (-w (i - 1)) * p (i - 1))).re : ℝ) =
      (2 : ℝ) ^ s * ((2 : ℝ) ^ (-w i) * (p i).re) - (2 : ℝ) ^ (-s) * ((2 : ℝ) ^ (-w (i - 1)) * (p (i - 1)).re) := by
    rw [Complex.sub_re, Complex.re_ofReal_mul, Complex.re_ofReal_mul, two_zpow_mul_re, two_zpow_mul_re]
  rw [hden]
  have ht : (2 : ℝ) ^ (-s - w (i - 1)) ≠ 0 := zpow_ne_zero _ (by norm_num)
  have e0 : (2 : ℝ) ^ (-s) * (2 : ℝ) ^ (-w (i - 1)) = (2 : ℝ) ^ (-s - w (i - 1)) := by
    rw [← zpow_add₀ (by norm_num)]; congr 1
  have e1 : (2 : ℝ) ^ s * (2 : ℝ) ^ (-w i) = (2 : ℝ) ^ (-s - w (i - 1)) * (2 : ℝ) ^ (2 * s - (w i - w (i - 1))) := by
    rw [← zpow_add₀ (by norm_num), ← zpow_add₀ (by norm_num)]; congr 1; ring
  generalize (2 : ℝ) ^ (2 * s - (w i - w (i - 1))) = c at e1
  generalize (2 : ℝ) ^ (-s - w (i - 1)) = t at e0 e1 ht
  have hnum : I * (y (i - 1) : ℂ) * (((2 : ℝ) ^ s : ℝ) : ℂ) * (((2 : ℝ) ^ (-w i) * (p i).re : ℝ) : ℂ) -
      I * (y i : ℂ) * (((2 : ℝ) ^ (-s) : ℝ) : ℂ) * (((2 : ℝ) ^ (-w (i - 1)) * (p (i - 1)).re : ℝ) : ℂ) =
      I * ((t * (y (i - 1) * (c * (p i).re) - y i * (p (i - 1)).re) : ℝ) : ℂ) := by
    have e0' : (((2 : ℝ) ^ (-s) : ℝ) : ℂ) * (((2 : ℝ) ^ (-w (i - 1)) : ℝ) : ℂ) = (t : ℂ) := by rw [← ofReal_mul, e0]
    have e1' : (((2 : ℝ) ^ s : ℝ) : ℂ) * (((2 : ℝ) ^ (-w i) : ℝ) : ℂ) = (t : ℂ) * (c : ℂ) := by rw [← ofReal_mul, e1, ofReal_mul]
    rw [ofReal_mul ((2 : ℝ) ^ (-w i)), ofReal_mul ((2 : ℝ) ^ (-w (i - 1)))]
    simp only [ofReal_mul, ofReal_sub]
    linear_combination (I * (y (i - 1) : ℂ) * ((p i).re : ℂ)) * e1' - (I * (y i : ℂ) * ((p (i - 1)).re : ℂ)) * e0'
  have hden' : (2 : ℝ) ^ s * ((2 : ℝ) ^ (-w i) * (p i).re) - (2 : ℝ) ^ (-s) * ((2 : ℝ) ^ (-w (i - 1)) * (p (i - 1)).re) =
      t * (c * (p i).re - (p (i - 1)).re) := by
    linear_combination (p i).re * e1 - (p (i - 1)).re * e0
  rw [hden', hnum, mul_div_assoc, ← ofReal_div, mul_div_mul_left _ _ ht]
  rfl

theorem kdvScan_ok (hxi : xi.Holds 0 M (fun i => I * (y i : ℂ))) (hc : ∀ i, i < M → coef.rd (4 * i) = some ((2 : ℂ) ^ (-w i) * p i))
    (hW : ∀ V, Ws = some V → ∀ i, i < M → V.rd i = some (w i)) (hW0 : Ws = none → ∀ i, w i = 0) {bs : Buf ℂ} (hK : K0 ≤ bs.len) :
    ∃ (out : List ℝ) (S : KdvScan), Spec.KdvGuesses Ws.isSome M y p out ∧
      forLoop M (kdvScanBody K0 xi coef Ws) ⟨SUCCESS, 0, bs⟩ = some S ∧ S.bs.len = bs.len ∧ (∀ j, K0 ≤ j → S.bs.rd j = bs.rd j) ∧
      (out.length ≤ K0 → S.ret = SUCCESS ∧ S.K = out.length ∧ S.bs.Holds 0 out.length (fun i => I * (out.getD i 0 : ℂ)) ∧
        ∀ j, out.length ≤ j → S.bs.rd j = bs.rd j) ∧
      (K0 < out.length → S.ret = E_SUBROUTINE EC_OTHER) := by
  classical
  obtain ⟨G, hG⟩ : ∃ G, G = Spec.kdvGuessAt (sclRatio Ws w) y p := ⟨_, rfl⟩
  have key := forLoop_inv (n := M) (body := kdvScanBody K0 xi coef Ws) (s := ⟨SUCCESS, 0, bs⟩)
    (fun i S => S.bs.len = bs.len ∧ (∀ j, K0 ≤ j → S.bs.rd j = bs.rd j) ∧
      (((List.range i).filterMap G).length ≤ K0 → S.ret = SUCCESS ∧ S.K = ((List.range i).filterMap G).length ∧
        S.bs.Holds 0 ((List.range i).filterMap G).length (fun k => I * (((List.range i).filterMap G).getD k 0 : ℂ)) ∧
        ∀ j, ((List.range i).filterMap G).length ≤ j → S.bs.rd j = bs.rd j) ∧
      (K0 < ((List.range i).filterMap G).length → S.ret = E_SUBROUTINE EC_OTHER)) ?_ ?_
  · obtain ⟨S, h1, h2, h3, h4, h5⟩ := key
    exact ⟨_, S, ⟨sclRatio Ws w, sclRatio_vals Ws w, rfl⟩, h1, h2, h3, by rw [← hG]; exact h4, by rw [← hG]; exact h5⟩
  · refine ⟨rfl, fun _ _ => rfl, fun _ => ⟨rfl, rfl, fun i hi => by simp at hi, fun _ _ => rfl⟩, fun h => by simp at h⟩
  · rintro i S hi ⟨h1, h2, h3, h4⟩
    rw [List.range_succ, List.filterMap_append]
    obtain ⟨L, hL⟩ : ∃ L, L = (List.range i).filterMap G := ⟨_, rfl⟩
    rw [← hL] at h3 h4 ⊢
    by_cases hlen : K0 < L.length
    · have hr := h4 hlen
      refine ⟨S, ?_, h1, h2, fun c => ?_, fun _ => hr⟩
      · unfold kdvScanBody
        rw [if_pos (by rw [hr]; decide)]
      · rw [List.length_append] at c; omega
    · obtain ⟨e1, e2, e3, e4⟩ := h3 (by omega)
      -- what the body does for an optional guess
      have hguess : ∀ (u : ℝ), ∃ S', kdvGuess K0 (some (I * (u : ℂ))) S = some S' ∧ S'.bs.len = bs.len ∧ (∀ j, K0 ≤ j → S'.bs.rd j = bs.rd j) ∧
          ((L ++ [u]).length ≤ K0 → S'.ret = SUCCESS ∧ S'.K = (L ++ [u]).length ∧
            S'.bs.Holds 0 (L ++ [u]).length (fun k => I * ((L ++ [u]).getD k 0 : ℂ)) ∧ ∀ j, (L ++ [u]).length ≤ j → S'.bs.rd j = bs.rd j) ∧
          (K0 < (L ++ [u]).length → S'.ret = E_SUBROUTINE EC_OTHER) := by
        intro u
        rw [List.length_append, List.length_singleton]
        unfold kdvGuess
        by_cases hK' : S.K ≥ K0
        · rw [if_pos hK']
          exact ⟨_, rfl, h1, h2, fun c => by omega, fun _ => rfl⟩
        · rw [if_neg hK']
          obtain ⟨b', w1, w2, w3, w4⟩ := Buf.wr_spec (b := S.bs) (i := S.K) (I * (u : ℂ)) (by omega)
          refine ⟨{ S with K := S.K + 1, bs := b' }, ?_, by rw [← h1]; exact w2, fun j hj => ?_, fun _ => ⟨e1, by rw [← e2], ?_, ?_⟩, fun c => by omega⟩
          · simp only [Option.bind_eq_bind, Option.bind_some, w1, Option.pure_def]
          · show b'.rd j = _
            rw [w4 j (by omega)]; exact h2 j hj
          · intro k hk
            show b'.rd _ = _
            rw [Nat.zero_add]
            by_cases hkl : k = L.length
            · rw [hkl, ← e2, w3, e2]
              simp
            · rw [w4 k (by omega)]
              have := e3 k (by omega)
              rw [Nat.zero_add] at this
              rw [this]
              simp only
              rw [List.getD_eq_getElem?_getD, List.getD_eq_getElem?_getD, List.getElem?_append_left (by omega)]
          · intro j hj
            show b'.rd j = _
            rw [w4 j (by omega)]
            exact e4 j (by omega)
      have hnone : G i = none → ∃ x, some S = some x ∧ x.bs.len = bs.len ∧ (∀ j, K0 ≤ j → x.bs.rd j = bs.rd j) ∧
          ((L ++ List.filterMap G [i]).length ≤ K0 → x.ret = SUCCESS ∧ x.K = (L ++ List.filterMap G [i]).length ∧
            x.bs.Holds 0 (L ++ List.filterMap G [i]).length (fun k => I * ((L ++ List.filterMap G [i]).getD k 0 : ℂ)) ∧
            ∀ j, (L ++ List.filterMap G [i]).length ≤ j → x.bs.rd j = bs.rd j) ∧
          (K0 < (L ++ List.filterMap G [i]).length → x.ret = E_SUBROUTINE EC_OTHER) := by
        intro hn
        have : List.filterMap G [i] = [] := by simp [hn]
        rw [this, List.append_nil]
        exact ⟨S, rfl, h1, h2, h3, h4⟩
      have hsome : ∀ u, G i = some u → List.filterMap G [i] = [u] := fun u hu => by simp [hu]
      unfold kdvScanBody
      rw [if_neg (by rw [e1]; simp), hc i hi]
      simp only [Option.bind_eq_bind, Option.bind_some]
      have hpz : (2 : ℂ) ^ (-w i) * p i = 0 ↔ p i = 0 := by
        simp [zpow_ne_zero]
      by_cases hp : p i = 0
      · rw [if_pos (hpz.mpr hp)]
        have hgi : G i = some (y i) := by rw [hG, Spec.kdvGuessAt, if_pos hp]
        rw [hsome _ hgi]
        have hx := hxi i hi
        rw [Nat.zero_add] at hx
        rw [hx]
        exact hguess (y i)
      · rw [if_neg (fun c => hp (hpz.mp c))]
        unfold kdvSignChange
        by_cases hi0 : 0 < i
        · rw [if_pos hi0, hc i hi, hc (i - 1) (by omega)]
          simp only [Option.bind_eq_bind, Option.bind_some, Option.pure_def]
          have hsgn : ((2 : ℂ) ^ (-w i) * p i).re * ((2 : ℂ) ^ (-w (i - 1)) * p (i - 1)).re < 0 ↔ (p (i - 1)).re * (p i).re < 0 := by
            rw [two_zpow_mul_re, two_zpow_mul_re]
            have hpos : 0 < (2 : ℝ) ^ (-w i) * (2 : ℝ) ^ (-w (i - 1)) := mul_pos (zpow_pos (by norm_num) _) (zpow_pos (by norm_num) _)
            rw [show (2 : ℝ) ^ (-w i) * (p i).re * ((2 : ℝ) ^ (-w (i - 1)) * (p (i - 1)).re) =
              ((2 : ℝ) ^ (-w i) * (2 : ℝ) ^ (-w (i - 1))) * ((p (i - 1)).re * (p i).re) by ring]
            constructor
            · intro hh; by_contra hcc; push Not at hcc; linarith [mul_nonneg hpos.le hcc]
            · exact fun hh => mul_neg_of_pos_of_neg hpos hh
          by_cases hs : (p (i - 1)).re * (p i).re < 0
          · rw [if_pos (hsgn.mpr hs), kdvFalsi_ok hxi hc hW hW0 hi0 hi]
            have hgi : G i = some (Spec.falsi (sclRatio Ws w i) (y (i - 1)) (y i) (p (i - 1)).re (p i).re) := by
              rw [hG, Spec.kdvGuessAt, if_neg hp, if_pos ⟨hi0, hs⟩]
            rw [hsome _ hgi]
            exact hguess _
          · rw [if_neg (fun c => hs (hsgn.mp c))]
            exact hnone (by rw [hG, Spec.kdvGuessAt, if_neg hp, if_neg (fun c => hs c.2)])
        · rw [if_neg hi0]
          simp only [Option.bind_some, if_false, Option.pure_def]
          exact hnone (by rw [hG, Spec.kdvGuessAt, if_neg hp, if_neg (fun c => hi0 c.1)])

end FNFT

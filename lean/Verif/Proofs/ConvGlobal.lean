import Verif.Proofs.ConvAbs
import Mathlib.Analysis.Complex.Basic
/-!
# Global error of one-step methods for `V' = P V`
-/
set_option linter.unusedSectionVars false
set_option linter.unusedVariables false
namespace FNFT.Conv
open NormedSpace Set

variable {𝔸 : Type*} [NormedRing 𝔸] [NormedAlgebra ℂ 𝔸] [CompleteSpace 𝔸] [NormOneClass 𝔸]

theorem csmul_exp (r : ℝ) (X : 𝔸) : exp ((r : ℂ) • X) = exp (r • X) := by rw [Complex.coe_smul]

/-- At most exponential growth. -/
def Grow (V : ℝ → 𝔸) (M a b : ℝ) : Prop := ∀ s t, a ≤ s → s ≤ t → t ≤ b → ‖V t‖ ≤ Real.exp (M * (t - s)) * ‖V s‖

theorem Sol.grow {P V : ℝ → 𝔸} {a b M : ℝ} (h : Sol P V a b) (hP : ∀ t ∈ Icc a b, ‖P t‖ ≤ M) : Grow V M a b :=
  fun s t hs hst ht => (h.mono hs le_rfl).growth (fun u hu => hP u ⟨hs.trans hu.1, hu.2⟩) ⟨hst, ht⟩

theorem Grow.union {V : ℝ → 𝔸} {M a b c : ℝ} (h1 : Grow V M a c) (h2 : Grow V M c b) : Grow V M a b := by
  intro s t hs hst ht
  rcases le_total t c with htc | htc
  · exact h1 s t hs hst htc
  · rcases le_total s c with hsc | hsc
    · have e1 := h1 s c hs hsc le_rfl
      have e2 := h2 c t le_rfl htc ht
      calc ‖V t‖ ≤ Real.exp (M * (t - c)) * (Real.exp (M * (c - s)) * ‖V s‖) := e2.trans (mul_le_mul_of_nonneg_left e1 (Real.exp_pos _).le)
        _ = _ := by rw [← mul_assoc, ← Real.exp_add]; ring_nf
    · exact h2 s t hsc hst ht

theorem Sol.union {P V : ℝ → 𝔸} {a b c : ℝ} (h1 : Sol P V a c) (h2 : Sol P V c b) (hac : a ≤ c) (hcb : c ≤ b) : Sol P V a b := by
  have := h1.glue h2 hac hcb rfl
  simpa only [ite_self] using this

theorem stab {x : ℝ} (hx : 0 ≤ x) : Real.exp x + 8 * (tail x + x ^ 2 / 2) ≤ Real.exp (5 * x) := by
  have h1 := tail_one_le hx
  have h2 : Real.exp (5 * x) = Real.exp x * Real.exp (4 * x) := by rw [← Real.exp_add]; ring_nf
  have h3 := Real.quadratic_le_exp_of_nonneg (x := 4 * x) (by positivity)
  rw [h2]
  nlinarith [Real.exp_pos x, mul_le_mul_of_nonneg_left h3 (Real.exp_pos x).le, mul_nonneg hx (Real.exp_pos x).le]

theorem one_step {x w U Ex : ℕ → 𝔸} {N : ℕ} {h M X σ : ℝ} {d : ℕ → ℝ} (hh : 0 ≤ h) (hM : 0 ≤ M) (hw : ∀ n < N, w (n + 1) = U n * w n) (h0 : w 0 = x 0)
    (hX : ∀ n < N, ‖x n‖ ≤ X) (hE : ∀ n < N, ‖Ex n‖ ≤ Real.exp (h * M)) (hU : ∀ n < N, ‖U n - Ex n‖ ≤ σ)
    (hσ : σ ≤ 8 * (tail (h * M) + (h * M) ^ 2 / 2)) (hd : ∀ n < N, ‖x (n + 1) - Ex n * x n‖ ≤ d n) :
    ‖w N - x N‖ ≤ Real.exp (5 * M * (N * h)) * (∑ n ∈ Finset.range N, d n + N * (σ * X)) := by
  have hg : 1 ≤ Real.exp (5 * (h * M)) := Real.one_le_exp (by positivity)
  have key := global (x := x) (w := w) (U := U) (τ := fun n => d n + σ * X) hg (N := N) hw (fun n hn => ?_) (fun n hn => ?_) h0
  · rw [Finset.sum_add_distrib, Finset.sum_const, Finset.card_range, nsmul_eq_mul, ← Real.exp_nat_mul] at key
    convert key using 3
    ring
  · have e : U n = Ex n + (U n - Ex n) := by abel
    rw [e]
    exact (norm_add_le _ _).trans ((add_le_add (hE n hn) ((hU n hn).trans hσ)).trans (stab (by positivity)))
  · have e : x (n + 1) - U n * x n = (x (n + 1) - Ex n * x n) - (U n - Ex n) * x n := by rw [sub_mul]; abel
    rw [e]
    have hs : 0 ≤ σ := (norm_nonneg _).trans (hU n hn)
    exact (norm_sub_le _ _).trans (add_le_add (hd n hn) ((norm_mul_le _ _).trans (mul_le_mul (hU n hn) (hX n hn) (norm_nonneg _) hs)))

/-- Second order convergence. -/
theorem err_two {P V : ℝ → 𝔸} {P1 U w : ℕ → 𝔸} {N : ℕ} {t0 h M L K1 : ℝ} (hh : 0 ≤ h) (hL : 0 ≤ L) (hN : 1 ≤ N)
    (hV : Sol P V t0 (t0 + N * h)) (hP : ∀ t ∈ Icc t0 (t0 + N * h), ‖P t‖ ≤ M)
    (hT : ∀ n < N, ∀ t ∈ Icc (t0 + n * h) (t0 + (n + 1) * h), ‖P t - P (t0 + n * h + h / 2) - ((t - (t0 + n * h + h / 2) : ℝ) : ℂ) • P1 n‖ ≤
      L * (t - (t0 + n * h + h / 2)) ^ 2) (hP1 : ∀ n < N, ‖P1 n‖ ≤ K1)
    (hU : ∀ n < N, ‖U n - exp ((h : ℂ) • P (t0 + n * h + h / 2))‖ ≤ 8 * tail (h * M))
    (hw : ∀ n < N, w (n + 1) = U n * w n) (h0 : w 0 = V t0) :
    ‖w N - V (t0 + N * h)‖ ≤ Real.exp (7 * M * (N * h)) * (N * h) * ((L + 2 * K1 * M) / 4 + 4 / 3 * M ^ 3) * h ^ 2 * ‖V t0‖ := by
  have hN' : (1 : ℝ) ≤ N := by exact_mod_cast hN
  have hM : 0 ≤ M := (norm_nonneg _).trans (hP t0 ⟨le_rfl, by nlinarith⟩)
  have hK1 : 0 ≤ K1 := (norm_nonneg _).trans (hP1 0 (by omega))
  have hG := hV.grow hP
  have hnode : ∀ n < N, t0 + ((n : ℝ) + 1) * h ≤ t0 + N * h := by
    intro n hn
    have : ((n : ℝ) + 1) ≤ N := by exact_mod_cast hn
    nlinarith
  have hn0 : ∀ n : ℕ, t0 ≤ t0 + n * h := fun n => by have : (0 : ℝ) ≤ n * h := by positivity
                                                     linarith
  have hx : ∀ n < N, ‖V (t0 + n * h)‖ ≤ Real.exp (M * ((N - 1 : ℝ) * h)) * ‖V t0‖ := by
    intro n hn
    refine (hG t0 _ le_rfl (hn0 n) (by linarith [hnode n hn])).trans (mul_le_mul_of_nonneg_right (Real.exp_le_exp.mpr ?_) (norm_nonneg _))
    have : (n : ℝ) + 1 ≤ N := by exact_mod_cast hn
    rw [add_sub_cancel_left]
    gcongr
    linarith
  have key := one_step (x := fun n => V (t0 + n * h)) (w := w) (U := U) (Ex := fun n => exp ((h : ℂ) • P (t0 + n * h + h / 2))) (N := N) (h := h) (M := M)
    (X := Real.exp (M * ((N - 1 : ℝ) * h)) * ‖V t0‖) (σ := 8 * tail (h * M))
    (d := fun n => Real.exp (M * h) * ((L + 2 * K1 * M) * (h / 2) ^ 2 * (Real.exp (M * h) * (Real.exp (M * ((N - 1 : ℝ) * h)) * ‖V t0‖))) * h)
    hh hM hw (by simpa using h0) hx (fun n hn => ?_) hU (by nlinarith [sq_nonneg (h * M)]) (fun n hn => ?_)
  · refine key.trans ?_
    rw [Finset.sum_const, Finset.card_range, nsmul_eq_mul]
    have ht := tail_le (x := h * M) (by positivity)
    have e1 : Real.exp (h * M) ≤ Real.exp (M * h) * Real.exp (M * h) := by
      rw [← Real.exp_add]; exact Real.exp_le_exp.mpr (by nlinarith [mul_nonneg hh hM])
    have e2 : Real.exp (M * h) * Real.exp (M * h) * Real.exp (M * ((N - 1 : ℝ) * h)) ≤ Real.exp (2 * M * (N * h)) := by
      rw [← Real.exp_add, ← Real.exp_add]
      refine Real.exp_le_exp.mpr ?_
      nlinarith [mul_nonneg hM hh, mul_nonneg (mul_nonneg hM hh) (sub_nonneg.mpr hN')]
    have e3 : Real.exp (7 * M * (N * h)) = Real.exp (5 * M * (N * h)) * Real.exp (2 * M * (N * h)) := by rw [← Real.exp_add]; ring_nf
    rw [e3, mul_assoc (Real.exp (5 * M * (N * h))), mul_assoc (Real.exp (5 * M * (N * h))), mul_assoc (Real.exp (5 * M * (N * h))),
      mul_assoc (Real.exp (5 * M * (N * h)))]
    refine mul_le_mul_of_nonneg_left ?_ (Real.exp_pos _).le
    have hv := norm_nonneg (V t0)
    set v := ‖V t0‖
    set E := Real.exp (M * h)
    set F := Real.exp (M * ((N - 1 : ℝ) * h))
    have hF : 0 < F := Real.exp_pos _
    have hE : 0 < E := Real.exp_pos _
    have b1 : 8 * tail (h * M) * (F * v) ≤ 8 * ((h * M) ^ 3 / 6 * (E * E)) * (F * v) := by
      have : tail (h * M) ≤ (h * M) ^ 3 / 6 * (E * E) := ht.trans (mul_le_mul_of_nonneg_left e1 (by positivity))
      have := mul_le_mul_of_nonneg_right this (by positivity : (0 : ℝ) ≤ F * v)
      linarith
    have b2 : (E * ((L + 2 * K1 * M) * (h / 2) ^ 2 * (E * (F * v))) * h) + 8 * tail (h * M) * (F * v) ≤
        (E * E * F) * ((((L + 2 * K1 * M) / 4 + 4 / 3 * M ^ 3) * h ^ 3) * v) := by
      refine (add_le_add_right b1 _).trans (le_of_eq ?_)
      ring
    have b3 : (E * E * F) * ((((L + 2 * K1 * M) / 4 + 4 / 3 * M ^ 3) * h ^ 3) * v) ≤
        Real.exp (2 * M * (N * h)) * ((((L + 2 * K1 * M) / 4 + 4 / 3 * M ^ 3) * h ^ 3) * v) := mul_le_mul_of_nonneg_right e2 (by positivity)
    have b4 := mul_le_mul_of_nonneg_left (b2.trans b3) (by positivity : (0 : ℝ) ≤ N)
    calc _ = (N : ℝ) * ((E * ((L + 2 * K1 * M) * (h / 2) ^ 2 * (E * (F * v))) * h) + 8 * tail (h * M) * (F * v)) := by ring
      _ ≤ _ := b4
      _ = _ := by ring
  · refine norm_exp_le ?_
    rw [norm_smul, Complex.norm_real, Real.norm_eq_abs, abs_of_nonneg hh]
    exact mul_le_mul_of_nonneg_left (hP _ ⟨by linarith [hn0 n], by linarith [hnode n hn]⟩) hh
  · have hc1 : t0 + n * h + h / 2 - h / 2 = t0 + n * h := by ring
    have hc2 : t0 + n * h + h / 2 + h / 2 = t0 + (n + 1) * h := by ring
    have hin : ∀ t ∈ Icc (t0 + n * h) (t0 + (n + 1) * h), t ∈ Icc t0 (t0 + N * h) := fun t ht =>
      ⟨(hn0 n).trans ht.1, ht.2.trans (hnode n hn)⟩
    have hloc := local_two (P := P) (V := V) (m := t0 + n * h + h / 2) (k := h / 2) (M := M) (Q := P (t0 + n * h + h / 2)) (L := L) (K1 := K1) (P1 := P1 n)
      (B := Real.exp (M * h) * (Real.exp (M * ((N - 1 : ℝ) * h)) * ‖V t0‖)) (by positivity)
      (by rw [hc1, hc2]; exact hV.mono (hn0 n) (hnode n hn))
      (hP _ ⟨by linarith [hn0 n], by linarith [hnode n hn]⟩)
      (by rw [hc1, hc2]; exact fun t ht => hP t (hin t ht))
      (by rw [hc1, hc2]; intro t ht; have := hT n hn t ht; rwa [Complex.coe_smul] at this) hL (hP1 n hn)
      (by
        rw [hc1, hc2]
        intro t ht
        have g1 := hG (t0 + n * h) t (hn0 n) ht.1 (ht.2.trans (hnode n hn))
        refine g1.trans (mul_le_mul (Real.exp_le_exp.mpr (mul_le_mul_of_nonneg_left ?_ hM)) (hx n hn) (norm_nonneg _) (Real.exp_pos _).le)
        linarith [ht.2])
    rw [hc1, hc2, show 2 * (h / 2) = h by ring, show 2 * (M * (h / 2)) = M * h by ring] at hloc
    simp only [csmul_exp]
    convert hloc using 3
    push_cast; rfl

set_option maxHeartbeats 1000000 in
/-- First order convergence for a function `P` that may have jumps at `s0` and `s1`. -/
theorem err_one {P P0 V : ℝ → 𝔸} {Pn U w : ℕ → 𝔸} {N : ℕ} {t0 h M L Q s0 s1 : ℝ} (hh : 0 < h) (hL : 0 ≤ L) (hQ : 0 ≤ Q) (hN : 2 ≤ N)
    (hs0 : s0 = t0 + h / 2) (hs1 : s1 = t0 + N * h - h / 2)
    (hV0 : Sol P0 V t0 s0) (hV : Sol P V s0 s1) (hV1 : Sol P0 V s1 (t0 + N * h))
    (hP : ∀ t, ‖P t‖ ≤ M) (hP0 : ∀ t, ‖P0 t‖ ≤ M) (hPn : ∀ n, ‖Pn n‖ ≤ M)
    (hT : ∀ n < N, ∀ t ∈ Icc s0 s1, ‖P t - Pn n‖ ≤ L * |t - (t0 + n * h + h / 2)|)
    (hT0 : ∀ n < N, ∀ t, ‖P0 t - Pn n‖ ≤ Q)
    (hU : ∀ n < N, ‖U n - exp ((h : ℂ) • Pn n)‖ ≤ 8 * (tail (h * M) + (h * M) ^ 2 / 2))
    (hw : ∀ n < N, w (n + 1) = U n * w n) (h0 : w 0 = V t0) :
    ‖w N - V (t0 + N * h)‖ ≤ Real.exp (7 * M * (N * h)) * ((N * h) * (L / 2 + 8 * M ^ 2) + Q) * h * ‖V t0‖ := by
  have hN' : (2 : ℝ) ≤ N := by exact_mod_cast hN
  have hM : 0 ≤ M := (norm_nonneg _).trans (hP t0)
  have hs01 : s0 ≤ s1 := by rw [hs0, hs1]; nlinarith
  have h1s : s1 ≤ t0 + N * h := by rw [hs1]; linarith
  have h0s : t0 ≤ s0 := by rw [hs0]; linarith
  have hG : Grow V M t0 (t0 + N * h) := ((hV0.grow fun t _ => hP0 t).union (hV.grow fun t _ => hP t)).union (hV1.grow fun t _ => hP0 t)
  have hnode : ∀ n < N, t0 + ((n : ℝ) + 1) * h ≤ t0 + N * h := by
    intro n hn
    have : ((n : ℝ) + 1) ≤ N := by exact_mod_cast hn
    nlinarith
  have hn0 : ∀ n : ℕ, t0 ≤ t0 + n * h := fun n => by have : (0 : ℝ) ≤ n * h := by positivity
                                                     linarith
  have hx : ∀ n < N, ‖V (t0 + n * h)‖ ≤ Real.exp (M * ((N - 1 : ℝ) * h)) * ‖V t0‖ := by
    intro n hn
    refine (hG t0 _ le_rfl (hn0 n) (by linarith [hnode n hn])).trans (mul_le_mul_of_nonneg_right (Real.exp_le_exp.mpr ?_) (norm_nonneg _))
    have : (n : ℝ) + 1 ≤ N := by exact_mod_cast hn
    rw [add_sub_cancel_left]
    gcongr
    linarith
  obtain ⟨B, hB⟩ : ∃ B, B = Real.exp (M * h) * (Real.exp (M * ((N - 1 : ℝ) * h)) * ‖V t0‖) := ⟨_, rfl⟩
  have hB0 : 0 ≤ B := by rw [hB]; positivity
  -- parts of a cell
  have part : ∀ (R : ℝ → 𝔸) (δ : ℝ) (n : ℕ), n < N → ∀ a b, t0 + n * h ≤ a → a ≤ b → b ≤ t0 + (n + 1) * h → Sol R V a b →
      (∀ t ∈ Icc a b, ‖R t - Pn n‖ ≤ δ) →
      ‖exp (-(b - (t0 + n * h + h / 2)) • Pn n) * V b - exp (-(a - (t0 + n * h + h / 2)) • Pn n) * V a‖ ≤ Real.exp (M * (h / 2)) * (δ * B) * (b - a) := by
    intro R δ n hn a b ha hab hb hR hδ
    refine local_one hR hab (hPn n) (fun t ht => ?_) hδ (fun t ht => ?_)
    · rw [abs_le]; constructor <;> nlinarith [ht.1, ht.2]
    · have g1 := hG (t0 + n * h) t (hn0 n) (ha.trans ht.1) (ht.2.trans (hb.trans (hnode n hn)))
      rw [hB]
      refine g1.trans (mul_le_mul (Real.exp_le_exp.mpr (mul_le_mul_of_nonneg_left ?_ hM)) (hx n hn) (norm_nonneg _) (Real.exp_pos _).le)
      nlinarith [ht.2]
  have cell : ∀ n < N, ‖exp (-(t0 + (n + 1) * h - (t0 + n * h + h / 2)) • Pn n) * V (t0 + (n + 1) * h) -
      exp (-(t0 + n * h - (t0 + n * h + h / 2)) • Pn n) * V (t0 + n * h)‖ ≤
        Real.exp (M * (h / 2)) * (L * (h / 2) * h + if n = 0 ∨ n = N - 1 then Q * (h / 2) else 0) * B := by
    intro n hn
    have hδ : ∀ a b, t0 + n * h ≤ a → b ≤ t0 + (n + 1) * h → s0 ≤ a → b ≤ s1 → ∀ t ∈ Icc a b, ‖P t - Pn n‖ ≤ L * (h / 2) := by
      intro a b ha hb ha' hb' t ht
      refine (hT n hn t ⟨ha'.trans ht.1, ht.2.trans hb'⟩).trans (mul_le_mul_of_nonneg_left ?_ hL)
      rw [abs_le]; constructor <;> nlinarith [ht.1, ht.2]
    have hEB : 0 ≤ Real.exp (M * (h / 2)) * B := by positivity
    have hLh : 0 ≤ L * (h / 2) * h := by positivity
    by_cases n0 : n = 0
    · subst n0
      have e0 : t0 + ((0 : ℕ) : ℝ) * h = t0 := by simp
      have e1 : t0 + (((0 : ℕ) : ℝ) + 1) * h = t0 + h := by simp
      have c1 := part P0 Q 0 hn t0 s0 (by simp) h0s (by rw [e1, hs0]; linarith) hV0 (fun t _ => hT0 0 hn t)
      have c2 := part P (L * (h / 2)) 0 hn s0 (t0 + h) (by rw [e0]; exact h0s) (by rw [hs0]; linarith) (by rw [e1]) (hV.mono le_rfl (by rw [hs1]; nlinarith))
        (hδ _ _ (by rw [e0]; exact h0s) (by rw [e1]) le_rfl (by rw [hs1]; nlinarith))
      rw [e0, e1, if_pos (Or.inl rfl)]
      rw [e0] at c1 c2
      have e2 : ∀ x y z : 𝔸, x - z = (x - y) + (y - z) := fun x y z => by abel
      rw [e2 _ (exp (-(s0 - (t0 + h / 2)) • Pn 0) * V s0) _]
      refine (norm_add_le _ _).trans ((add_le_add c2 c1).trans ?_)
      have e3 : t0 + h - s0 = h / 2 := by rw [hs0]; ring
      have e4 : s0 - t0 = h / 2 := by rw [hs0]; ring
      rw [e3, e4]
      nlinarith [mul_nonneg hEB hLh]
    · by_cases n1 : n = N - 1
      · have e1 : t0 + ((n : ℝ) + 1) * h = t0 + N * h := by
          have : ((n : ℝ) + 1) = N := by rw [n1, Nat.cast_sub (by omega)]; simp
          rw [this]
        have e0 : t0 + (n : ℝ) * h = t0 + N * h - h := by linarith
        have c1 := part P (L * (h / 2)) n hn (t0 + n * h) s1 le_rfl (by rw [e0, hs1]; linarith) (by rw [e1]; exact h1s)
          (hV.mono (by rw [e0, hs0]; nlinarith) le_rfl) (hδ _ _ le_rfl (by rw [e1]; exact h1s) (by rw [e0, hs0]; nlinarith) le_rfl)
        have c2 := part P0 Q n hn s1 (t0 + (n + 1) * h) (by rw [e0, hs1]; linarith) (by rw [e1]; exact h1s) le_rfl (by rw [e1]; exact hV1)
          (fun t _ => hT0 n hn t)
        rw [if_pos (Or.inr n1)]
        have e2 : ∀ x y z : 𝔸, x - z = (x - y) + (y - z) := fun x y z => by abel
        rw [e2 _ (exp (-(s1 - (t0 + n * h + h / 2)) • Pn n) * V s1) _]
        refine (norm_add_le _ _).trans ((add_le_add c2 c1).trans ?_)
        have e3 : t0 + ((n : ℝ) + 1) * h - s1 = h / 2 := by rw [e1, hs1]; ring
        have e4 : s1 - (t0 + n * h) = h / 2 := by rw [e0, hs1]; ring
        rw [e3, e4]
        nlinarith [mul_nonneg hEB hLh]
      · have hn1 : (1 : ℝ) ≤ n := by exact_mod_cast Nat.one_le_iff_ne_zero.mpr n0
        have hn2 : (n : ℝ) + 2 ≤ N := by
          have : n + 2 ≤ N := by omega
          exact_mod_cast this
        have a1 : s0 ≤ t0 + n * h := by rw [hs0]; nlinarith
        have a2 : t0 + (n + 1) * h ≤ s1 := by rw [hs1]; nlinarith
        have c1 := part P (L * (h / 2)) n hn (t0 + n * h) (t0 + (n + 1) * h) le_rfl (by nlinarith) le_rfl (hV.mono a1 a2) (hδ _ _ le_rfl le_rfl a1 a2)
        rw [if_neg (by rintro (c | c); exact n0 c; exact n1 c)]
        refine c1.trans (le_of_eq ?_)
        ring
  have key := one_step (x := fun n => V (t0 + n * h)) (w := w) (U := U) (Ex := fun n => exp ((h : ℂ) • Pn n)) (N := N) (h := h) (M := M)
    (X := Real.exp (M * ((N - 1 : ℝ) * h)) * ‖V t0‖) (σ := 8 * (tail (h * M) + (h * M) ^ 2 / 2))
    (d := fun n => Real.exp (M * (h / 2)) * (Real.exp (M * (h / 2)) * (L * (h / 2) * h + if n = 0 ∨ n = N - 1 then Q * (h / 2) else 0) * B))
    hh.le hM hw (by simpa using h0) hx (fun n hn => ?_) hU le_rfl (fun n hn => ?_)
  · refine key.trans ?_
    have hsum : ∑ n ∈ Finset.range N, (Real.exp (M * (h / 2)) * (Real.exp (M * (h / 2)) * (L * (h / 2) * h + if n = 0 ∨ n = N - 1 then Q * (h / 2) else 0) * B)) ≤
        Real.exp (M * h) * (N * (L * (h / 2) * h) + Q * h) * B := by
      have e1 : ∀ n, Real.exp (M * (h / 2)) * (Real.exp (M * (h / 2)) * (L * (h / 2) * h + if n = 0 ∨ n = N - 1 then Q * (h / 2) else 0) * B) =
          (Real.exp (M * h) * B) * (L * (h / 2) * h + if n = 0 ∨ n = N - 1 then Q * (h / 2) else 0) := by
        intro n
        have : Real.exp (M * h) = Real.exp (M * (h / 2)) * Real.exp (M * (h / 2)) := by rw [← Real.exp_add]; ring_nf
        rw [this]; ring
      rw [Finset.sum_congr rfl fun n _ => e1 n, ← Finset.mul_sum, Finset.sum_add_distrib, Finset.sum_const, Finset.card_range, nsmul_eq_mul]
      have e2 : ∑ n ∈ Finset.range N, (if n = 0 ∨ n = N - 1 then Q * (h / 2) else 0) ≤ Q * h := by
        have e3 : ∀ n, (if n = 0 ∨ n = N - 1 then Q * (h / 2) else 0) ≤ (if n = 0 then Q * (h / 2) else 0) + (if n = N - 1 then Q * (h / 2) else 0) := by
          intro n
          have : 0 ≤ Q * (h / 2) := by positivity
          split_ifs <;> first | linarith | (exfalso; simp_all)
        refine (Finset.sum_le_sum fun n _ => e3 n).trans ?_
        rw [Finset.sum_add_distrib, Finset.sum_ite_eq' (Finset.range N) 0 (fun _ => Q * (h / 2)), Finset.sum_ite_eq' (Finset.range N) (N - 1) (fun _ => Q * (h / 2)), if_pos (Finset.mem_range.mpr (by omega)),
          if_pos (Finset.mem_range.mpr (by omega))]
        linarith
      have e4 := mul_le_mul_of_nonneg_left (add_le_add_right e2 (N * (L * (h / 2) * h))) (by positivity : (0 : ℝ) ≤ Real.exp (M * h) * B)
      linarith
    have ht := tail_one_le (x := h * M) (by positivity)
    have e1 : Real.exp (h * M) ≤ Real.exp (M * h) * Real.exp (M * h) := by
      rw [← Real.exp_add]; exact Real.exp_le_exp.mpr (by nlinarith [mul_nonneg hh.le hM])
    have e2 : Real.exp (M * h) * Real.exp (M * h) * Real.exp (M * ((N - 1 : ℝ) * h)) ≤ Real.exp (2 * M * (N * h)) := by
      rw [← Real.exp_add, ← Real.exp_add]
      refine Real.exp_le_exp.mpr ?_
      nlinarith [mul_nonneg hM hh.le, mul_nonneg (mul_nonneg hM hh.le) (by linarith : (0 : ℝ) ≤ N - 1)]
    have e3 : Real.exp (7 * M * (N * h)) = Real.exp (5 * M * (N * h)) * Real.exp (2 * M * (N * h)) := by rw [← Real.exp_add]; ring_nf
    rw [e3, mul_assoc (Real.exp (5 * M * (N * h))), mul_assoc (Real.exp (5 * M * (N * h))), mul_assoc (Real.exp (5 * M * (N * h)))]
    refine mul_le_mul_of_nonneg_left ?_ (Real.exp_pos _).le
    refine (add_le_add_left hsum _).trans ?_
    rw [hB]
    have hv := norm_nonneg (V t0)
    set v := ‖V t0‖
    set E := Real.exp (M * h)
    set F := Real.exp (M * ((N - 1 : ℝ) * h))
    have hF : 0 < F := Real.exp_pos _
    have hE : 0 < E := Real.exp_pos _
    have b1 : 8 * (tail (h * M) + (h * M) ^ 2 / 2) * (F * v) ≤ 8 * ((h * M) ^ 2 * (E * E)) * (F * v) := by
      have := ht.trans (mul_le_mul_of_nonneg_left e1 (by positivity : (0 : ℝ) ≤ (h * M) ^ 2))
      have := mul_le_mul_of_nonneg_right this (by positivity : (0 : ℝ) ≤ F * v)
      linarith
    have b2 := mul_le_mul_of_nonneg_left b1 (by positivity : (0 : ℝ) ≤ N)
    have b3 := mul_le_mul_of_nonneg_right e2 (by positivity : (0 : ℝ) ≤ ((N * h) * (L / 2 + 8 * M ^ 2) + Q) * h * v)
    calc _ ≤ E * (N * (L * (h / 2) * h) + Q * h) * (E * (F * v)) + N * (8 * ((h * M) ^ 2 * (E * E)) * (F * v)) := by linarith
      _ = E * E * F * (((N * h) * (L / 2 + 8 * M ^ 2) + Q) * h * v) := by ring
      _ ≤ _ := b3
      _ = _ := by ring
  · refine norm_exp_le ?_
    rw [norm_smul, Complex.norm_real, Real.norm_eq_abs, abs_of_nonneg hh.le]
    exact mul_le_mul_of_nonneg_left (hPn n) hh.le
  · have e5 : V (t0 + (n + 1) * h) - exp ((h : ℂ) • Pn n) * V (t0 + n * h) = exp ((h / 2) • Pn n) *
        (exp (-(t0 + (n + 1) * h - (t0 + n * h + h / 2)) • Pn n) * V (t0 + (n + 1) * h) -
          exp (-(t0 + n * h - (t0 + n * h + h / 2)) • Pn n) * V (t0 + n * h)) := by
      rw [csmul_exp, mul_sub, ← mul_assoc, ← mul_assoc, ← exp_add_smul, ← exp_add_smul]
      have a1 : h / 2 + -(t0 + (n + 1) * h - (t0 + n * h + h / 2)) = 0 := by ring
      have a2 : h / 2 + -(t0 + n * h - (t0 + n * h + h / 2)) = h := by ring
      rw [a1, a2, zero_smul, NormedSpace.exp_zero, one_mul]
    have e6 : V (t0 + ((n + 1 : ℕ) : ℝ) * h) = V (t0 + (n + 1) * h) := by push_cast; rfl
    rw [e6, e5]
    refine (norm_mul_le _ _).trans (mul_le_mul (norm_exp_le ?_) (cell n hn) (norm_nonneg _) (Real.exp_pos _).le)
    rw [norm_smul, Real.norm_eq_abs, abs_of_nonneg (by linarith), mul_comm]
    exact mul_le_mul_of_nonneg_right (hPn n) (by linarith)
end FNFT.Conv

import Verif.Proofs.ConvSplit
import Verif.Proofs.ConvGlobal
/-!
# Perturbed steps
-/
set_option linter.unusedSectionVars false
set_option linter.unusedVariables false
namespace FNFT.Conv
open NormedSpace Set

variable {𝔸 : Type*} [NormedRing 𝔸] [NormedAlgebra ℂ 𝔸] [CompleteSpace 𝔸] [NormOneClass 𝔸]

theorem add_le_exp {x y : ℝ} (hx : 0 ≤ x) (hy : 0 ≤ y) : y + Real.exp x ≤ Real.exp (x + y) := by
  rw [Real.exp_add]
  nlinarith [Real.add_one_le_exp y, Real.one_le_exp hx]

theorem exp_lip {X Y : 𝔸} {m d : ℝ} (hX : ‖X‖ ≤ m) (hY : ‖Y‖ ≤ m) (hd : ‖X - Y‖ ≤ d) : ‖exp X - exp Y‖ ≤ d * Real.exp (2 * m) := by
  have hm : 0 ≤ m := (norm_nonneg _).trans hX
  have hs : Sol (fun _ => X) (fun t => exp (t • X)) 0 1 := by
    intro t _
    have h1 : HasDerivAt (fun u : ℝ => exp (u • X)) (exp (t • X) * X) t := hasDerivAt_exp_smul_const (𝕂 := ℝ) X t
    refine h1.hasDerivWithinAt.congr_deriv ?_
    exact ((Commute.refl X).smul_right t).exp_right.eq.symm
  have key := local_one (Q := Y) (m := 1) (k := 1) (M := m) (δ := d) (B := Real.exp m) hs zero_le_one hY (fun t ht => by
      rw [abs_le]; exact ⟨by linarith [ht.1], by linarith [ht.2]⟩) (fun _ _ => hd) (fun t ht => norm_exp_le (by
        rw [norm_smul, Real.norm_eq_abs, abs_of_nonneg ht.1]
        nlinarith [ht.2, ht.1, norm_nonneg X]))
  simp only [sub_self, neg_zero, zero_smul, exp_zero, one_mul, one_smul, zero_sub, neg_neg, mul_one, sub_zero] at key
  refine key.trans (le_of_eq ?_)
  rw [two_mul, Real.exp_add]; ring

/-- Products of perturbed factors. -/
theorem prod_pert {ι : Type*} (l : List ι) (F G : ι → 𝔸) (x y : ι → ℝ) (h : ∀ i ∈ l, 0 ≤ x i ∧ 0 ≤ y i ∧ ‖F i‖ ≤ Real.exp (x i) ∧ ‖G i - F i‖ ≤ y i) :
    0 ≤ (l.map x).sum ∧ 0 ≤ (l.map y).sum ∧ ‖(l.map G).prod - (l.map F).prod‖ ≤ Real.exp ((l.map x).sum + (l.map y).sum) - Real.exp (l.map x).sum ∧
      ‖(l.map G).prod‖ ≤ Real.exp ((l.map x).sum + (l.map y).sum) := by
  induction l with
  | nil => simp
  | cons i l ih =>
    obtain ⟨i1, i2, i3, i4⟩ := ih (fun j hj => h j (List.mem_cons_of_mem _ hj))
    obtain ⟨h1, h2, h3, h4⟩ := h i List.mem_cons_self
    simp only [List.map_cons, List.prod_cons, List.sum_cons]
    set X := (l.map x).sum
    set Y := (l.map y).sum
    have hG : ‖G i‖ ≤ Real.exp (x i + y i) := by
      have e : G i = (G i - F i) + F i := by abel
      rw [e]
      exact (norm_add_le _ _).trans ((add_le_add h4 h3).trans (add_le_exp h1 h2))
    refine ⟨by linarith, by linarith, ?_, ?_⟩
    · have e : G i * (l.map G).prod - F i * (l.map F).prod = (G i - F i) * (l.map G).prod + F i * ((l.map G).prod - (l.map F).prod) := by noncomm_ring
      rw [e]
      refine (norm_add_le _ _).trans ((add_le_add ((norm_mul_le _ _).trans (mul_le_mul h4 i4 (norm_nonneg _) h2))
        ((norm_mul_le _ _).trans (mul_le_mul h3 i3 (norm_nonneg _) (Real.exp_pos _).le))).trans ?_)
      have e1 : Real.exp (x i + X + (y i + Y)) = Real.exp (x i + y i) * Real.exp (X + Y) := by rw [← Real.exp_add]; ring_nf
      rw [e1, Real.exp_add (x i) X]
      nlinarith [add_le_exp h1 h2, Real.exp_pos (X + Y)]
    · refine (norm_mul_le _ _).trans ((mul_le_mul hG i4 (norm_nonneg _) (Real.exp_pos _).le).trans (le_of_eq ?_))
      rw [← Real.exp_add]; ring_nf

/-- Chains of perturbed steps. -/
theorem chain_pert {w w' U U' : ℕ → 𝔸} {N : ℕ} {x d : ℝ} (hx : 0 ≤ x) (hd : 0 ≤ d) (hw : ∀ n < N, w (n + 1) = U n * w n) (hw' : ∀ n < N, w' (n + 1) = U' n * w' n) (h0 : w 0 = w' 0)
    (hU : ∀ n < N, ‖U' n‖ ≤ Real.exp x) (hp : ∀ n < N, ‖U n - U' n‖ ≤ d) :
    ‖w N - w' N‖ ≤ N * d * Real.exp (N * (x + d)) * ‖w 0‖ := by
  have key : ∀ n, n ≤ N → ‖w n - w' n‖ ≤ (Real.exp (n * x + n * d) - Real.exp (n * x)) * ‖w 0‖ ∧ ‖w n‖ ≤ Real.exp (n * x + n * d) * ‖w 0‖ := by
    intro n
    induction n with
    | zero => intro _; simp [h0]
    | succ n ih =>
      intro hn
      obtain ⟨i1, i2⟩ := ih (by omega)
      have h3 := hU n (by omega)
      have h4 := hp n (by omega)
      have hG : ‖U n‖ ≤ Real.exp (x + d) := by
        have e : U n = (U n - U' n) + U' n := by abel
        rw [e]
        exact (norm_add_le _ _).trans ((add_le_add h4 h3).trans (add_le_exp hx hd))
      rw [hw n (by omega), hw' n (by omega)]
      push_cast
      have e1 : Real.exp ((n + 1) * x + (n + 1) * d) = Real.exp (x + d) * Real.exp (n * x + n * d) := by rw [← Real.exp_add]; ring_nf
      have e2 : Real.exp ((n + 1) * x) = Real.exp x * Real.exp (n * x) := by rw [← Real.exp_add]; ring_nf
      rw [e1, e2]
      constructor
      · have e : U n * w n - U' n * w' n = (U n - U' n) * w n + U' n * (w n - w' n) := by noncomm_ring
        rw [e]
        refine (norm_add_le _ _).trans ((add_le_add ((norm_mul_le _ _).trans (mul_le_mul h4 i2 (norm_nonneg _) hd))
          ((norm_mul_le _ _).trans (mul_le_mul h3 i1 (norm_nonneg _) (Real.exp_pos _).le))).trans ?_)
        have := mul_le_mul_of_nonneg_right (add_le_exp hx hd) (by positivity : 0 ≤ Real.exp (n * x + n * d) * ‖w 0‖)
        linarith
      · refine (norm_mul_le _ _).trans ((mul_le_mul hG i2 (norm_nonneg _) (Real.exp_pos _).le).trans (le_of_eq ?_))
        ring
  refine (key N le_rfl).1.trans (mul_le_mul_of_nonneg_right ?_ (norm_nonneg _))
  have h1 := exp_sub_le (x := N * d) (by positivity)
  have h2 := mul_le_mul_of_nonneg_left h1 (Real.exp_pos (N * x)).le
  rw [Real.exp_add]
  have e : (N : ℝ) * d * Real.exp (N * (x + d)) = Real.exp (N * x) * (N * d * Real.exp (N * d)) := by
    rw [mul_add, Real.exp_add]; ring
  rw [e]
  linarith

/-- Linear combinations of products with perturbed factors `B`. -/
theorem combine_pert {A B : 𝔸} {EB : ℚ → 𝔸} {za zb η : ℝ} {s : List (ℚ × List (Bool × ℚ))} (hs : Order1 s) (hza : ‖A‖ ≤ za) (hzb : ‖B‖ ≤ zb) (hη : 0 ≤ η)
    (hB : ∀ t ∈ s, ∀ f ∈ t.2, f.1 = false → ‖EB f.2 - exp ((f.2 : ℂ) • B)‖ ≤ f.2 * η) :
    ‖(s.map fun t => (t.1 : ℂ) • (t.2.map fun f => if f.1 then exp ((f.2 : ℂ) • A) else EB f.2).prod).sum -
      (s.map fun t => (t.1 : ℂ) • (t.2.map fun f => if f.1 then exp ((f.2 : ℂ) • A) else exp ((f.2 : ℂ) • B)).prod).sum‖ ≤ 7 * η * Real.exp (za + zb + η) := by
  obtain ⟨h1, h2, h3⟩ := hs
  have h3' : (((s.map fun t => |t.1|).sum : ℚ) : ℝ) ≤ 7 := by exact_mod_cast h3
  have hz : 0 ≤ za + zb := add_nonneg ((norm_nonneg _).trans hza) ((norm_nonneg _).trans hzb)
  have hfac : ∀ X : 𝔸, ∀ z : ℝ, ‖X‖ ≤ z → ∀ w : ℚ, 0 ≤ w → ‖exp ((w : ℂ) • X)‖ ≤ Real.exp (w * z) := by
    intro X z hX w hw
    have hw' : (0 : ℝ) ≤ w := by exact_mod_cast hw
    refine norm_exp_le ?_
    rw [norm_smul, norm_ratCast, abs_of_nonneg hw]
    exact mul_le_mul_of_nonneg_left hX hw'
  have hsum : ∀ (l : List (Bool × ℚ)) (u v : ℝ), (l.map fun f => (f.2 : ℝ) * if f.1 then u else v).sum = (sumW true l : ℝ) * u + (sumW false l : ℝ) * v := by
    intro l u v
    induction l with
    | nil => simp [sumW]
    | cons f l ih =>
      obtain ⟨k, w⟩ := f
      rw [List.map_cons, List.sum_cons, ih, sumW_cons, sumW_cons]
      cases k <;> simp <;> ring
  have hm : ∀ t ∈ s, ‖(t.2.map fun f => if f.1 then exp ((f.2 : ℂ) • A) else EB f.2).prod - (t.2.map fun f => if f.1 then exp ((f.2 : ℂ) • A) else exp ((f.2 : ℂ) • B)).prod‖ ≤
      η * Real.exp (za + zb + η) := by
    intro t ht
    obtain ⟨k1, k2, k3⟩ := h1 t ht
    have key := (prod_pert t.2 (fun f => if f.1 then exp ((f.2 : ℂ) • A) else exp ((f.2 : ℂ) • B)) (fun f => if f.1 then exp ((f.2 : ℂ) • A) else EB f.2)
      (fun f => (f.2 : ℝ) * if f.1 then za else zb) (fun f => (f.2 : ℝ) * if f.1 then 0 else η) (fun f hf => ?_)).2.2.1
    · rw [hsum, hsum, k1, k2] at key
      refine key.trans ?_
      have h1 := exp_sub_le hη
      simp only [Rat.cast_one, one_mul, zero_add]
      rw [Real.exp_add]
      nlinarith [mul_le_mul_of_nonneg_left h1 (Real.exp_pos (za + zb)).le]
    · have hw := k3 f hf
      have hw' : (0 : ℝ) ≤ f.2 := by exact_mod_cast hw
      have ha0 := (norm_nonneg _).trans hza
      have hb0 := (norm_nonneg _).trans hzb
      obtain ⟨k, w⟩ := f
      cases k with
      | true => simp only [if_true, sub_self, norm_zero, mul_zero]; exact ⟨by positivity, le_rfl, hfac A za hza w hw, le_rfl⟩
      | false =>
        simp only [Bool.false_eq_true, if_false]
        exact ⟨by positivity, by positivity, hfac B zb hzb w hw, hB t ht _ hf rfl⟩
  have hC : 0 ≤ η * Real.exp (za + zb + η) := by positivity
  have : ∀ s' : List (ℚ × List (Bool × ℚ)), (∀ t ∈ s', t ∈ s) → ‖(s'.map fun t => (t.1 : ℂ) • (t.2.map fun f => if f.1 then exp ((f.2 : ℂ) • A) else EB f.2).prod).sum -
      (s'.map fun t => (t.1 : ℂ) • (t.2.map fun f => if f.1 then exp ((f.2 : ℂ) • A) else exp ((f.2 : ℂ) • B)).prod).sum‖ ≤
      (((s'.map fun t => |t.1|).sum : ℚ) : ℝ) * (η * Real.exp (za + zb + η)) := by
    intro s'
    induction s' with
    | nil => simp
    | cons t s' ih =>
      intro hs'
      have ih := ih (fun u hu => hs' u (List.mem_cons_of_mem _ hu))
      simp only [List.map_cons, List.sum_cons]
      rw [add_sub_add_comm, ← smul_sub]
      refine (norm_add_le _ _).trans ?_
      rw [norm_smul, norm_ratCast]
      have h0 : (0 : ℝ) ≤ ((|t.1| : ℚ) : ℝ) := by exact_mod_cast abs_nonneg t.1
      push_cast at ih ⊢
      rw [add_mul]
      refine add_le_add (mul_le_mul_of_nonneg_left (hm t (hs' t List.mem_cons_self)) (by exact_mod_cast h0)) ih
  refine (this s fun _ h => h).trans ?_
  rw [mul_assoc]
  exact mul_le_mul_of_nonneg_right h3' hC

end FNFT.Conv

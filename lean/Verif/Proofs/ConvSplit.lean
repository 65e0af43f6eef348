import Verif.Proofs.ConvAbs
import Verif.Proofs.NsevCont
import Mathlib.Analysis.Matrix.Normed
import Mathlib.Tactic.Module
/-!
# Consistency of the discretizations: one step compared with the matrix exponential
-/
set_option linter.unusedSectionVars false
set_option linter.unusedVariables false
namespace FNFT.Conv
open NormedSpace
attribute [local instance] Matrix.linftyOpNormedRing Matrix.linftyOpNormedAlgebra

/-- Sum of the weights of the factors `A` (`k = true`) or `B`. -/
def sumW (k : Bool) (l : List (Bool × ℚ)) : ℚ := (l.map fun f => if f.1 = k then f.2 else 0).sum

/-- Coefficient of `AB` in the product of the exponentials. -/
def abW : List (Bool × ℚ) → ℚ
  | [] => 0
  | f :: l => (if f.1 = true then f.2 * sumW false l else 0) + abW l

theorem sumW_cons (k : Bool) (f : Bool × ℚ) (l : List (Bool × ℚ)) : sumW k (f :: l) = (if f.1 = k then f.2 else 0) + sumW k l := by
  simp [sumW]

/-- Consistent: every product has weights with sum one, and the coefficients sum up to one. -/
def Order1 (s : List (ℚ × List (Bool × ℚ))) : Prop :=
  (∀ t ∈ s, sumW true t.2 = 1 ∧ sumW false t.2 = 1 ∧ ∀ f ∈ t.2, 0 ≤ f.2) ∧ (s.map fun t => t.1).sum = 1 ∧ (s.map fun t => |t.1|).sum ≤ 7

/-- Second order. -/
def Order2 (s : List (ℚ × List (Bool × ℚ))) : Prop := Order1 s ∧ (s.map fun t => t.1 * abW t.2).sum = 1 / 2

section
variable {𝔸 : Type*} [NormedRing 𝔸] [NormedAlgebra ℂ 𝔸] [CompleteSpace 𝔸] [NormOneClass 𝔸]

/-- The second order terms of a product. -/
noncomputable def quad (A B : 𝔸) (a b c : ℂ) : 𝔸 :=
  (a ^ 2 / 2) • (A * A) + (b ^ 2 / 2) • (B * B) + c • (A * B) + (a * b - c) • (B * A)

theorem prod_maj {A B : 𝔸} {EA EB : ℚ → 𝔸} {za zb : ℝ} (l : List (Bool × ℚ))
    (hA : ∀ f ∈ l, f.1 = true → Maj (EA f.2) ((f.2 : ℂ) • A) (((f.2 : ℂ) ^ 2 / 2) • (A * A)) (f.2 * za))
    (hB : ∀ f ∈ l, f.1 = false → Maj (EB f.2) ((f.2 : ℂ) • B) (((f.2 : ℂ) ^ 2 / 2) • (B * B)) (f.2 * zb)) :
    Maj (l.map fun f => if f.1 then EA f.2 else EB f.2).prod ((sumW true l : ℂ) • A + (sumW false l : ℂ) • B)
      (quad A B (sumW true l) (sumW false l) (abW l)) (sumW true l * za + sumW false l * zb) := by
  induction l with
  | nil =>
    have := Maj.id (𝔸 := 𝔸)
    simpa [sumW, abW, quad] using this
  | cons f l ih =>
    have ih := ih (fun g hg => hA g (List.mem_cons_of_mem _ hg)) (fun g hg => hB g (List.mem_cons_of_mem _ hg))
    obtain ⟨k, w⟩ := f
    rw [List.map_cons, List.prod_cons, sumW_cons, sumW_cons, abW]
    cases k with
    | true =>
      have h1 := (hA (true, w) List.mem_cons_self rfl).mul ih
      simp only [if_true, reduceIte, Bool.true_eq_false, zero_add] at h1 ⊢
      convert h1 using 1
      · push_cast; module
      · simp only [quad, mul_add, smul_mul_assoc, mul_smul_comm]
        push_cast; module
      · push_cast; ring
    | false =>
      have h1 := (hB (false, w) List.mem_cons_self rfl).mul ih
      simp only [if_true, reduceIte, Bool.false_eq_true, zero_add] at h1 ⊢
      convert h1 using 1
      · push_cast; module
      · simp only [quad, mul_add, smul_mul_assoc, mul_smul_comm]
        push_cast; module
      · push_cast; ring

theorem real_smul (r : ℝ) (X : 𝔸) : r • X = (r : ℂ) • X := (Complex.coe_smul r X).symm

theorem Maj.cexp {X : 𝔸} {x : ℝ} (h : ‖X‖ ≤ x) : Maj (NormedSpace.exp X) X ((1 / 2 : ℂ) • (X * X)) x := by
  have := Maj.exp h
  rw [real_smul] at this
  convert this using 2
  push_cast; rfl

theorem Maj.wexp {X : 𝔸} {x : ℝ} (h : ‖X‖ ≤ x) {w : ℚ} (hw : 0 ≤ w) :
    Maj (NormedSpace.exp ((w : ℂ) • X)) ((w : ℂ) • X) (((w : ℂ) ^ 2 / 2) • (X * X)) (w * x) := by
  have hw' : (0 : ℝ) ≤ w := by exact_mod_cast hw
  have h1 : ‖(w : ℂ) • X‖ ≤ w * x := by
    rw [norm_smul]
    have : ‖(w : ℂ)‖ = w := by
      have : ((w : ℂ)) = ((w : ℝ) : ℂ) := by push_cast; rfl
      rw [this, Complex.norm_real, Real.norm_eq_abs, abs_of_nonneg hw']
    rw [this]
    exact mul_le_mul_of_nonneg_left h hw'
  convert Maj.cexp h1 using 1
  rw [smul_mul_assoc, mul_smul_comm]
  module

theorem norm_ratCast (c : ℚ) : ‖(c : ℂ)‖ = ((|c| : ℚ) : ℝ) := by
  have : ((c : ℂ)) = ((c : ℝ) : ℂ) := by push_cast; rfl
  rw [this, Complex.norm_real, Real.norm_eq_abs]
  push_cast; rfl

theorem sum_maj {X Y Z : 𝔸} {z : ℝ} (s : List (ℚ × List (Bool × ℚ))) (F : List (Bool × ℚ) → 𝔸)
    (h : ∀ t ∈ s, Maj (F t.2) X (Y + (abW t.2 : ℂ) • Z) z) :
    ‖(s.map fun t => (t.1 : ℂ) • F t.2).sum - (((s.map fun t => t.1).sum : ℚ) : ℂ) • (1 + X)‖ ≤ ((s.map fun t => |t.1|).sum : ℚ) * (tail z + z ^ 2 / 2) ∧
    ‖(s.map fun t => (t.1 : ℂ) • F t.2).sum - (((s.map fun t => t.1).sum : ℚ) : ℂ) • (1 + X + Y) - (((s.map fun t => t.1 * abW t.2).sum : ℚ) : ℂ) • Z‖ ≤
      ((s.map fun t => |t.1|).sum : ℚ) * tail z := by
  induction s with
  | nil => simp
  | cons t s ih =>
    obtain ⟨i1, i2⟩ := ih fun u hu => h u (List.mem_cons_of_mem _ hu)
    have ht := h t List.mem_cons_self
    simp only [List.map_cons, List.sum_cons]
    constructor
    · have e : (t.1 : ℂ) • F t.2 + (s.map fun t => (t.1 : ℂ) • F t.2).sum - ((t.1 + (s.map fun t => t.1).sum : ℚ) : ℂ) • (1 + X) =
          (t.1 : ℂ) • (F t.2 - 1 - X) + ((s.map fun t => (t.1 : ℂ) • F t.2).sum - (((s.map fun t => t.1).sum : ℚ) : ℂ) • (1 + X)) := by
        push_cast; module
      rw [e]
      refine (norm_add_le _ _).trans ?_
      rw [norm_smul, norm_ratCast]
      have h0 : (0 : ℝ) ≤ ((|t.1| : ℚ) : ℝ) := by exact_mod_cast abs_nonneg t.1
      refine (add_le_add (mul_le_mul_of_nonneg_left ht.sub_one_sub h0) i1).trans (le_of_eq ?_)
      push_cast; ring
    · have e : (t.1 : ℂ) • F t.2 + (s.map fun t => (t.1 : ℂ) • F t.2).sum - ((t.1 + (s.map fun t => t.1).sum : ℚ) : ℂ) • (1 + X + Y) -
            ((t.1 * abW t.2 + (s.map fun t => t.1 * abW t.2).sum : ℚ) : ℂ) • Z =
          (t.1 : ℂ) • (F t.2 - 1 - X - (Y + (abW t.2 : ℂ) • Z)) + ((s.map fun t => (t.1 : ℂ) • F t.2).sum -
            (((s.map fun t => t.1).sum : ℚ) : ℂ) • (1 + X + Y) - (((s.map fun t => t.1 * abW t.2).sum : ℚ) : ℂ) • Z) := by
        push_cast; module
      rw [e]
      refine (norm_add_le _ _).trans ?_
      rw [norm_smul, norm_ratCast]
      have h0 : (0 : ℝ) ≤ ((|t.1| : ℚ) : ℝ) := by exact_mod_cast abs_nonneg t.1
      refine (add_le_add (mul_le_mul_of_nonneg_left ht.rest h0) i2).trans (le_of_eq ?_)
      push_cast; ring

variable {A B : 𝔸} {EA EB : ℚ → 𝔸} {za zb : ℝ} {s : List (ℚ × List (Bool × ℚ))}

theorem combine_err (hs : Order1 s) (hza : ‖A‖ ≤ za) (hzb : ‖B‖ ≤ zb)
    (hA : ∀ w : ℚ, 0 ≤ w → Maj (EA w) ((w : ℂ) • A) (((w : ℂ) ^ 2 / 2) • (A * A)) (w * za))
    (hB : ∀ w : ℚ, 0 ≤ w → Maj (EB w) ((w : ℂ) • B) (((w : ℂ) ^ 2 / 2) • (B * B)) (w * zb)) :
    ‖(s.map fun t => (t.1 : ℂ) • (t.2.map fun f => if f.1 then EA f.2 else EB f.2).prod).sum - exp (A + B)‖ ≤
      8 * (tail (za + zb) + (za + zb) ^ 2 / 2) ∧
    (Order2 s → ‖(s.map fun t => (t.1 : ℂ) • (t.2.map fun f => if f.1 then EA f.2 else EB f.2).prod).sum - exp (A + B)‖ ≤ 8 * tail (za + zb)) := by
  obtain ⟨h1, h2, h3⟩ := hs
  have h3' : (((s.map fun t => |t.1|).sum : ℚ) : ℝ) ≤ 7 := by exact_mod_cast h3
  have hz : 0 ≤ za + zb := add_nonneg ((norm_nonneg _).trans hza) ((norm_nonneg _).trans hzb)
  have hm : ∀ t ∈ s, Maj (t.2.map fun f => if f.1 then EA f.2 else EB f.2).prod (A + B)
      (((1 / 2 : ℂ) • (A * A) + (1 / 2 : ℂ) • (B * B) + B * A) + (abW t.2 : ℂ) • (A * B - B * A)) (za + zb) := by
    intro t ht
    obtain ⟨k1, k2, k3⟩ := h1 t ht
    have := prod_maj (EA := EA) (EB := EB) t.2 (fun f hf _ => hA f.2 (k3 f hf)) (fun f hf _ => hB f.2 (k3 f hf))
    rw [k1, k2] at this
    convert this using 1
    · simp
    · simp only [quad]; push_cast; module
    · simp
  obtain ⟨e1, e2⟩ := sum_maj s (fun l => (l.map fun f => if f.1 then EA f.2 else EB f.2).prod) hm
  rw [h2] at e1 e2
  have hE := Maj.cexp (X := A + B) (x := za + zb) ((norm_add_le _ _).trans (add_le_add hza hzb))
  constructor
  · have hE1 := hE.sub_one_sub
    have ht : 0 ≤ tail (za + zb) + (za + zb) ^ 2 / 2 := by have := tail_nonneg hz; positivity
    have e : ∀ S : 𝔸, S - exp (A + B) = (S - ((1 : ℚ) : ℂ) • (1 + (A + B))) - (exp (A + B) - 1 - (A + B)) := by
      intro S; push_cast; rw [one_smul]; abel
    rw [e]
    refine (norm_sub_le _ _).trans ((add_le_add e1 hE1).trans ?_)
    nlinarith
  · intro ho
    rw [ho.2] at e2
    have hE2 := hE.rest
    have ht := tail_nonneg hz
    have e : ∀ S : 𝔸, S - exp (A + B) = (S - ((1 : ℚ) : ℂ) • (1 + (A + B) + ((1 / 2 : ℂ) • (A * A) + (1 / 2 : ℂ) • (B * B) + B * A)) -
        ((1 / 2 : ℚ) : ℂ) • (A * B - B * A)) - (exp (A + B) - 1 - (A + B) - (1 / 2 : ℂ) • ((A + B) * (A + B))) := by
      intro S
      simp only [mul_add, add_mul]
      push_cast; module
    rw [e]
    refine (norm_sub_le _ _).trans ((add_le_add e2 hE2).trans ?_)
    nlinarith
end

/-! ## The splittings of the library -/

theorem order2_splittings (a : AknsDisc) (h : a ∈ [AknsDisc.D2SPLIT2A, .D2SPLIT2B, .D2SPLIT2S, .D2SPLIT3S, .D2SPLIT3A, .D2SPLIT3B, .D2SPLIT4A, .D2SPLIT4B,
    .D2SPLIT5A, .D2SPLIT5B, .D2SPLIT6A, .D2SPLIT6B, .D2SPLIT8A, .D2SPLIT8B]) : Order2 (Spec.splitting a) := by
  simp only [List.mem_cons, List.not_mem_nil, or_false] at h
  unfold Order2 Order1
  rcases h with rfl | rfl | rfl | rfl | rfl | rfl | rfl | rfl | rfl | rfl | rfl | rfl | rfl | rfl <;> decide +kernel

end FNFT.Conv

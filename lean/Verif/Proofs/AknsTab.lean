import Verif.Spec.Akns
import Verif.Model.AknsTab
import Mathlib.Algebra.BigOperators.Intervals
/-!
# The loop bodies of `akns_fscatter` compute the splitting schemes (polynomial identities)
-/
set_option linter.unusedSimpArgs false
namespace FNFT
open Spec AknsDisc

/-- Values of an expression when missing coefficients are read as 0. -/
noncomputable def Ex.val (env : ℕ → ℕ → ℂ) (rdp : ℕ → ℕ → ℂ) : Ex → ℂ
  | num n => n
  | e s c => env s c
  | p t k => rdp t k
  | add a b => val env rdp a + val env rdp b
  | sub a b => val env rdp a - val env rdp b
  | mul a b => val env rdp a * val env rdp b
  | div a b => val env rdp a / val env rdp b
  | neg a => - val env rdp a

namespace Ex
variable (env : ℕ → ℕ → ℂ) (rdp : ℕ → ℕ → ℂ) (a b : Ex)
theorem val_add : val env rdp (a + b) = val env rdp a + val env rdp b := rfl
theorem val_sub : val env rdp (a - b) = val env rdp a - val env rdp b := rfl
theorem val_mul : val env rdp (a * b) = val env rdp a * val env rdp b := rfl
theorem val_div : val env rdp (a / b) = val env rdp a / val env rdp b := rfl
theorem val_neg : val env rdp (-a) = - val env rdp a := rfl
theorem val_lit (n : ℕ) : val env rdp (OfNat.ofNat n : Ex) = (n : ℂ) := rfl
end Ex

/-- Lookup in a list of computed coefficients. -/
def look : List (ℕ × ℕ × ℂ) → ℕ → ℕ → ℂ
  | [], _, _ => 0
  | (t, k, v) :: l, t', k' => if t = t' ∧ k = k' then v else look l t' k'

/-- Coefficients computed by a loop body (latest first). -/
noncomputable def runVals (env : ℕ → ℕ → ℂ) : List Asg → List (ℕ × ℕ × ℂ) → List (ℕ × ℕ × ℂ)
  | [], acc => acc
  | a :: l, acc => runVals env l ((a.t, a.k, a.rhs.val env (look acc)) :: acc)

/-- Sum of the terms of entry `t`. -/
def sumT (t : ℕ) (w : ℕ → ℂ) : List (ℕ × ℕ × ℂ) → ℂ
  | [] => 0
  | (t', k, v) :: l => (if t' = t then v * w k else 0) + sumT t w l


/-- The polynomial matrix computed by a loop body, evaluated at `z`. -/
noncomputable def tabMat (tab : Tab) (deg : ℕ) (e : ℕ → ℕ → ℂ) (z : ℂ) : M2 :=
  !![sumT 0 (fun k => z ^ (deg - k)) (runVals e tab.asg []), sumT 1 (fun k => z ^ (deg - k)) (runVals e tab.asg []);
     sumT 2 (fun k => z ^ (deg - k)) (runVals e tab.asg []), sumT 3 (fun k => z ^ (deg - k)) (runVals e tab.asg [])]

/-- The loop body computes the given combination, for arbitrary exponentials of `B` and
`exp(k/deg*A) ~ diag(1, z^k)`. -/
def TabOK (tab : Tab) (deg : ℕ) (s : List (ℚ × List (Bool × ℚ))) : Prop :=
  ∀ (e : ℕ → ℕ → ℂ) (z : ℂ) (EA EB : ℚ → M2), (∀ k : ℕ, EA ((k : ℚ) / (deg : ℕ)) = !![1, 0; 0, z ^ k]) →
    (∀ j a, tab.scales[j]? = some a → EB (a / (deg : ℕ)) = !![e j 0, e j 1; e j 2, e j 0]) →
    tabMat tab deg e z = combine s EA EB

theorem tabOK_1A : TabOK tab1A 1 (splitting D2SPLIT1A) := by
  intro e z EA EB hA hB
  have a1 := hA 1
  have b0 := hB 0 _ rfl
  norm_num at a1 b0
  simp only [tabMat, tab1A, runVals, Ex.val_add, Ex.val_sub, Ex.val_mul, Ex.val_div, Ex.val_neg, Ex.val_lit, Ex.val, look, sumT]
  norm_num [combine, splitting, c7, lie, strang, alternate, List.replicate, a1, b0, Matrix.mul_fin_two, Matrix.smul_of]
  exact ⟨by ring, by ring⟩

theorem tabOK_1B : TabOK tab2A 1 (splitting D2SPLIT1B) := by
  intro e z EA EB hA hB
  have a1 := hA 1
  have b0 := hB 0 _ rfl
  norm_num at a1 b0
  simp only [tabMat, tab2A, runVals, Ex.val_add, Ex.val_sub, Ex.val_mul, Ex.val_div, Ex.val_neg, Ex.val_lit, Ex.val, look, sumT]
  norm_num [combine, splitting, c7, lie, strang, alternate, List.replicate, a1, b0, Matrix.mul_fin_two, Matrix.smul_of]

theorem tabOK_2B : TabOK tab2B 1 (splitting D2SPLIT2B) := by
  intro e z EA EB hA hB
  have a1 := hA 1
  have b0 := hB 0 _ rfl
  norm_num at a1 b0
  simp only [tabMat, tab2B, runVals, Ex.val_add, Ex.val_sub, Ex.val_mul, Ex.val_div, Ex.val_neg, Ex.val_lit, Ex.val, look, sumT]
  norm_num [combine, splitting, c7, lie, strang, alternate, List.replicate, a1, b0, Matrix.mul_fin_two, Matrix.smul_of]
  exact ⟨⟨by ring, by ring⟩, by ring, by ring⟩

theorem tabOK_2S : TabOK tab2S 1 (splitting D2SPLIT2S) := by
  intro e z EA EB hA hB
  have a1 := hA 1
  have b0 := hB 0 _ rfl
  norm_num at a1 b0
  simp only [tabMat, tab2S, runVals, Ex.val_add, Ex.val_sub, Ex.val_mul, Ex.val_div, Ex.val_neg, Ex.val_lit, Ex.val, look, sumT]
  norm_num [combine, splitting, c7, lie, strang, alternate, List.replicate, a1, b0, Matrix.mul_fin_two, Matrix.smul_of]
  exact ⟨⟨by ring, by ring⟩, by ring, by ring⟩

theorem tabOK_3S : TabOK tab3S 2 (splitting D2SPLIT3S) := by
  intro e z EA EB hA hB
  have a1 := hA 1
  have a2 := hA 2
  have b0 := hB 0 _ rfl
  have b1 := hB 1 _ rfl
  norm_num at a1 a2 b0 b1
  simp only [tabMat, tab3S, runVals, Ex.val_add, Ex.val_sub, Ex.val_mul, Ex.val_div, Ex.val_neg, Ex.val_lit, Ex.val, look, sumT]
  norm_num [combine, splitting, c7, lie, strang, alternate, List.replicate, a1, a2, b0, b1, Matrix.mul_fin_two, Matrix.smul_of]
  exact ⟨⟨by ring, by ring⟩, by ring, by ring⟩

theorem tabOK_3A : TabOK tab3A 3 (splitting D2SPLIT3A) := by
  intro e z EA EB hA hB
  have a1 := hA 1
  have a2 := hA 2
  have a3 := hA 3
  have b0 := hB 0 _ rfl
  have b1 := hB 1 _ rfl
  have b2 := hB 2 _ rfl
  norm_num at a1 a2 a3 b0 b1 b2
  simp only [tabMat, tab3A, runVals, Ex.val_add, Ex.val_sub, Ex.val_mul, Ex.val_div, Ex.val_neg, Ex.val_lit, Ex.val, look, sumT]
  norm_num [combine, splitting, c7, lie, strang, alternate, List.replicate, a1, a2, a3, b0, b1, b2, Matrix.mul_fin_two, Matrix.smul_of]
  exact ⟨⟨by ring, by ring⟩, by ring, by ring⟩

theorem tabOK_3B : TabOK tab3B 3 (splitting D2SPLIT3B) := by
  intro e z EA EB hA hB
  have a1 := hA 1
  have a2 := hA 2
  have a3 := hA 3
  have b0 := hB 0 _ rfl
  have b1 := hB 1 _ rfl
  have b2 := hB 2 _ rfl
  norm_num at a1 a2 a3 b0 b1 b2
  simp only [tabMat, tab3B, runVals, Ex.val_add, Ex.val_sub, Ex.val_mul, Ex.val_div, Ex.val_neg, Ex.val_lit, Ex.val, look, sumT]
  norm_num [combine, splitting, c7, lie, strang, alternate, List.replicate, a1, a2, a3, b0, b1, b2, Matrix.mul_fin_two, Matrix.smul_of]
  exact ⟨⟨by ring, by ring⟩, by ring, by ring⟩

theorem tabOK_4A : TabOK tab4A 4 (splitting D2SPLIT4A) := by
  intro e z EA EB hA hB
  have a1 := hA 1
  have a2 := hA 2
  have b0 := hB 0 _ rfl
  have b1 := hB 1 _ rfl
  norm_num at a1 a2 b0 b1
  simp only [tabMat, tab4A, runVals, Ex.val_add, Ex.val_sub, Ex.val_mul, Ex.val_div, Ex.val_neg, Ex.val_lit, Ex.val, look, sumT]
  norm_num [combine, splitting, c7, lie, strang, alternate, List.replicate, a1, a2, b0, b1, Matrix.mul_fin_two, Matrix.smul_of]
  exact ⟨⟨by ring, by ring⟩, by ring, by ring⟩

theorem tabOK_4B : TabOK tab4B 2 (splitting D2SPLIT4B) := by
  intro e z EA EB hA hB
  have a1 := hA 1
  have a2 := hA 2
  have b0 := hB 0 _ rfl
  have b1 := hB 1 _ rfl
  norm_num at a1 a2 b0 b1
  simp only [tabMat, tab4B, runVals, Ex.val_add, Ex.val_sub, Ex.val_mul, Ex.val_div, Ex.val_neg, Ex.val_lit, Ex.val, look, sumT]
  norm_num [combine, splitting, c7, lie, strang, alternate, List.replicate, a1, a2, b0, b1, Matrix.mul_fin_two, Matrix.smul_of]
  exact ⟨⟨by ring, by ring⟩, by ring, by ring⟩

theorem tabOK_5A : TabOK tab5A 15 (splitting D2SPLIT5A) := by
  intro e z EA EB hA hB
  have a3 := hA 3
  have a5 := hA 5
  have a6 := hA 6
  have a10 := hA 10
  have a15 := hA 15
  have b0 := hB 0 _ rfl
  have b1 := hB 1 _ rfl
  have b2 := hB 2 _ rfl
  have b3 := hB 3 _ rfl
  have b4 := hB 4 _ rfl
  norm_num at a3 a5 a6 a10 a15 b0 b1 b2 b3 b4
  simp only [tabMat, tab5A, runVals, Ex.val_add, Ex.val_sub, Ex.val_mul, Ex.val_div, Ex.val_neg, Ex.val_lit, Ex.val, look, sumT]
  norm_num [combine, splitting, c7, lie, strang, alternate, List.replicate, a3, a5, a6, a10, a15, b0, b1, b2, b3, b4, Matrix.mul_fin_two, Matrix.smul_of]
  exact ⟨⟨by ring, by ring⟩, by ring, by ring⟩

theorem tabOK_5B : TabOK tab5B 15 (splitting D2SPLIT5B) := by
  intro e z EA EB hA hB
  have a3 := hA 3
  have a5 := hA 5
  have a6 := hA 6
  have a10 := hA 10
  have a15 := hA 15
  have b0 := hB 0 _ rfl
  have b1 := hB 1 _ rfl
  have b2 := hB 2 _ rfl
  have b3 := hB 3 _ rfl
  have b4 := hB 4 _ rfl
  norm_num at a3 a5 a6 a10 a15 b0 b1 b2 b3 b4
  simp only [tabMat, tab5B, runVals, Ex.val_add, Ex.val_sub, Ex.val_mul, Ex.val_div, Ex.val_neg, Ex.val_lit, Ex.val, look, sumT]
  norm_num [combine, splitting, c7, lie, strang, alternate, List.replicate, a3, a5, a6, a10, a15, b0, b1, b2, b3, b4, Matrix.mul_fin_two, Matrix.smul_of]
  exact ⟨⟨by ring, by ring⟩, by ring, by ring⟩

theorem tabOK_6A : TabOK tab6A 12 (splitting D2SPLIT6A) := by
  intro e z EA EB hA hB
  have a2 := hA 2
  have a3 := hA 3
  have a4 := hA 4
  have a6 := hA 6
  have b0 := hB 0 _ rfl
  have b1 := hB 1 _ rfl
  have b2 := hB 2 _ rfl
  norm_num at a2 a3 a4 a6 b0 b1 b2
  simp only [tabMat, tab6A, runVals, Ex.val_add, Ex.val_sub, Ex.val_mul, Ex.val_div, Ex.val_neg, Ex.val_lit, Ex.val, look, sumT]
  norm_num [combine, splitting, c7, lie, strang, alternate, List.replicate, a2, a3, a4, a6, b0, b1, b2, Matrix.mul_fin_two, Matrix.smul_of]
  exact ⟨⟨by ring, by ring⟩, by ring, by ring⟩

theorem tabOK_6B : TabOK tab6B 6 (splitting D2SPLIT6B) := by
  intro e z EA EB hA hB
  have a2 := hA 2
  have a3 := hA 3
  have a6 := hA 6
  have b0 := hB 0 _ rfl
  have b1 := hB 1 _ rfl
  have b2 := hB 2 _ rfl
  have b3 := hB 3 _ rfl
  norm_num at a2 a3 a6 b0 b1 b2 b3
  simp only [tabMat, tab6B, runVals, Ex.val_add, Ex.val_sub, Ex.val_mul, Ex.val_div, Ex.val_neg, Ex.val_lit, Ex.val, look, sumT]
  norm_num [combine, splitting, c7, lie, strang, alternate, List.replicate, a2, a3, a6, b0, b1, b2, b3, Matrix.mul_fin_two, Matrix.smul_of]
  exact ⟨⟨by ring, by ring⟩, by ring, by ring⟩

theorem tabOK_7A : TabOK tab7A 105 (splitting D2SPLIT7A) := by
  intro e z EA EB hA hB
  have a15 := hA 15
  have a21 := hA 21
  have a30 := hA 30
  have a35 := hA 35
  have a42 := hA 42
  have a70 := hA 70
  have a105 := hA 105
  have b0 := hB 0 _ rfl
  have b1 := hB 1 _ rfl
  have b2 := hB 2 _ rfl
  have b3 := hB 3 _ rfl
  have b4 := hB 4 _ rfl
  have b5 := hB 5 _ rfl
  have b6 := hB 6 _ rfl
  norm_num at a15 a21 a30 a35 a42 a70 a105 b0 b1 b2 b3 b4 b5 b6
  simp only [tabMat, tab7A, runVals, Ex.val_add, Ex.val_sub, Ex.val_mul, Ex.val_div, Ex.val_neg, Ex.val_lit, Ex.val, look, sumT]
  norm_num [combine, splitting, c7, lie, strang, alternate, List.replicate, a15, a21, a30, a35, a42, a70, a105, b0, b1, b2, b3, b4, b5, b6, Matrix.mul_fin_two, Matrix.smul_of]
  exact ⟨⟨by ring, by ring⟩, by ring, by ring⟩

theorem tabOK_7B : TabOK tab7B 105 (splitting D2SPLIT7B) := by
  intro e z EA EB hA hB
  have a15 := hA 15
  have a21 := hA 21
  have a30 := hA 30
  have a35 := hA 35
  have a42 := hA 42
  have a70 := hA 70
  have a105 := hA 105
  have b0 := hB 0 _ rfl
  have b1 := hB 1 _ rfl
  have b2 := hB 2 _ rfl
  have b3 := hB 3 _ rfl
  have b4 := hB 4 _ rfl
  have b5 := hB 5 _ rfl
  have b6 := hB 6 _ rfl
  norm_num at a15 a21 a30 a35 a42 a70 a105 b0 b1 b2 b3 b4 b5 b6
  simp only [tabMat, tab7B, runVals, Ex.val_add, Ex.val_sub, Ex.val_mul, Ex.val_div, Ex.val_neg, Ex.val_lit, Ex.val, look, sumT]
  norm_num [combine, splitting, c7, lie, strang, alternate, List.replicate, a15, a21, a30, a35, a42, a70, a105, b0, b1, b2, b3, b4, b5, b6, Matrix.mul_fin_two, Matrix.smul_of]
  exact ⟨⟨by ring, by ring⟩, by ring, by ring⟩

theorem tabOK_8A : TabOK tab8A 24 (splitting D2SPLIT8A) := by
  intro e z EA EB hA hB
  have a3 := hA 3
  have a4 := hA 4
  have a6 := hA 6
  have a8 := hA 8
  have a12 := hA 12
  have b0 := hB 0 _ rfl
  have b1 := hB 1 _ rfl
  have b2 := hB 2 _ rfl
  have b3 := hB 3 _ rfl
  norm_num at a3 a4 a6 a8 a12 b0 b1 b2 b3
  simp only [tabMat, tab8A, runVals, Ex.val_add, Ex.val_sub, Ex.val_mul, Ex.val_div, Ex.val_neg, Ex.val_lit, Ex.val, look, sumT]
  norm_num [combine, splitting, c7, lie, strang, alternate, List.replicate, a3, a4, a6, a8, a12, b0, b1, b2, b3, Matrix.mul_fin_two, Matrix.smul_of]
  exact ⟨⟨by ring, by ring⟩, by ring, by ring⟩

theorem tabOK_8B : TabOK tab8B 12 (splitting D2SPLIT8B) := by
  intro e z EA EB hA hB
  have a3 := hA 3
  have a4 := hA 4
  have a6 := hA 6
  have a12 := hA 12
  have b0 := hB 0 _ rfl
  have b1 := hB 1 _ rfl
  have b2 := hB 2 _ rfl
  have b3 := hB 3 _ rfl
  have b4 := hB 4 _ rfl
  norm_num at a3 a4 a6 a12 b0 b1 b2 b3 b4
  simp only [tabMat, tab8B, runVals, Ex.val_add, Ex.val_sub, Ex.val_mul, Ex.val_div, Ex.val_neg, Ex.val_lit, Ex.val, look, sumT]
  norm_num [combine, splitting, c7, lie, strang, alternate, List.replicate, a3, a4, a6, a12, b0, b1, b2, b3, b4, Matrix.mul_fin_two, Matrix.smul_of]
  exact ⟨⟨by ring, by ring⟩, by ring, by ring⟩

end FNFT

import Mathlib.Analysis.Normed.Algebra.MatrixExponential
import Mathlib.Analysis.SpecialFunctions.Exponential
import Mathlib.Analysis.Calculus.MeanValue
import Mathlib.Analysis.Matrix.Normed
import Mathlib.Topology.Algebra.Module.FiniteDimension
import Mathlib.LinearAlgebra.Complex.FiniteDimensional
/-!
# Linear differential equations with constant coefficients
-/
namespace FNFT
open Matrix
local notation "mexp" => NormedSpace.exp

theorem exp_smul_deriv {m : Type*} [Fintype m] [DecidableEq m] (P : Matrix m m ℂ) (t : ℝ) (i j : m) :
    HasDerivAt (fun t : ℝ => mexp (t • P) i j) ((mexp (t • P) * P) i j) t := by
  let _ : NormedRing (Matrix m m ℂ) := Matrix.linftyOpNormedRing
  let _ : NormedAlgebra ℝ (Matrix m m ℂ) := Matrix.linftyOpNormedAlgebra
  have h := hasDerivAt_exp_smul_const (𝕂 := ℝ) P t
  let L : Matrix m m ℂ →L[ℝ] ℂ := LinearMap.toContinuousLinearMap (Matrix.entryLinearMap ℝ ℂ i j)
  exact L.hasFDerivAt.comp_hasDerivAt t h

/-- A solution of `v' = P v` is advanced by `exp(hP)`. -/
theorem exp_solves {m : Type*} [Fintype m] [DecidableEq m] (P : Matrix m m ℂ) (v : ℝ → m → ℂ)
    (hv : ∀ t i, HasDerivAt (fun t => v t i) ((P.mulVec (v t)) i) t) (t h : ℝ) : v (t + h) = (mexp ((h : ℂ) • P)).mulVec (v t) := by
  have hinv : ∀ s : ℝ, mexp (s • P) * mexp ((-s) • P) = 1 := by
    intro s
    have := Matrix.exp_add_of_commute (s • P) ((-s) • P) ((Commute.refl P).smul_left s |>.smul_right (-s))
    rw [← this, ← add_smul]
    simp
  have hc : ∀ i, ∀ s : ℝ, ((mexp ((-s) • P)).mulVec (v (t + s))) i = ((mexp ((-(0 : ℝ)) • P)).mulVec (v (t + 0))) i := by
    intro i s
    refine is_const_of_deriv_eq_zero (f := fun s : ℝ => ((mexp ((-s) • P)).mulVec (v (t + s))) i) ?_ ?_ s 0
    all_goals
      have hd : ∀ s : ℝ, HasDerivAt (fun s : ℝ => ((mexp ((-s) • P)).mulVec (v (t + s))) i) 0 s := by
        intro s
        have h1 : HasDerivAt (fun s : ℝ => ∑ j, mexp ((-s) • P) i j * v (t + s) j)
            (∑ j, (-((mexp ((-s) • P) * P) i j) * v (t + s) j + mexp ((-s) • P) i j * (P.mulVec (v (t + s))) j)) s := by
          refine HasDerivAt.fun_sum fun j _ => ?_
          have e1 : HasDerivAt (fun s : ℝ => mexp ((-s) • P) i j) (-((mexp ((-s) • P) * P) i j)) s := by
            have := (exp_smul_deriv P (-s) i j).scomp s (hasDerivAt_neg s)
            rw [neg_one_smul] at this
            exact this
          have e2 : HasDerivAt (fun s : ℝ => v (t + s) j) ((P.mulVec (v (t + s))) j) s := by
            have := (hv (t + s) j).scomp s ((hasDerivAt_id s).const_add t)
            rw [one_smul] at this
            exact this
          exact e1.mul e2
        refine h1.congr_deriv ?_
        have : (∑ j, (mexp ((-s) • P) * P) i j * v (t + s) j) = ∑ j, mexp ((-s) • P) i j * (P.mulVec (v (t + s))) j := by
          have := congrFun (Matrix.mulVec_mulVec (v (t + s)) (mexp ((-s) • P)) P) i
          simpa [Matrix.mulVec, dotProduct] using this.symm
        rw [Finset.sum_add_distrib, ← this, ← Finset.sum_add_distrib]
        refine Finset.sum_eq_zero fun j _ => ?_
        ring
    · exact fun s => (hd s).differentiableAt
    · exact fun s => (hd s).deriv
  have h2 : (mexp ((-h) • P)).mulVec (v (t + h)) = v t := by
    funext i
    rw [hc i h]
    simp
  have h3 := congrArg (fun w => (mexp (h • P)).mulVec w) h2
  simp only [Matrix.mulVec_mulVec, hinv, Matrix.one_mulVec] at h3
  rw [h3]
  congr 2

end FNFT

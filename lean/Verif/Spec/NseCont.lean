import Verif.Spec.AknsSlow
/-!
# Specification: continuous spectrum of the nonlinear Schroedinger equation

The signal is zero outside of `[T0 - h/2, T1 + h/2]`, `h` being the step. A scattering matrix `S(ξ)` maps a
solution `v` of the AKNS system at the left end to the right end. The solution that behaves like
`(exp(-iξt), 0)` on the left behaves like `(a(ξ) exp(-iξt), b(ξ) exp(iξt))` on the right.
-/
namespace FNFT.Spec
open Complex

/-- `a(ξ)` for the scattering matrix `S`. -/
noncomputable def jostA (S : M2) (T0 T1 h : ℝ) (xi : ℂ) : ℂ :=
  (S.mulVec ![exp (-I * xi * (T0 - h / 2 : ℝ)), 0]) 0 / exp (-I * xi * (T1 + h / 2 : ℝ))

/-- `b(ξ)` for the scattering matrix `S`. -/
noncomputable def jostB (S : M2) (T0 T1 h : ℝ) (xi : ℂ) : ℂ :=
  (S.mulVec ![exp (-I * xi * (T0 - h / 2 : ℝ)), 0]) 1 / exp (I * xi * (T1 + h / 2 : ℝ))

/-- Grid of `M ≥ 2` points from `x0` to `x1`. -/
noncomputable def grid (x0 x1 : ℝ) (M i : ℕ) : ℝ := x0 + i * ((x1 - x0) / (M - 1))

end FNFT.Spec

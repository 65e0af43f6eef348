import Verif.Spec.Nsev
import Verif.Spec.NseCont
/-!
# Specification: signals as the discretizations of the KdV equation use them

The KdV equation belongs to the Schroedinger operator: `ψ'' + (q + λ²) ψ = 0`. Its solutions are written as `ψ = s₁ + s₂` with
`ψ' = -iλ s₁ + iλ s₂`; for `q = 0` these are `s₁ = A exp(-iλt)`, `s₂ = B exp(iλt)`.
In this S basis the scattering matrix has the same meaning as for the NSE.
-/
namespace FNFT.Spec
open FNFT FNFT.AknsDisc

/-- As `Processed`, with `r = -1`. -/
def KdvProcessed (a : AknsDisc) (D : ℕ) (eps : ℝ) (x : ℕ → ℂ) (Dsub s : ℕ) (qf rf : ℕ → ℂ) : Prop :=
  if akns_upsampling_factor a = 1 then
    ∀ j, j < Dsub → qf j = x (s * j) ∧ rf j = -1
  else if a = ES4 ∨ a = TES4 then
    ∀ i, i < Dsub * 3 → qf i = fdSample (eps * s) Dsub (fun j => x (s * j)) i ∧ rf i = if i % 3 = 0 then -1 else 0
  else ∃ (c : ℤ → ℂ) (w ew : List ℂ), (∀ j, j < D → x j = trigPoly D (D * eps) c (j * eps)) ∧
    akns_method_weights a = .ok (w, ew) ∧
    ∀ i, i < Dsub * akns_upsampling_factor a →
      let up := akns_upsampling_factor a
      qf i = cfSum w (i % up) (cfNodes up) (fun nd : ℝ => trigPoly D (D * eps) c ((s * (i / up) : ℕ) * eps + nd * (s * eps))) ∧
      rf i = cfSum w (i % up) (cfNodes up) fun _ => -1

/-- The scattering matrix in the S basis after `n` steps `U` in the basis of the AKNS system. -/
noncomputable def kdvS (vanilla : Bool) (U : ℕ → M2) (n : ℕ) (l : ℂ) : M2 :=
  (fromS true vanilla l)⁻¹ * chain U n * fromS true vanilla l

/-- `a(λ)`, `b(λ)` for these steps. -/
noncomputable def kdvA (vanilla : Bool) (U : ℂ → ℕ → M2) (n : ℕ) (T0 T1 h : ℝ) (l : ℂ) : ℂ := jostA (kdvS vanilla (U l) n l) T0 T1 h l
/-- `b(λ)` for these steps. -/
noncomputable def kdvB (vanilla : Bool) (U : ℂ → ℕ → M2) (n : ℕ) (T0 T1 h : ℝ) (l : ℂ) : ℂ := jostB (kdvS vanilla (U l) n l) T0 T1 h l

end FNFT.Spec

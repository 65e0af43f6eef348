import Verif.Props.AknsPre
/-!
# Specification: signals as the discretizations of the NSE use them
-/
namespace FNFT.Spec
open FNFT FNFT.AknsDisc

/-- `qf`, `rf` are the samples that discretization `a` uses for the signal with samples `x 0, ..., x (D-1)`
(step `eps`), when `Dsub` of these samples with distance `s` are used; `r = -kappa conj(q)`.
* most methods: the samples;
* `ES4`, `TES4`: sample, first and second derivative (central differences) in turn;
* commutator-free methods: weighted sums of values of the interpolating trigonometric polynomial (coefficients `c`) at
  Gauss-Legendre nodes. -/
def Processed (a : AknsDisc) (kappa : ℤ) (D : ℕ) (eps : ℝ) (x : ℕ → ℂ) (Dsub s : ℕ) (qf rf : ℕ → ℂ) : Prop :=
  if akns_upsampling_factor a = 1 then
    ∀ j, j < Dsub → qf j = x (s * j) ∧ rf j = -(kappa : ℂ) * (starRingEnd ℂ) (x (s * j))
  else if a = ES4 ∨ a = TES4 then
    ∀ i, i < Dsub * 3 → qf i = fdSample (eps * s) Dsub (fun j => x (s * j)) i ∧
      rf i = -(kappa : ℂ) * (starRingEnd ℂ) (fdSample (eps * s) Dsub (fun j => x (s * j)) i)
  else ∃ (c : ℤ → ℂ) (w ew : List ℂ), (∀ j, j < D → x j = trigPoly D (D * eps) c (j * eps)) ∧
    akns_method_weights a = .ok (w, ew) ∧
    ∀ i, i < Dsub * akns_upsampling_factor a →
      let up := akns_upsampling_factor a
      let sample := fun nd : ℝ => trigPoly D (D * eps) c ((s * (i / up) : ℕ) * eps + nd * (s * eps))
      qf i = cfSum w (i % up) (cfNodes up) sample ∧
      rf i = cfSum w (i % up) (cfNodes up) fun nd => -(kappa : ℂ) * (starRingEnd ℂ) (sample nd)

end FNFT.Spec

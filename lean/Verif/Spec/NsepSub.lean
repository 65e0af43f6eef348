import Verif.Spec.Nsep
/-!
# Specification: subsample and refine
-/
namespace FNFT.Spec
open Complex FNFT

/-- The root finder succeeds and delivers the values `R deg Q` for every polynomial `Q` of degree at most `deg` (it gets the coefficients, highest
power first). -/
def Finder (roots : RootFinder) (R : ℕ → Polynomial ℂ → ℕ → ℂ) : Prop :=
  ∀ (deg : ℕ) (Q : Polynomial ℂ) (c buf : Buf ℂ), Q.natDegree ≤ deg → c.Holds 0 (deg + 1) (fun k => Q.coeff (deg - k)) → deg ≤ buf.len →
    ∃ buf', roots deg c buf = some (SUCCESS, buf') ∧ buf'.len = buf.len ∧ buf'.Holds 0 deg (R deg Q)

/-- The root finder finds all roots, with multiplicities, if the degree is really `deg`. -/
def ExactFinder (R : ℕ → Polynomial ℂ → ℕ → ℂ) : Prop :=
  ∀ (deg : ℕ) (Q : Polynomial ℂ), Q.natDegree = deg → Q = Polynomial.C Q.leadingCoeff * ∏ k ∈ Finset.range deg, (Polynomial.X - Polynomial.C (R deg Q k))

/-- The exponential integrator that goes with a fast discretization. -/
def refineDisc (a : AknsDisc) : AknsDisc := if akns_upsampling_factor a = 2 then .CF4_2 else .BO

open Classical in
/-- If asked for, remove points that are (almost) real. -/
noncomputable def Nonreal (skip : Bool) (tol : Dbl) (l : List ℂ) : List ℂ :=
  if skip then l.filter fun z => decide (tol.lt (.num ((|z.im| : ℝ) : EReal))) else l

/-- Refinement of the points in a list, with code `code`; `out` are the results that are kept afterwards. -/
def RefinedList (method : ℂ → ℤ → ℂ → Prop) (keep : List ℂ → List ℂ) (init : List ℂ) (code : ℤ) (out : List ℂ) : Prop :=
  ∃ f, Refined (fun _ => method) init.length (fun i => init.getD i 0) code f ∧ out = keep ((List.range init.length).map f)

/-- The values of `λ` that belong to the `deg` roots that the root finder reports for `Q`. -/
noncomputable def candidates (R : ℕ → Polynomial ℂ → ℕ → ℂ) (a : AknsDisc) (h : ℝ) (deg : ℕ) (Q : Polynomial ℂ) : List ℂ :=
  (List.range deg).map fun k => lamOf a h (R deg Q k)

/-- Threshold for being real. -/
noncomputable def realTol (D : ℕ) (box : Fin 4 → Dbl) : Dbl := ((box 3).sub (box 2)).divNat (32 * (D - 1))

/-- A method `RL n` (code, list of points) is applied for `n = 0, 1, …, p-1` in turn, until it fails, or more than `cap` points have been found.
`outs` are the lists for those `n` for which it succeeded. -/
def Spines (RL : ℕ → ℤ → List ℂ → Prop) (p cap : ℕ) (code : ℤ) (outs : List (List ℂ)) : Prop :=
  outs.length ≤ p ∧ (∀ n l, outs[n]? = some l → RL n SUCCESS l) ∧ outs.dropLast.flatten.length ≤ cap ∧
    (code = SUCCESS ∧ (outs.length = p ∨ cap < outs.flatten.length) ∨
      code ≠ SUCCESS ∧ outs.length < p ∧ outs.flatten.length ≤ cap ∧ ∃ l, RL outs.length code l)

/-- Subsampling of one period with `D` samples (a power of two) for the requested number `Dsub`: `Ds` equidistant samples, `s` apart, cover the
period; `Ds` is the requested number up to a factor of `√2`; if zero is requested, `Ds^2` is about `D log^2 D`. -/
structure SubPeriod (D Dsub Ds s : ℕ) : Prop where
  cover : s * Ds = D
  two : 2 ≤ Ds
  pow : ∃ j, Ds = 2 ^ j
  near : 2 ≤ Dsub → Dsub ≤ D → Ds ^ 2 ≤ 2 * Dsub ^ 2 ∧ Dsub ^ 2 ≤ 2 * Ds ^ 2
  all : D ≤ Dsub → Ds = D
  few : Dsub = 1 → Ds = 2
  auto : Dsub = 0 → Ds = D ∨ (D * Real.logb 2 D ^ 2 ≤ (Ds : ℝ) ^ 2 ∧ (Ds : ℝ) ^ 2 < 4 * (D * Real.logb 2 D ^ 2))

/-- Both filters. -/
noncomputable def subKeep (filt : NsepFilt) (box : Fin 4 → Dbl) (skip : Bool) (tol : Dbl) (l : List ℂ) : List ℂ := Nonreal skip tol (Kept filt box l)

/-- Points for the `n`-th value of the Floquet discriminant: candidates from the roots of `P`, filtered, refined with Newton's method for the
monodromy matrix `S` with derivative `Y`, and filtered again. -/
noncomputable def subMainList (R : ℕ → Polynomial ℂ → ℕ → ℂ) (a : AknsDisc) (h : ℝ) (deg : ℕ) (P : ℂ → Polynomial ℂ) (S Y : ℂ → M2) (o : NsepOpts)
    (box : Fin 4 → Dbl) (keep : List ℂ → List ℂ) (n : ℕ) : ℤ → List ℂ → Prop :=
  RefinedList (mainMethod S Y o box n) keep (keep (candidates R a h deg (P (-(spineVal o.range0 o.range1 o.pps n : ℝ)))))

/-- Points of the auxiliary spectrum: candidates from the roots of `Pa` in the box, refined, and filtered again. -/
noncomputable def subAuxList (R : ℕ → Polynomial ℂ → ℕ → ℂ) (a : AknsDisc) (h : ℝ) (deg : ℕ) (Pa : Polynomial ℂ) (S Y : ℂ → M2) (w : ℂ → ℤ)
    (o : NsepOpts) (box : Fin 4 → Dbl) (keep : List ℂ → List ℂ) : ℤ → List ℂ → Prop :=
  RefinedList (auxMethod S Y w o box) keep (Kept o.filt box (candidates R a h deg Pa))

/-- No root that is reported for the polynomials in use is zero. -/
def NoZero (R : ℕ → Polynomial ℂ → ℕ → ℂ) (o : NsepOpts) (deg : ℕ) (P : ℂ → Polynomial ℂ) (Pa : Polynomial ℂ) (main aux : Option (Buf ℂ)) : Prop :=
  (main.isSome → ∀ n, n < o.pps → ∀ k, k < deg → R deg (P (-(spineVal o.range0 o.range1 o.pps n : ℝ))) k ≠ 0) ∧
    (aux.isSome → ∀ k, k < deg → R deg Pa k ≠ 0)

end FNFT.Spec

import Verif.Model.Nsep
import Verif.Spec.NsevBound
import Verif.Spec.Akns
import Verif.Props.AknsDisc
import Verif.Props.GridSearch2
import Verif.Spec.Nsev
import Verif.Proofs.NsevCont
import Verif.Props.AknsDeriv
/-!
# Specification: spectra of the periodic nonlinear Schroedinger equation

`S(λ)` is the monodromy matrix: it maps a solution of the AKNS system at the beginning of the period to the solution at the end.
-/
namespace FNFT.Spec
open Complex FNFT

/-- Floquet discriminant: trace of the monodromy matrix. The main spectrum is where it is `2` or `-2`; spines are made of the points at
which it is a real number between them. -/
def floquet (S : M2) : ℂ := S 0 0 + S 1 1

/-- The coordinate in which the numerical monodromy matrix with steps of length `h` is a polynomial. -/
noncomputable def zOf (a : AknsDisc) (h : ℝ) (l : ℂ) : ℂ := exp (2 * I * l * h / degree1step a)

/-- Inverse of `zOf`. -/
noncomputable def lamOf (a : AknsDisc) (h : ℝ) (z : ℂ) : ℂ := log z / (2 * I * h / degree1step a)

/-- Factor between real parts of `λ` times the step and angles. -/
noncomputable def nsepStretch (a : AknsDisc) : ℝ := if akns_degree a = 0 then 1 else 2 / akns_degree a

/-- The bounding box in use for steps of length `h`: the one in the options, or, with automatic filtering, 90% of the range of angles,
and magnitudes of `z` between `1/10` and `10`. -/
noncomputable def nsepEffBox (o : NsepOpts) (a : AknsDisc) (h : ℝ) : Fin 4 → Dbl :=
  if o.filt = .AUTO then
    ![.num ((-(0.9 * Real.pi / (nsepStretch a * h)) : ℝ) : EReal), .num ((0.9 * Real.pi / (nsepStretch a * h) : ℝ) : EReal),
      .num ((-(Real.log 10 / (nsepStretch a * h)) : ℝ) : EReal), .num ((Real.log 10 / (nsepStretch a * h) : ℝ) : EReal)]
  else o.box

open Classical in
/-- What is left of a list of points after filtering. -/
noncomputable def Kept (filt : NsepFilt) (box : Fin 4 → Dbl) (l : List ℂ) : List ℂ :=
  if filt = .NONE then l else l.filter fun z => decide (InBoxC box z)

/-- The array `b'` is `b` with the list `l` written from `off` on. -/
def WroteAt (off : ℕ) (l : List ℂ) (b b' : Buf ℂ) : Prop :=
  b'.len = b.len ∧ (∀ i, i < l.length → b'.rd (off + i) = l[i]?) ∧ ∀ j, (j < off ∨ off + l.length ≤ j) → b'.rd j = b.rd j

/-- Output of a list `L` of points to an optional array with room for `cap` points from `off` on: as many as possible, in order, and
their number `n'`. (`dflt` is the number if there is no array.) -/
def ListOut (off cap : ℕ) (L : List ℂ) (dflt : ℕ) (b : Option (Buf ℂ)) (n' : ℕ) (b' : Option (Buf ℂ)) : Prop :=
  (b = none → b' = none ∧ n' = dflt) ∧
    ∀ c, b = some c → n' = (L.take cap).length ∧ ∃ c', b' = some c' ∧ WroteAt off (L.take cap) c c'

/-- `S λ` is the numerical monodromy matrix for one period of length `T` of a signal with samples `x 0, …, x (D-1)`, of which every `s`-th
one is used (`Ds` in total); `P v` and `Pa` are polynomials of degree at most `deg` in `z` whose roots on the Riemann surface of `zOf`
are the points at which the Floquet discriminant is `-v`, and those at which the `(1,2)` entry of `S` is zero. -/
def PeriodPolys (a : AknsDisc) (kappa : ℤ) (D : ℕ) (T : ℝ) (x : ℕ → ℂ) (Ds s deg : ℕ) (S : ℂ → M2) (P : ℂ → Polynomial ℂ)
    (Pa : Polynomial ℂ) : Prop :=
  deg = Ds * degree1step a ∧ (∀ v, (P v).natDegree ≤ deg) ∧ Pa.natDegree ≤ deg ∧
  ∃ (qf rf : ℕ → ℂ) (U : ℂ → ℕ → M2) (W : ℤ) (p : ℝ),
    Processed a kappa D (T / D) x Ds s qf rf ∧ NseSteps a (s * (T / D)) qf rf U ∧
    (∀ l, S l = chain (U l) (Ds * akns_upsampling_factor a)) ∧
    (∀ v l, (P v).eval (zOf a (s * (T / D)) l) = 2 ^ (-W) * exp (I * l * T) * (floquet (S l) + v)) ∧
    ∀ l, Pa.eval (zOf a (s * (T / D)) l) = 2 ^ (-W) * exp (I * l * T) * (exp (I * l * p) * S l 0 1)

/-- The points found by the grid search for roots of `P` in the range of angles `PHI`, before filtering. -/
noncomputable def gsHits (a : AknsDisc) (h : ℝ) (P : Polynomial ℂ) (PHI : ℝ × ℝ) (deg : ℕ) : List ℂ :=
  (gridHits P PHI (32 * deg)).map (lamOf a h)

/-- Angles that correspond to the real interval `[x0, x1]` for steps of length `h`. -/
noncomputable def nsepPHI (a : AknsDisc) (h x0 x1 : ℝ) : ℝ × ℝ := (nsepStretch a * h * x0, nsepStretch a * h * x1)

/-- The box in use has the finite real bounds `x0 < x1`, the grid is not too coarse, and the box can be used for filtering. -/
structure GsBox (o : NsepOpts) (a : AknsDisc) (h x0 x1 : ℝ) (deg : ℕ) : Prop where
  lo : nsepEffBox o a h 0 = .num (x0 : EReal)
  hi : nsepEffBox o a h 1 = .num (x1 : EReal)
  lt : x0 < x1
  eps : gridEps (nsepPHI a h x0 x1) (32 * deg) < 1
  valid : o.filt = .NONE ∨ ValidBox (nsepEffBox o a h)

/-- The spectra of a signal with `q(t + T) = e^{i φ} q(t)` are those of the periodic signal `q(t) e^{2 i L t}`, shifted by `L = -φ/(2T)`. -/
noncomputable def lamShift (phase_shift T : ℝ) : ℝ := -phase_shift / (2 * T)

/-- Samples of the periodic signal. -/
noncomputable def periodic (x : ℕ → ℂ) (L T0 eps : ℝ) (i : ℕ) : ℂ := x i * exp (2 * I * L * (T0 + eps * i))

/-- The options for the periodic signal: the user's box is shifted. -/
noncomputable def frameOpts (L : ℝ) (o : NsepOpts) : NsepOpts :=
  if o.filt = .MANUAL then { o with box := ![(o.box 0).addR (-L), (o.box 1).addR (-L), o.box 2, o.box 3] } else o

/-- Arguments of `fnft_nsep` without those for output. -/
structure NsepArgs (D : ℕ) (q : Buf ℂ) (x : ℕ → ℂ) (T0 T1 : ℝ) (kappa : ℤ) (o : NsepOpts) (a : AknsDisc) : Prop where
  hd : nse_to_akns o.disc = .ok a
  hD : ∃ k, 1 ≤ k ∧ D = 2 ^ k
  hCF : isCF a → 3 ≤ D
  hsize : D * akns_upsampling_factor a ≤ 2147483647
  hq : q.Holds 0 D x
  hT : T0 < T1
  hk : |kappa| = 1

/-- What can be asked for: some filter requires that the main spectrum is asked for together with the auxiliary spectrum; there is room
for as many points as announced. -/
structure NsepReq (o : NsepOpts) (K : ℕ) (main : Option (Buf ℂ)) (M : ℕ) (aux : Option (Buf ℂ)) : Prop where
  both : o.filt = .NONE ∨ main ≠ none ∨ aux = none
  roomK : ∀ b, main = some b → K ≤ b.len
  roomM : ∀ b, aux = some b → M ≤ b.len

/-! ## Newton's method -/

/-- The monodromy matrix of the exponential integrator `a` for `N` (processed) samples and steps of length `h`; `E` is the matrix
exponential. -/
noncomputable def mono (E : M2 → M2) (a : AknsDisc) (N : ℕ) (h : ℝ) (qf rf : ℕ → ℂ) (l : ℂ) : M2 :=
  chain (slowStep E a h (cfWeight a) qf rf l) (slowCount a N)

/-- `Y` is the derivative of the monodromy matrix at `l`: exactly if no exponent is in the region where Taylor polynomials are used; in
general it is obtained by the product rule from one-step derivatives that are correct up to `derivTol` (if no exponent has
determinant zero). -/
structure MonoDeriv (E : M2 → M2) (a : AknsDisc) (N : ℕ) (h : ℝ) (qf rf : ℕ → ℂ) (l : ℂ) (Y : M2) : Prop where
  exact' : Regular a h (cfWeight a) qf rf l (slowCount a N) →
    (∀ n, n < slowCount a N → 1 ≤ ‖(mainExponent a h (cfWeight a) qf rf n l).det‖) →
    ∀ j k, HasDerivAt (fun z => mono NormedSpace.exp a N h qf rf z j k) (Y j k) l
  near : (∀ n, n < slowCount a N → (mainExponent a h (cfWeight a) qf rf n l).det ≠ 0) →
    ∃ V : ℕ → M2, (∀ n, n < slowCount a N → NearDeriv (V n) (mainExponent a h (cfWeight a) qf rf n) l) ∧
      Y = dchain (slowStep E a h (cfWeight a) qf rf l)
        (fun n => ((outerExponents a h qf rf n).1.map E).prod * V n * ((outerExponents a h qf rf n).2.map E).prod) (slowCount a N)

open Classical in
/-- Multiplicity used for one step of Newton's method from `z` with `f(z)/f'(z) = d`, and the number of evaluations that are needed: the value
two is used if it gives a smaller value of `|f|` than one, unless one is already good enough. -/
noncomputable def multOf (f : ℂ → ℂ) (tol : ℝ) (z d : ℂ) : ℕ × ℕ :=
  if ‖f (z - d)‖ < tol then (1, 1) else if ‖f (z - 2 * d)‖ < ‖f (z - d)‖ then (2, 2) else (1, 2)

/-- The iterates `z 0, …, z k` of Newton's method for simple or double roots of `f` with derivative `f'`; `e j` is the number of evaluations
before step `j`. -/
structure MainRun (f f' : ℂ → ℂ) (tol : ℝ) (box : Fin 4 → Dbl) (max e0 : ℕ) (z0 : ℂ) (z : ℕ → ℂ) (e : ℕ → ℕ) (k : ℕ) : Prop where
  start : z 0 = z0 ∧ e 0 = e0
  step : ∀ j, j < k → f' (z j) ≠ 0 ∧ z (j + 1) = z j - (multOf f tol (z j) (f (z j) / f' (z j))).1 * (f (z j) / f' (z j)) ∧
    e (j + 1) = e j + (multOf f tol (z j) (f (z j) / f' (z j))).2
  budget : ∀ j, j < k → e j ≤ max
  /-- No earlier iterate met a criterion for stopping. -/
  going : ∀ j, j + 1 < k → InBoxC box (z (j + 1)) ∧ tol < ‖z (j + 1) - z j‖ ∧ tol < ‖f (z j)‖

/-- How Newton's method for the main spectrum ends: code and result. -/
inductive MainEnd (f f' : ℂ → ℂ) (tol : ℝ) (box : Fin 4 → Dbl) (max : ℕ) (z : ℕ → ℂ) (e : ℕ → ℕ) (k : ℕ) : ℤ → ℂ → Prop
  /-- The last step or the value of `f` before it was not larger than `tol`; one more step (for simple roots) follows. -/
  | converged (h0 : 0 < k) (h : ‖z k - z (k - 1)‖ ≤ tol ∨ ‖f (z (k - 1))‖ ≤ tol) (h' : f' (z k) ≠ 0) :
      MainEnd f f' tol box max z e k SUCCESS (z k - f (z k) / f' (z k))
  /-- The last iterate is outside of the box. -/
  | left (h0 : 0 < k) (h : tol < ‖z k - z (k - 1)‖ ∧ tol < ‖f (z (k - 1))‖) (h' : ¬ InBoxC box (z k)) :
      MainEnd f f' tol box max z e k SUCCESS (z k)
  /-- The number of evaluations is used up. -/
  | exhausted (h : max < e k) (h' : 0 < k → InBoxC box (z k) ∧ tol < ‖z k - z (k - 1)‖ ∧ tol < ‖f (z (k - 1))‖) :
      MainEnd f f' tol box max z e k SUCCESS (z k)
  /-- The derivative is zero. -/
  | failed (h : f' (z k) = 0) : MainEnd f f' tol box max z e k EC_DIV_BY_ZERO (z k)

/-- Newton's method for the main spectrum, starting from `z0`, ends with this code and this result. -/
def MainNewton (f f' : ℂ → ℂ) (tol : ℝ) (box : Fin 4 → Dbl) (max : ℕ) (z0 : ℂ) (code : ℤ) (out : ℂ) : Prop :=
  if max = 0 then code = SUCCESS ∧ out = z0
  else ∃ z e k, MainRun f f' tol box max 1 z0 z e k ∧ MainEnd f f' tol box max z e k code out

/-- Newton's method for the auxiliary spectrum, starting from `z0`: at most `max` steps `z j - f(z j)/f'(z j)`, until the last step or
`2^(-w) |f|` before it is not larger than `tol`, or the box is left. -/
def AuxNewton (f f' : ℂ → ℂ) (w : ℂ → ℤ) (tol : ℝ) (box : Fin 4 → Dbl) (max : ℕ) (z0 : ℂ) (code : ℤ) (out : ℂ) : Prop :=
  ∃ (z : ℕ → ℂ) (k : ℕ), z 0 = z0 ∧ k ≤ max ∧ out = z k ∧
    (∀ j, j < k → f' (z j) ≠ 0 ∧ z (j + 1) = z j - f (z j) / f' (z j)) ∧
    (∀ j, j + 1 < k → InBoxC box (z (j + 1)) ∧ tol < ‖z (j + 1) - z j‖ ∧ tol < ‖(2 : ℂ) ^ (-w (z j)) * f (z j)‖) ∧
    ((code = EC_DIV_BY_ZERO ∧ f' (z k) = 0 ∧ k < max) ∨
      (code = SUCCESS ∧ (k = max ∨ 0 < k ∧ (‖z k - z (k - 1)‖ ≤ tol ∨ ‖(2 : ℂ) ^ (-w (z (k - 1))) * f (z (k - 1))‖ ≤ tol ∨
        ¬ InBoxC box (z k)))))

/-- Methods `R i` (start, code, result) are applied to the entries `init 0, …, init (K-1)` in turn, until one fails (its code is the
code of the whole). -/
structure Refined (R : ℕ → ℂ → ℤ → ℂ → Prop) (K : ℕ) (init : ℕ → ℂ) (code : ℤ) (out : ℕ → ℂ) : Prop where
  ok : code = SUCCESS → ∀ i, i < K → R i (init i) SUCCESS (out i)
  failed : code ≠ SUCCESS → ∃ f, f < K ∧ R f (init f) code (out f) ∧ (∀ i, i < f → R i (init i) SUCCESS (out i)) ∧
    ∀ i, f < i → i < K → out i = init i

/-- `2 F` for the `n`-th of `p` equidistant values `F` in the given range (ends included). -/
noncomputable def spineVal (r0 r1 : ℝ) (p n : ℕ) : ℝ := 2 * (r0 + n * (if p ≤ 1 then r1 - r0 else (r1 - r0) / (p - 1)))

/-- The tolerance for Newton's method. -/
noncomputable def newtonTol (o : NsepOpts) : ℝ := if 0 ≤ o.tol then o.tol else Real.sqrt EPSILON

/-- The first `n` entries of an optional array were replaced in place by the list `l`, whose length is `n'`. (`dflt` is the number if there
is no array.) -/
def InPlace (n : ℕ) (l : List ℂ) (dflt : ℕ) (b : Option (Buf ℂ)) (n' : ℕ) (b' : Option (Buf ℂ)) : Prop :=
  (b = none → b' = none ∧ n' = dflt) ∧
    ∀ c, b = some c → n' = l.length ∧ ∃ c', b' = some c' ∧ c'.len = c.len ∧ c'.HoldsList l ∧ ∀ j, n ≤ j → c'.rd j = c.rd j

/-- Newton's method for the `n`-th value `2F` of the Floquet discriminant; `Y` is the derivative of the monodromy matrix `S`. -/
noncomputable def mainMethod (S Y : ℂ → M2) (o : NsepOpts) (box : Fin 4 → Dbl) (n : ℕ) : ℂ → ℤ → ℂ → Prop :=
  MainNewton (fun l => floquet (S l) - spineVal o.range0 o.range1 o.pps n) (fun l => floquet (Y l)) (newtonTol o) box o.max_evals

/-- Newton's method for the zeros of the `(1,2)` entry of the monodromy matrix. -/
noncomputable def auxMethod (S Y : ℂ → M2) (w : ℂ → ℤ) (o : NsepOpts) (box : Fin 4 → Dbl) : ℂ → ℤ → ℂ → Prop :=
  AuxNewton (fun l => S l 0 1) (fun l => Y l 0 1) w (newtonTol o) box o.max_evals

end FNFT.Spec

import Verif.Spec.Manakov
import Verif.Props.AknsPre
import Verif.Model.Manakovv
import Verif.Spec.NsevBound
import Verif.Spec.NseCont
/-!
# Specification: signals and scattering coefficients for `fnft_manakovv`
-/
namespace FNFT.Spec
open Complex

/-- `p` are the values that discretization `d` uses for one component with the (equidistant) samples `x 0, ..., x (N-1)`: the
samples, or, with the upsampling factor 2, two weighted sums per interval of the interpolating trigonometric polynomial at the two
Gauss-Legendre nodes between a sample and the next one. Time is measured in units of the step. -/
def ManProcessed (d : ManDisc) (N : ℕ) (x p : ℕ → ℂ) : Prop :=
  if man_upsampling_factor d = 1 then ∀ j, j < N → p j = x j
  else ∃ c : ℤ → ℂ, (∀ j, j < N → x j = trigPoly N N c j) ∧
    ∀ j, j < N →
      let lo := trigPoly N N c (j + (1 / 2 - Real.sqrt 3 / 6))
      let hi := trigPoly N N c (j + (1 / 2 + Real.sqrt 3 / 6))
      p (2 * j) = ((1 / 4 + Real.sqrt 3 / 6 : ℝ) : ℂ) * lo + ((1 / 4 - Real.sqrt 3 / 6 : ℝ) : ℂ) * hi ∧
      p (2 * j + 1) = ((1 / 4 - Real.sqrt 3 / 6 : ℝ) : ℂ) * lo + ((1 / 4 + Real.sqrt 3 / 6 : ℝ) : ℂ) * hi

/-- The discretizations `fnft_manakovv` accepts: two with exact exponentials and those with an advertised splitting. -/
def manAccepted (d : ManDisc) : Prop := d = .BO ∨ d = .CF4_2 ∨ manSplitting d ≠ []

/-- Left end of the interval on which the samples are taken to represent the signal: the samples are the midpoints of the steps, or,
with the upsampling factor 2, their left ends. -/
noncomputable def manTL (d : ManDisc) (T0 h : ℝ) : ℝ := if man_upsampling_factor d = 1 then T0 - h / 2 else T0

/-- Right end of the interval. -/
noncomputable def manTR (d : ManDisc) (T1 h : ℝ) : ℝ := if man_upsampling_factor d = 1 then T1 + h / 2 else T1 + h

/-- `U lam 0, ..., U lam (N-1)` are the steps of discretization `d` for `N` processed samples and the step `h`: the exact
exponentials of `(A + B_n) h` (`BO`, `CF4_2`), or the splittings of C53, whose factors `exp(w h B_n)` may differ from the exact ones in the
33rd digit. With the upsampling factor 2 the parameter is halved. -/
def ManSteps (d : ManDisc) (κ : ℤ) (h : ℝ) (N : ℕ) (p1 p2 : ℕ → ℂ) (U : ℂ → ℕ → M3) : Prop :=
  if d = .BO ∨ d = .CF4_2 then ∀ lam n, U lam n = manStep κ h (lam / man_upsampling_factor d) (p1 n) (p2 n)
  else ∃ (EB : ℕ → ℚ → M3) (EL ER : ℕ → M3),
    (∀ n (w : ℚ), w ≠ 0 → ManClose κ (w * h) (p1 n) (p2 n) (EB n w)) ∧
    (∀ n, manSandwich d → ManClose κ 1 (manSide 1 N h p1 n) (manSide 1 N h p2 n) (EL n) ∧
      ManClose κ 1 (manSide (-1) N h p1 n) (manSide (-1) N h p2 n) (ER n)) ∧
    (∀ n, ¬ manSandwich d → EL n = 1 ∧ ER n = 1) ∧
    ∀ lam n, U lam n = EL n * combine3 (manSplitting d)
      (fun w => NormedSpace.exp ((w : ℂ) • ((h : ℂ) • manA (lam / man_upsampling_factor d)))) (EB n) * ER n

/-- The solution at the right end that starts at the left end `TL` as `(exp(-iλTL), 0, 0)`. -/
noncomputable def manPhi (S : M3) (TL : ℝ) (lam : ℂ) : Fin 3 → ℂ := S.mulVec ![exp (-I * lam * TL), 0, 0]

/-- `a(λ)`: the first component of the solution times `exp(iλ TR)`. -/
noncomputable def manCoefA (d : ManDisc) (S : M3) (T0 T1 h : ℝ) (lam : ℂ) : ℂ :=
  manPhi S (manTL d T0 h) lam 0 * exp (I * lam * manTR d T1 h)

/-- `b1(λ)` (`j = 1`), `b2(λ)` (`j = 2`): the other components times `exp(-iλ TR)`. -/
noncomputable def manCoefB (d : ManDisc) (S : M3) (T0 T1 h : ℝ) (j : Fin 3) (lam : ℂ) : ℂ :=
  manPhi S (manTL d T0 h) lam j * exp (-I * lam * manTR d T1 h)

/-- Number of values of the continuous spectrum. -/
def manCsLen (M : ℕ) : CsType → ℕ
  | .REFLECTION_COEFFICIENT => 2 * M
  | .AB => 3 * M
  | .BOTH => 5 * M
  | .other _ => 0

/-- The values in the documented order: `b1/a`, `b2/a`; `a`, `b1`, `b2`; or the former followed by the latter. -/
noncomputable def manCsOut (cs : CsType) (M : ℕ) (a b1 b2 : ℕ → ℂ) (i : ℕ) : ℂ :=
  let rho := fun i => if i < M then b1 i / a i else b2 (i - M) / a (i - M)
  let ab := fun i => if i < M then a i else if i < 2 * M then b1 (i - M) else b2 (i - 2 * M)
  match cs with
  | .REFLECTION_COEFFICIENT => rho i
  | .AB => ab i
  | .BOTH => if i < 2 * M then rho i else ab (i - 2 * M)
  | .other _ => 0

/-- `c'` is `c` with the continuous spectrum written to its beginning. -/
def ManContWritten (cs : CsType) (M : ℕ) (a b1 b2 : ℕ → ℂ) (c c' : Buf ℂ) : Prop :=
  c'.len = c.len ∧ c'.Holds 0 (manCsLen M cs) (manCsOut cs M a b1 b2) ∧ ∀ j, manCsLen M cs ≤ j → c'.rd j = c.rd j

/-- Valid arguments of `fnft_manakovv`: at least two samples (three if they are interpolated) and not too many, an interval, a sign and a discretization
that is accepted. -/
structure ManvArgs (D : ℕ) (q1 q2 : Buf ℂ) (x1 x2 : ℕ → ℂ) (T0 T1 : ℝ) (κ : ℤ) (o : ManvOpts) : Prop where
  hD : 2 ≤ D
  hsize : D * man_upsampling_factor o.disc ≤ 2147483647
  hup : man_upsampling_factor o.disc = 2 → 3 ≤ D
  hq1 : q1.Holds 0 D x1
  hq2 : q2.Holds 0 D x2
  hT : T0 < T1
  hκ : |κ| = 1
  hd : manAccepted o.disc

/-- A request for the continuous spectrum: at least two frequencies, an interval, a known type and an array that is long enough. -/
structure ManContReq (D M : ℕ) (XI0 XI1 : ℝ) (o : ManvOpts) (c : Buf ℂ) : Prop where
  hXI : XI0 < XI1
  hM : 2 ≤ M
  hsz : D * man_upsampling_factor o.disc * man_degree o.disc + M < 3 ^ 32
  hcs : ∀ n, o.cs ≠ .other n
  hlen : manCsLen M o.cs ≤ c.len

/-- The slow methods divide by zero in the defocusing case, if the frequency equals the norm of a sample (which then is not below
machine precision). -/
def ManNonsing (d : ManDisc) (κ : ℤ) (N M : ℕ) (XI0 XI1 : ℝ) (p1 p2 : ℕ → ℂ) : Prop :=
  (d = .BO ∨ d = .CF4_2) → κ = -1 → ∀ i, i < M → ∀ n, n < N → manTrunc (p1 n) (p2 n) = (0, 0) ∨
    (grid XI0 XI1 M i / man_upsampling_factor d) ^ 2 ≠ ‖p1 n‖ ^ 2 + ‖p2 n‖ ^ 2

/-- `z = exp(iλ h r)` with this `r`. -/
noncomputable def manRate (d : ManDisc) : ℝ :=
  if d = .FTES4_suzuki then 1 / 3 else 2 / (man_degree d * man_upsampling_factor d)

/-- The list of bound states that is made from the candidates: all of them, or those in the closed upper half plane, without values that are
closer than `√(2^-52)` to earlier ones. -/
def ManFiltered (filt : ManFilt) (n : ℕ) (cand : ℕ → ℂ) (out : List ℂ) : Prop :=
  (filt = .NONE → out = (List.range n).map cand) ∧
    (filt ≠ .NONE → Selected ![.num ⊥, .num ⊤, .num 0, .num ⊤] (Real.sqrt ((2 : ℝ)⁻¹ ^ 52)) n cand out)

/-- `y_0, ..., y_deg` are the coefficients (highest power first) of `a(λ)` as polynomial in `z = exp(iλ h r)` (`r` as in `manRate`), up to a power
of two, and, for one discretization, up to a factor without zeros. -/
def ManAPoly (d : ManDisc) (Dg : ℕ) (T0 T1 h : ℝ) (U : ℂ → ℕ → M3) (deg : ℕ) (y : ℕ → ℂ) : Prop :=
  ∃ W : ℤ, ∀ l, manCoefA d (chain (U l) (Dg * man_upsampling_factor d)) T0 T1 h l =
    2 ^ W * exp (I * l * h * Dg * (1 - manPhase d)) *
      ∑ k ∈ Finset.range (deg + 1), y k * exp (I * l * h * manRate d) ^ (deg - k)

end FNFT.Spec

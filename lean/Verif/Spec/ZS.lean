import Mathlib.Analysis.Calculus.Deriv.Basic
import Mathlib.Analysis.Complex.Basic
import Mathlib.Analysis.SpecialFunctions.Exp
import Mathlib.Analysis.SpecialFunctions.Complex.Log
/-!
# Specification: the Zakharov-Shabat scattering problem on the real line (focusing case)
-/
namespace FNFT.Spec
open Complex Filter Asymptotics

/-- `f - L` decays at least exponentially along `l` (which is `atBot` or `atTop`). -/
def ExpTo (l : Filter ℝ) (f : ℝ → ℂ) (L : ℂ) : Prop :=
  ∃ c : ℝ, 0 < c ∧ (fun t => f t - L) =O[l] fun t => Real.exp (-c * |t|)

/-- `v` is continuous and solves the Zakharov-Shabat system `v' = [-i l, q; -conj q, i l] v`, except at the points of `E`. -/
def ZS (E : Set ℝ) (q : ℝ → ℂ) (l : ℂ) (v : ℝ → ℂ × ℂ) : Prop :=
  Continuous v ∧ ∀ t, t ∉ E →
    HasDerivAt (fun t => (v t).1) (-I * l * (v t).1 + q t * (v t).2) t ∧
    HasDerivAt (fun t => (v t).2) (-(starRingEnd ℂ) (q t) * (v t).1 + I * l * (v t).2) t

/-- `phi` is the Jost solution from the left: it behaves like `(exp(-i l t), 0)` for `t → -∞`. -/
def JostLeft (E : Set ℝ) (q : ℝ → ℂ) (l : ℂ) (phi : ℝ → ℂ × ℂ) : Prop :=
  ZS E q l phi ∧ ExpTo atBot (fun t => (phi t).1 * exp (I * l * t)) 1 ∧ ExpTo atBot (fun t => (phi t).2 * exp (I * l * t)) 0

/-- `psi` is the Jost solution from the right: it behaves like `(0, exp(i l t))` for `t → ∞`. -/
def JostRight (E : Set ℝ) (q : ℝ → ℂ) (l : ℂ) (psi : ℝ → ℂ × ℂ) : Prop :=
  ZS E q l psi ∧ ExpTo atTop (fun t => (psi t).1 * exp (-I * l * t)) 0 ∧ ExpTo atTop (fun t => (psi t).2 * exp (-I * l * t)) 1

/-- The values `a(l)`, `b(l)` for a real `l`: the Jost solution from the left behaves like `(a exp(-i l t), b exp(i l t))` for `t → ∞`. -/
def ScatReal (E : Set ℝ) (q : ℝ → ℂ) (l : ℝ) (a b : ℂ) : Prop :=
  ∃ phi, JostLeft E q l phi ∧ ExpTo atTop (fun t => (phi t).1 * exp (I * l * t)) a ∧
    ExpTo atTop (fun t => (phi t).2 * exp (-I * l * t)) b

/-- The value `a(l)` for `l` in the upper half plane: the first component of the Jost solution from the left behaves like `a exp(-i l t)`
for `t → ∞`; it is also the Wronskian of both Jost solutions. -/
def ScatUpper (E : Set ℝ) (q : ℝ → ℂ) (l a : ℂ) : Prop :=
  ∃ phi psi, JostLeft E q l phi ∧ JostRight E q l psi ∧ ExpTo atTop (fun t => (phi t).1 * exp (I * l * t)) a ∧
    ∀ t, (phi t).1 * (psi t).2 - (phi t).2 * (psi t).1 = a

/-- `l` is an eigenvalue with the norming constant `b`: the two Jost solutions are proportional (so that they decay on both sides). -/
def Bound (E : Set ℝ) (q : ℝ → ℂ) (l b : ℂ) : Prop :=
  ∃ phi psi, JostLeft E q l phi ∧ JostRight E q l psi ∧ ∀ t, phi t = (b * (psi t).1, b * (psi t).2)

/-- `q` decays exponentially. -/
def Decays (q : ℝ → ℂ) : Prop := ExpTo atBot q 0 ∧ ExpTo atTop q 0

/-- The Blaschke factors that belong to zeros in the upper half plane. -/
noncomputable def blaschke (L : List ℂ) (l : ℂ) : ℂ := (L.map fun m => (l - m) / (l - (starRingEnd ℂ) m)).prod

/-- `Q` is the multi-soliton with the eigenvalues `lf 0, …, lf (K-1)` and the norming constants `bf 0, …, bf (K-1)`: it decays exponentially, `b`
vanishes on the real axis, `a` is the Blaschke product, and every `lf k` is an eigenvalue with the norming constant `bf k`. -/
def MultiSoliton (K : ℕ) (lf bf : ℕ → ℂ) (Q : ℝ → ℂ) : Prop :=
  Decays Q ∧ (∀ l : ℝ, ScatReal ∅ Q l (blaschke ((List.range K).map lf) l) 0) ∧
    (∀ l : ℂ, 0 < l.im → ScatUpper ∅ Q l (blaschke ((List.range K).map lf) l)) ∧ ∀ k, k < K → Bound ∅ Q (lf k) (bf k)

/-- The piecewise constant potential with the values `qf 0, …, qf (D-1)` at the points `T0, T0 + eps, …, T0 + (D-1) eps`; it vanishes outside of
the interval. -/
noncomputable def seedQ (T0 eps : ℝ) (D : ℕ) (qf : ℕ → ℂ) (t : ℝ) : ℂ :=
  if T0 ≤ t ∧ t ≤ T0 + ((D : ℝ) - 1) * eps then qf ⌊(t - T0) / eps + 1 / 2⌋₊ else 0

/-- `Q` is the potential `Q0` with the additional eigenvalues `lf 0, …, lf (K-1)`, which have the norming constants `bf 0, …, bf (K-1)`: `b` is the
same on the real axis, `a` is multiplied with the Blaschke product, and every `lf k` is an eigenvalue with the norming constant `bf k`. -/
def AddedTo (Q0 : ℝ → ℂ) (K : ℕ) (lf bf : ℕ → ℂ) (Q : ℝ → ℂ) : Prop :=
  ∃ E : Set ℝ, E.Finite ∧ ∃ (a : ℂ → ℂ) (b : ℝ → ℂ), Decays Q ∧
    (∀ l : ℝ, ScatReal E Q0 l (a l) (b l) ∧ ScatReal E Q l (blaschke ((List.range K).map lf) l * a l) (b l)) ∧
    (∀ l : ℂ, 0 < l.im → ScatUpper E Q0 l (a l) ∧ ScatUpper E Q l (blaschke ((List.range K).map lf) l * a l)) ∧
    ∀ k, k < K → Bound E Q (lf k) (bf k)

/-- `l` is not an eigenvalue of `Q0`. -/
def NoEigen (Q0 : ℝ → ℂ) (l : ℂ) : Prop := ∀ E : Set ℝ, E.Finite → ¬ ScatUpper E Q0 l 0

/-- A valid discrete spectrum: distinct points in the upper half plane with coefficients that do not vanish. -/
def DiscData (K : ℕ) (lf bf : ℕ → ℂ) : Prop :=
  (∀ k, k < K → 0 < (lf k).im ∧ bf k ≠ 0) ∧ ∀ i j, i < K → j < K → lf i = lf j → i = j

/-- `r` is the residue of `b/a` that belongs to the norming constant `b`, if `a` vanishes at `l`. -/
def Residue (a : ℂ → ℂ) (l b r : ℂ) : Prop := ∃ d, d ≠ 0 ∧ HasDerivAt a d l ∧ r = b / d

end FNFT.Spec

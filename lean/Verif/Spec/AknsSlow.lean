import Verif.Spec.Akns
/-!
# Specification: the slow scattering methods as products of matrix exponentials
-/
namespace FNFT.Spec
open FNFT.AknsDisc

/-- Right hand side matrix of the AKNS system, `v' = P v`. -/
noncomputable def aknsP (q r l : ℂ) : M2 := !![-Complex.I * l, q; r, Complex.I * l]

/-- Its derivatives with respect to time: `[0,q';r',0]`. -/
noncomputable def aknsPt (q r : ℂ) : M2 := !![0, q; r, 0]

/-- One step of the slow methods; `E` is the matrix exponential. `w` are the step weights of the
commutator-free methods.
* `BO` and the commutator-free methods: `exp(w_n h P)` (samples of the resampled signal);
* `ES4`: the fourth order Magnus propagator `exp(h P + h³/24 P'' - h³/12 [P,P'])`; the samples are
  `q, q', q''` in turn;
* `TES4`: `exp(h³/48 P'' + h²/12 P') exp(h P) exp(h³/48 P'' - h²/12 P')`. -/
noncomputable def slowStep (E : M2 → M2) (d : AknsDisc) (h : ℝ) (w : ℕ → ℂ) (q r : ℕ → ℂ) (l : ℂ) (n : ℕ) : M2 :=
  match d with
  | ES4 =>
    let P := aknsP (q (3 * n)) (r (3 * n)) l
    let P1 := aknsPt (q (3 * n + 1)) (r (3 * n + 1))
    let P2 := aknsPt (q (3 * n + 2)) (r (3 * n + 2))
    E ((h : ℂ) • P + ((h : ℂ) ^ 3 / 24) • P2 - ((h : ℂ) ^ 3 / 12) • (P * P1 - P1 * P))
  | TES4 =>
    let P := aknsP (q (3 * n)) (r (3 * n)) l
    let P1 := aknsPt (q (3 * n + 1)) (r (3 * n + 1))
    let P2 := aknsPt (q (3 * n + 2)) (r (3 * n + 2))
    E (((h : ℂ) ^ 3 / 48) • P2 + ((h : ℂ) ^ 2 / 12) • P1) * E ((h : ℂ) • P) *
      E (((h : ℂ) ^ 3 / 48) • P2 - ((h : ℂ) ^ 2 / 12) • P1)
  | _ => E ((w n * (h : ℂ)) • aknsP (q n) (r n) l)

/-- The exponents of one step, leftmost factor first. -/
noncomputable def slowExponents (d : AknsDisc) (h : ℝ) (w : ℕ → ℂ) (q r : ℕ → ℂ) (l : ℂ) (n : ℕ) : List M2 :=
  match d with
  | ES4 =>
    let P := aknsP (q (3 * n)) (r (3 * n)) l
    let P1 := aknsPt (q (3 * n + 1)) (r (3 * n + 1))
    let P2 := aknsPt (q (3 * n + 2)) (r (3 * n + 2))
    [(h : ℂ) • P + ((h : ℂ) ^ 3 / 24) • P2 - ((h : ℂ) ^ 3 / 12) • (P * P1 - P1 * P)]
  | TES4 =>
    let P := aknsP (q (3 * n)) (r (3 * n)) l
    let P1 := aknsPt (q (3 * n + 1)) (r (3 * n + 1))
    let P2 := aknsPt (q (3 * n + 2)) (r (3 * n + 2))
    [((h : ℂ) ^ 3 / 48) • P2 + ((h : ℂ) ^ 2 / 12) • P1, (h : ℂ) • P, ((h : ℂ) ^ 3 / 48) • P2 - ((h : ℂ) ^ 2 / 12) • P1]
  | _ => [(w n * (h : ℂ)) • aknsP (q n) (r n) l]

/-- No exponent of the steps `n < N` lies in the region in which the code replaces `sin x / x` by a Taylor
polynomial (`0 < |x| < 1e-8`, where `x² = det`). -/
def Regular (d : AknsDisc) (h : ℝ) (w : ℕ → ℂ) (q r : ℕ → ℂ) (l : ℂ) (N : ℕ) : Prop :=
  ∀ n, n < N → ∀ X ∈ slowExponents d h w q r l n, X.det = 0 ∨ 1e-16 ≤ ‖X.det‖

/-- Matrix that maps the S basis of the equation to the AKNS basis in which the steps are computed
(identity for the NSE). -/
noncomputable def fromS (kdv vanilla : Bool) (l : ℂ) : M2 :=
  if kdv then (if vanilla then !![2 * Complex.I * l, 0; 1, 1] else !![1, 1; 0, -2 * Complex.I * l]) else 1

/-- Step weights of the commutator-free methods at sample `n` (Blanes, Casas, Thalhammer): `CF4_2`: 1/2, 1/2;
`CF4_3`: 11/40, 9/20, 11/40; `CF5_3`: (3+i)/10, 2/5, (3-i)/10; `CF6_4`: 15 digits of the four weights. -/
noncomputable def cfWeight (d : AknsDisc) (n : ℕ) : ℂ :=
  match d with
  | CF4_2 => 1 / 2
  | CF4_3 => if n % 3 = 1 then 9 / 20 else 11 / 40
  | CF5_3 => if n % 3 = 0 then (3 + Complex.I) / 10 else if n % 3 = 1 then 2 / 5 else (3 - Complex.I) / 10
  | CF6_4 => if n % 4 = 0 ∨ n % 4 = 3 then 0.210073786808784 + 0.046600721949283 * Complex.I
      else 0.289926213191215 - 0.046600721949282 * Complex.I
  | _ => 1

/-- Number of steps in `D` samples. -/
def slowCount (d : AknsDisc) (D : ℕ) : ℕ :=
  match d with
  | ES4 | TES4 => D / 3
  | _ => D

/-- Samples per step that belong together must be complete for `ES4` and `TES4`. -/
def slowSamples (d : AknsDisc) (D : ℕ) : Prop :=
  match d with
  | ES4 | TES4 => 3 ∣ D
  | _ => True

/-- The discretizations for which there is a slow method. -/
def slow (d : AknsDisc) : Prop :=
  d = BO ∨ d = CF4_2 ∨ d = CF4_3 ∨ d = CF5_3 ∨ d = CF6_4 ∨ d = ES4 ∨ d = TES4

/-- `U_(N-1) ⋯ U_1 U_0`. -/
def chain {m : Type*} [Fintype m] [DecidableEq m] (U : ℕ → Matrix m m ℂ) (N : ℕ) : Matrix m m ℂ :=
  ((List.range N).map fun s => U (N - 1 - s)).prod

/-- Product rule for `chain`: the derivative of `U_(N-1) ⋯ U_0` when `U'_n` is that of `U_n`. -/
def dchain {m : Type*} [Fintype m] [DecidableEq m] (U U' : ℕ → Matrix m m ℂ) : ℕ → Matrix m m ℂ
  | 0 => 0
  | N + 1 => U' N * chain U N + U N * dchain U U' N

end FNFT.Spec

import Verif.Model.ManDisc
import Verif.Spec.Akns
/-!
# Specification: the Manakov scattering problem and its discretizations
-/
namespace FNFT.Spec
open NormedSpace

/-- Complex 3x3 matrices. -/
abbrev M3 := Matrix (Fin 3) (Fin 3) ℂ

/-- The scattering problem of the Manakov equation is `v' = (A + B) v` with `A = diag(-iλ, iλ, iλ)` … -/
noncomputable def manA (lam : ℂ) : M3 :=
  !![-Complex.I * lam, 0, 0; 0, Complex.I * lam, 0; 0, 0, Complex.I * lam]

/-- … and `B = [0, q1, q2; -κ q1*, 0, 0; -κ q2*, 0, 0]`. -/
noncomputable def manB (κ : ℤ) (q1 q2 : ℂ) : M3 :=
  !![0, q1, q2; -κ * (starRingEnd ℂ) q1, 0, 0; -κ * (starRingEnd ℂ) q2, 0, 0]

/-- A pair of values both of which are below machine precision counts as zero. -/
noncomputable def manTrunc (q1 q2 : ℂ) : ℂ × ℂ :=
  open Classical in if ‖q1‖ < 2 ^ (-52 : ℤ) ∧ ‖q2‖ < 2 ^ (-52 : ℤ) then (0, 0) else (q1, q2)

/-- The linear combination of products of exponentials of multiples of `A` (`true`) and `B` (`false`)
advertised for a discretization. (In `2SPLIT3A` the factor `exp(2B/3)` is written as `exp(B/3)^2`.) -/
def manSplitting : ManDisc → List (ℚ × List (Bool × ℚ))
  | .D2SPLIT3A => [(9 / 8, [(true, 1 / 3), (false, 1 / 3), (false, 1 / 3), (true, 2 / 3), (false, 1 / 3)]),
      (-1 / 8, lie true 1)]
  | .D2SPLIT3B => [(9 / 8, lie false 3), (-1 / 8, lie false 1)]
  | .D2SPLIT4A | .D4SPLIT4A | .FTES4_4A => [(4 / 3, strang true 2), (-1 / 3, strang true 1)]
  | .D2SPLIT4B | .D4SPLIT4B => [(4 / 3, strang false 2), (-1 / 3, strang false 1)]
  | .D2SPLIT6B | .D4SPLIT6B => [(81 / 40, strang false 3), (-16 / 15, strang false 2), (1 / 24, strang false 1)]
  | .FTES4_suzuki => [(1, alternate false [7 / 48, 1 / 3, 3 / 8, -1 / 3, -1 / 48, 1, -1 / 48, -1 / 3, 3 / 8, 1 / 3, 7 / 48])]
  | _ => []

/-- A linear combination of products of factors `EA w`, `EB w`. -/
noncomputable def combine3 (s : List (ℚ × List (Bool × ℚ))) (EA EB : ℚ → M3) : M3 :=
  (s.map fun t => (t.1 : ℂ) • (t.2.map fun f => if f.1 then EA f.2 else EB f.2).prod).sum

/-- The discretizations that surround the splitting by two more exponentials. -/
def manSandwich (d : ManDisc) : Prop := d = .FTES4_4A ∨ d = .FTES4_suzuki

instance (d : ManDisc) : Decidable (manSandwich d) := inferInstanceAs (Decidable (_ ∨ _))

/-- First difference of the samples at `n` (the sample itself replaces the neighbours that do not exist). -/
noncomputable def diff1 (D : ℕ) (q : ℕ → ℂ) (n : ℕ) : ℂ := q (min (n + 1) (D - 1)) - q (n - 1)

/-- Second difference of the samples at `n`. -/
noncomputable def diff2 (D : ℕ) (q : ℕ → ℂ) (n : ℕ) : ℂ := q (min (n + 1) (D - 1)) - 2 * q n + q (n - 1)

/-- The surrounding exponentials are `exp(B(s1,s2))` with these `s1`, `s2` (`σ = 1` for the left one, `σ = -1` for
the right one). -/
noncomputable def manSide (σ : ℤ) (D : ℕ) (h : ℝ) (q : ℕ → ℂ) (n : ℕ) : ℂ :=
  h * (σ * diff1 D q n / 24 + diff2 D q n / 48)

/-- `M` agrees with `exp (c B(q1,q2))` to 33 digits, and exactly unless `c |q|` is tiny. -/
structure ManClose (κ : ℤ) (c : ℝ) (q1 q2 : ℂ) (M : M3) : Prop where
  near : ∀ i j, ‖M i j - exp ((c : ℂ) • manB κ (manTrunc q1 q2).1 (manTrunc q1 q2).2) i j‖ ≤
    1e-33 * (|c| * max ‖q1‖ ‖q2‖)
  exact : 1e-8 ≤ |c| * Real.sqrt (‖q1‖ ^ 2 + ‖q2‖ ^ 2) →
    M = exp ((c : ℂ) • manB κ (manTrunc q1 q2).1 (manTrunc q1 q2).2)

/-- The approximation of `exp((A+B)h)` at sample `n`: the splitting, for the FTES4 discretizations between two more
exponentials. -/
noncomputable def manSample (d : ManDisc) (D : ℕ) (h : ℝ) (κ : ℤ) (q1 q2 : ℕ → ℂ) (lam : ℂ) (n : ℕ) : M3 :=
  let E (σ : ℤ) : M3 := if manSandwich d then
      exp (manB κ (manTrunc (manSide σ D h q1 n) (manSide σ D h q2 n)).1 (manTrunc (manSide σ D h q1 n) (manSide σ D h q2 n)).2)
    else 1
  let B := manB κ (manTrunc (q1 n) (q2 n)).1 (manTrunc (q1 n) (q2 n)).2
  E 1 * combine3 (manSplitting d) (fun w => exp ((w : ℂ) • ((h : ℂ) • manA lam))) (fun w => exp ((w : ℂ) • ((h : ℂ) • B))) *
    E (-1)

/-- The point of the `z` plane that represents `lam` for a step `h`. -/
noncomputable def manZ (d : ManDisc) (h : ℝ) (lam : ℂ) : ℂ :=
  if d = .FTES4_suzuki then Complex.exp (Complex.I * lam * h / 3)
  else Complex.exp (2 * Complex.I * lam * h / man_degree d)

/-- The polynomials of a sample represent `exp(i λ h c)` times the matrix of the sample, `c` being this number. -/
noncomputable def manPhase (d : ManDisc) : ℝ := if d = .FTES4_suzuki then 7 / 3 else 1

/-- One step of the slow methods: the exact `exp((A+B)h)`. -/
noncomputable def manStep (κ : ℤ) (h : ℝ) (lam q1 q2 : ℂ) : M3 :=
  exp ((h : ℂ) • (manA lam + manB κ (manTrunc q1 q2).1 (manTrunc q1 q2).2))

/-- `diag(1, κ, κ)`. -/
def manJ (κ : ℤ) : M3 := Matrix.diagonal ![1, κ, κ]

end FNFT.Spec

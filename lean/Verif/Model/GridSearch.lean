import Verif.Model.PolyChirpz
import Mathlib.Analysis.SpecialFunctions.Complex.Circle
/-!
# Model of fnft__poly_roots_fftgridsearch.c

All allocations succeed; exact arithmetic; the bounds `PHI[0]`, `PHI[1]` are finite numbers.
-/
namespace FNFT
open Complex

/-- What the routines leave behind: code, `*M_ptr`, `roots`. -/
structure GridRes where
  ret : ℤ
  M : Option ℕ
  roots : Option (Buf ℂ)

/-! ## `poly_roots_fftgridsearch` -/

/-- `tmp > CABS(vals[o])` for one neighbour (`some true`: `continue`). -/
noncomputable def gridLarger (vals : Buf ℂ) (tmp : ℝ) (o : ℕ) : Option Bool := do
  let v ← vals.rd o
  return decide (tmp > ‖v‖)

/-- The sequence of tests fnft__poly_roots_fftgridsearch.c:85-100: is a neighbour smaller? Later tests are only made if the
earlier ones did not `continue`. -/
noncomputable def gridTests (vals : Buf ℂ) (tmp : ℝ) : List ℕ → Option Bool
  | [] => some false
  | o :: os => do
    let b ← gridLarger vals tmp o
    if b then return true else gridTests vals tmp os

/-- One term of the least squares fit, fnft__poly_roots_fftgridsearch.c:114-120, with `j = i-1+a`. State: `c`, `tmp`. -/
noncomputable def gridTerm (M : ℕ) (PHI0 eps : ℝ) (vals : Buf ℂ) (z0 y0 : ℂ) (j k_plus_one : ℕ) (s : ℂ × ℝ) : Option (ℂ × ℝ) :=
  if j = 0 ∧ k_plus_one = 1 then some s
  else do
    let zi : ℂ := (1 - ((k_plus_one : ℝ) - 1) * eps : ℝ) * exp (I * (PHI0 + j * eps))
    let yi ← vals.rd (k_plus_one * M + j)
    return (s.1 + (starRingEnd ℂ) (zi - z0) * (yi - y0), s.2 + ‖zi - z0‖ * ‖zi - z0‖)

/-- The two loops fnft__poly_roots_fftgridsearch.c:111-122. -/
noncomputable def gridFit (M : ℕ) (PHI0 eps : ℝ) (vals : Buf ℂ) (z0 y0 : ℂ) (i : ℕ) : Option (ℂ × ℝ) :=
  forLoop 3 (fun a s => forLoop 3 (fun k s => gridTerm M PHI0 eps vals z0 y0 (i - 1 + a) k s) s) (0, 0)

/-- `zr`, fnft__poly_roots_fftgridsearch.c:130-144: `none` is `continue`. -/
noncomputable def gridRoot (eps : ℝ) (z0 y0 c : ℂ) : Option ℂ :=
  if c = 0 then
    if y0 ≠ 0 then none else some z0
  else
    let zr := z0 - y0 / c
    if ‖zr - z0‖ > eps then none else some zr

/-- State of the loop over the grid: the code, `roots`, `nroots`. -/
structure GridSt where
  ret : ℤ
  roots : Buf ℂ
  n : ℕ

/-- `roots[nroots++] = zr`, unless `continue` was executed. -/
noncomputable def gridStore (s : GridSt) : Option ℂ → Option GridSt
  | none => some s
  | some zr => do
    let b ← s.roots.wr s.n zr
    return ⟨s.ret, b, s.n + 1⟩

/-- One iteration of the loop fnft__poly_roots_fftgridsearch.c:79-148, with `i = i'+1`. Nothing happens after `goto release_mem`. -/
noncomputable def gridBody (M : ℕ) (PHI0 eps : ℝ) (vals : Buf ℂ) (i' : ℕ) (s : GridSt) : Option GridSt :=
  if s.ret ≠ SUCCESS then some s
  else do
    let i := i' + 1
    let y0 ← vals.rd (M + i)
    let larger ← gridTests vals ‖y0‖
      [i - 1, i, i + 1, M + i - 1, M + i + 1, 2 * M + i - 1, 2 * M + i, 2 * M + i + 1]
    if larger then return s
    else
      let z0 := exp (I * (PHI0 + i * eps))
      let ct ← gridFit M PHI0 eps vals z0 y0 i
      if ct.2 = 0 then return { s with ret := EC_DIV_BY_ZERO }
      else gridStore s (gridRoot eps z0 y0 (ct.1 / ct.2))

/-- Evaluation on one of the rings, fnft__poly_roots_fftgridsearch.c:71-76: code and `vals`; nothing happens after an error. -/
noncomputable def gridRing (deg : ℕ) (p : Buf ℂ) (M : ℕ) (PHI0 eps : ℝ) (k_plus_one : ℕ) (s : ℤ × Buf ℂ) : Option (ℤ × Buf ℂ) :=
  if s.1 ≠ SUCCESS then some s
  else do
    let A : ℂ := (1 + ((k_plus_one : ℝ) - 1) * eps : ℝ) * exp (-I * PHI0)
    match ← poly_chirpz deg (some p) A (exp (I * eps)) M (some ⟨s.2.len - k_plus_one * M, fun i => s.2.cell (k_plus_one * M + i)⟩) with
    | (rc, none) => return (E_SUBROUTINE rc, s.2)
    | (rc, some v) =>
      return (if rc = SUCCESS then SUCCESS else E_SUBROUTINE rc,
        ⟨s.2.len, fun i => if i < k_plus_one * M then s.2.cell i else v.cell (i - k_plus_one * M)⟩)

/-- `poly_roots_fftgridsearch`, fnft__poly_roots_fftgridsearch.c:36-155. -/
noncomputable def poly_roots_fftgridsearch (deg : ℕ) (p : Option (Buf ℂ)) (M_ptr : Option ℕ) (PHI : Option (ℝ × ℝ))
    (roots : Option (Buf ℂ)) : Option GridRes :=
  match p, M_ptr, PHI, roots with
  | some p, some M, some PHI, some roots =>
    if deg < 2 ∨ M < 2 ∨ ¬ PHI.1 < PHI.2 then some ⟨EC_INVALID_ARGUMENT, M_ptr, some roots⟩
    else do
      let eps : ℝ := (PHI.2 - PHI.1) / ((M : ℝ) - 1)
      let V ← forLoop 3 (gridRing deg p M PHI.1 eps) (SUCCESS, Buf.malloc (3 * M))
      if V.1 ≠ SUCCESS then return ⟨V.1, M_ptr, some roots⟩
      let s ← forLoop (M - 2) (gridBody M PHI.1 eps V.2) ⟨SUCCESS, roots, 0⟩
      return ⟨s.ret, if s.ret = SUCCESS then some s.n else M_ptr, some s.roots⟩
  | _, _, _, _ => some ⟨EC_INVALID_ARGUMENT, M_ptr, roots⟩

/-! ## `poly_roots_fftgridsearch_paraherm` -/

/-- Removal of the phase factor, fnft__poly_roots_fftgridsearch.c:196-199. -/
noncomputable def gridPhase (N : ℕ) (PHI0 eps : ℝ) (i : ℕ) (b : Buf ℂ) : Option (Buf ℂ) := do
  let v ← b.rd i
  let phi : ℝ := PHI0 + eps * i
  b.wr i (v * exp (-I * phi * ((N : ℂ) - 1)))

/-- The angle of the root estimate, fnft__poly_roots_fftgridsearch.c:208-213. A division by zero (real parts equal, imaginary
parts different) is outside of the model. -/
noncomputable def gridAngle (PHI0 eps : ℝ) (i : ℕ) (u v : ℂ) : Option ℝ :=
  let phi1 : ℝ := PHI0 + eps * ((i : ℝ) - 1)
  let phi2 := phi1 + eps
  if u ≠ v then
    if (v - u).re = 0 then none else some (phi1 - u.re * (phi2 - phi1) / (v - u).re)
  else some (0.5 * (phi1 + phi2))

/-- One iteration of the loop fnft__poly_roots_fftgridsearch.c:202-216, with `i = i'+1`. State: `roots`, `nroots`. -/
noncomputable def gridParaBody (PHI0 eps : ℝ) (i' : ℕ) (s : Buf ℂ × ℕ) : Option (Buf ℂ × ℕ) := do
  let i := i' + 1
  let u ← s.1.rd (i - 1)
  let v ← s.1.rd i
  if u.re * v.re ≤ 0 then do
    let phi ← gridAngle PHI0 eps i u v
    let b ← s.1.wr s.2 (exp (I * phi))
    return (b, s.2 + 1)
  else return s

/-- `poly_roots_fftgridsearch_paraherm`, fnft__poly_roots_fftgridsearch.c:163-220. -/
noncomputable def poly_roots_fftgridsearch_paraherm (deg : ℕ) (p : Option (Buf ℂ)) (M_ptr : Option ℕ) (PHI : Option (ℝ × ℝ))
    (roots : Option (Buf ℂ)) : Option GridRes :=
  match p, M_ptr, PHI, roots with
  | some p, some M, some PHI, some roots =>
    if deg % 2 = 1 ∨ deg < 2 ∨ M < 2 ∨ ¬ PHI.1 < PHI.2 then some ⟨EC_INVALID_ARGUMENT, M_ptr, some roots⟩
    else do
      let eps : ℝ := (PHI.2 - PHI.1) / ((M : ℝ) - 1)
      match ← poly_chirpz deg (some p) (exp (-I * PHI.1)) (exp (I * eps)) M (some roots) with
      | (rc, none) => return ⟨E_SUBROUTINE rc, M_ptr, some roots⟩
      | (rc, some b) =>
        if rc ≠ SUCCESS then return ⟨E_SUBROUTINE rc, M_ptr, some b⟩
        let b ← forLoop M (gridPhase (deg / 2 + 1) PHI.1 eps) b
        let s ← forLoop (M - 1) (gridParaBody PHI.1 eps) (b, 0)
        return ⟨SUCCESS, some s.2, some s.1⟩
  | _, _, _, _ => some ⟨EC_INVALID_ARGUMENT, M_ptr, roots⟩

end FNFT

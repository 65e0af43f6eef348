import Verif.Model.Mex
/-!
# Model of matlab/mex_fnft_nsev_inverse_XI.c and matlab/mex_fnft_version.c
-/
namespace FNFT

/-- A real matrix that is returned to MATLAB (`mxCreateDoubleMatrix(rows, cols, mxREAL)`, initialised with zeros). -/
structure MxRealMat where
  rows : ℕ
  cols : ℕ
  val : Buf ℝ

open Classical in
/-- `(FNFT_UINT) FNFT_ROUND(x)`: rounded to the nearest integer, halves away from zero (fnft_numtypes.h:173). The conversion of a negative number to an unsigned type is undefined. -/
noncomputable def roundU (x : ℝ) : Option ℕ := if x ≤ -(1 / 2) then none else some ⌊x + 1 / 2⌋₊

/-- The grid, mex_fnft_nsev_inverse_XI.c:71-75. For `M = 1` the step is a division by zero. -/
noncomputable def mxGrid (M : ℕ) (XI : ℝ × ℝ) : Option (Buf ℝ) := do
  let eps_xi ← if M = 1 then none else some ((XI.2 - XI.1) / ((M : ℝ) - 1))
  fill 0 M (fun i => some (XI.1 + i * eps_xi)) (Buf.calloc M)

/-- `mexFunction` of mex_fnft_nsev_inverse_XI.c:25-83, with the model of `fnft_nsev_inverse_XI` (arguments after the third are ignored).
The array `XI` is initialised with zeros by `mxCreateDoubleMatrix`. -/
noncomputable def mex_fnft_nsev_inverse_XI (nlhs : ℕ) (prhs : List MxArray) : Option (Except MexErr (Buf MxRealMat)) :=
  if nlhs < 1 then some (.ok (Buf.malloc 1))
  else match prhs with
  | D :: T :: M :: _ =>
    if ¬ D.isScalar then some (.error .usage)
    else if ¬ T.isRow 2 then some (.error .usage)
    else if ¬ M.isScalar then some (.error .usage)
    else do
      let d ← roundU (← D.scalar)
      let t ← mxPair T
      let m ← roundU (← M.scalar)
      let R ← fnft_nsev_inverse_XI d (some t) m (some (0, 0)) inv_default_opts.disc
      if R.1 ≠ SUCCESS then return .error (.failed R.1)
      let x ← R.2
      let p : Buf MxRealMat := Buf.malloc (max nlhs 1)
      let p ← p.wr 0 ⟨1, 2, Buf.ofList [x.1, x.2]⟩
      if nlhs ≥ 2 then
        let g ← mxGrid m x
        let p ← p.wr 1 ⟨1, m, g⟩
        return .ok p
      else return .ok p
  | _ => some (.error .usage)

/-! ## The version -/

/-- `fnft_version`, src/fnft_version.c:26-45: `fmt` is FNFT_VERSION_SUFFIX (used as a format string; it contains no `%`), `(M, m, p)` are the other configured numbers, `suffix` has room for
`FNFT_VERSION_SUFFIX_MAXLEN+1 = 9` characters. `snprintf` writes at most 8 characters and a terminating zero. Results: the code, `*major`, `*minor`, `*patch`, and the string in `suffix`; a
NULL pointer is `none`; a NULL pointer `suffix` is not tested and is undefined behaviour. -/
def fnft_version (M m p : ℕ) (fmt : List Char) (major minor patch : Option ℕ) (suffix : Option (List Char)) :
    Option (ℤ × Option ℕ × Option ℕ × Option ℕ × Option (List Char)) :=
  if major = none ∨ minor = none ∨ patch = none then some (EC_INVALID_ARGUMENT, major, minor, patch, suffix)
  else match suffix with
  | none => none
  | some _ =>
    let s := fmt.take 8
    if fmt.length > 8 then some (EC_ASSERTION_FAILED, some M, some m, some p, some s)
    else some (SUCCESS, some M, some m, some p, some s)

/-- What `mex_fnft_version.c:25-50` does: printing, an error, or the four outputs. -/
inductive VersionOut
  | printed (M m p : ℕ) (s : String)
  | error
  | outputs (M m p : ℕ) (s : String)

/-- `mexFunction` of mex_fnft_version.c:25-50. -/
def mex_fnft_version (M m p : ℕ) (s : String) (nlhs nrhs : ℕ) : VersionOut :=
  if nrhs > 0 then .error
  else if nlhs = 0 then .printed M m p s
  else if nlhs ≠ 4 then .error
  else .outputs M m p s

end FNFT

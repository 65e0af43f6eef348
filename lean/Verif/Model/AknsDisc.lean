import Verif.Model.AknsTypes
import Verif.Model.MiscNum
/-!
# Model of fnft__akns_discretization.c: spectral maps, method weights, changes of basis
-/
namespace FNFT
open AknsDisc Complex

/-- `akns_pde_t`, /repo/include/private/fnft__akns_discretization_t.h:149-152; `other` is any value that
is not an enumerator. -/
inductive AknsPde
  | KdV | NSE | other (n : ℤ)
  deriving DecidableEq

/-- `fnft__akns_discretization_lambda_to_z`, fnft__akns_discretization.c:204-219. Returns the code and
the array. -/
noncomputable def akns_lambda_to_z (n : ℕ) (eps_t : ℝ) (vals : Buf ℂ) (d : AknsDisc) :
    Option (ℤ × Buf ℂ) :=
  if akns_upsampling_factor d = 0 then some (EC_INVALID_ARGUMENT, vals)
  else if akns_degree d = 0 then some (EC_INVALID_ARGUMENT, vals)
  else do
    let degree1step : ℝ := akns_degree d * akns_upsampling_factor d
    let vals ← forLoop n (fun i (v : Buf ℂ) => do
      let x ← v.rd i
      v.wr i (exp (2 * I * x * eps_t / degree1step))) vals
    return (SUCCESS, vals)

/-- `fnft__akns_discretization_z_to_lambda`, fnft__akns_discretization.c:225-240. `CLOG` is the
principal branch; the logarithm of an exact zero (an infinity in C) is outside of the model. -/
noncomputable def akns_z_to_lambda (n : ℕ) (eps_t : ℝ) (vals : Buf ℂ) (d : AknsDisc) :
    Option (ℤ × Buf ℂ) :=
  if akns_upsampling_factor d = 0 then some (EC_INVALID_ARGUMENT, vals)
  else if akns_degree d = 0 then some (EC_INVALID_ARGUMENT, vals)
  else do
    let degree1step : ℝ := akns_degree d * akns_upsampling_factor d
    let vals ← forLoop n (fun i (v : Buf ℂ) => do
      let x ← v.rd i
      if x = 0 then none else v.wr i (log x / (2 * I * eps_t / degree1step))) vals
    return (SUCCESS, vals)

/-! ## Method weights -/

/-- The table `f[i][n]` of `CF4_3`, fnft__akns_discretization.c:311-320. -/
noncomputable def cf43f : ℕ → ℕ → ℝ
  | 0, 0 => 11 / 40 | 0, 1 => 20 / 87 | 0, 2 => 7 / 50
  | 1, 0 => 9 / 20 | 1, 1 => 0 | 1, 2 => -7 / 25
  | 2, 0 => 11 / 40 | 2, 1 => -20 / 87 | 2, 2 => 7 / 50
  | _, _ => 0

/-- `wm`, fnft__akns_discretization.c:322. -/
noncomputable def cf43w : ℕ → ℝ
  | 0 => 5 / 18 | 1 => 4 / 9 | _ => 5 / 18

/-- `xm`, fnft__akns_discretization.c:323. -/
noncomputable def cf43x : ℕ → ℝ
  | 0 => 2 * Real.sqrt (3 / 20) | 1 => 0 | _ => -2 * Real.sqrt (3 / 20)

/-- `qr_weights[i*3+m]` of `CF4_3` before the rows are normalised, fnft__akns_discretization.c:325-333. -/
noncomputable def cf43raw (i m : ℕ) : ℂ :=
  ((List.range 3).foldl (fun s n => s + (((2 * n + 1 : ℕ) * misc_legendre_poly n (cf43x m) * cf43f i n : ℝ) : ℂ)) 0) *
    (cf43w m : ℂ)

/-- `qr_weights` of `CF5_3` before normalisation, fnft__akns_discretization.c:351-359. -/
noncomputable def cf53raw : ℕ → ℕ → ℂ
  | 0, 0 => ((145 + 37 * Real.sqrt 15) / 900 : ℝ) + I * ((5 + 3 * Real.sqrt 15) / 300 : ℝ)
  | 0, 1 => (-1 / 45) + I * (1 / 15)
  | 0, 2 => ((145 - 37 * Real.sqrt 15) / 900 : ℝ) + I * ((5 - 3 * Real.sqrt 15) / 300 : ℝ)
  | 1, 0 => (-2 / 45) + I * (-Real.sqrt 15 / 50 : ℝ)
  | 1, 1 => 22 / 45
  | 1, 2 => (starRingEnd ℂ) ((-2 / 45) + I * (-Real.sqrt 15 / 50 : ℝ))
  | 2, 0 => (starRingEnd ℂ) (((145 - 37 * Real.sqrt 15) / 900 : ℝ) + I * ((5 - 3 * Real.sqrt 15) / 300 : ℝ))
  | 2, 1 => (starRingEnd ℂ) ((-1 / 45) + I * (1 / 15))
  | 2, 2 => (starRingEnd ℂ) (((145 + 37 * Real.sqrt 15) / 900 : ℝ) + I * ((5 + 3 * Real.sqrt 15) / 300 : ℝ))
  | _, _ => 0

/-- `qr_weights` of `CF6_4` before normalisation, fnft__akns_discretization.c:378-389. -/
noncomputable def cf64raw : ℕ → ℕ → ℂ
  | 0, 0 => 0.245985577298764 + 0.038734389227165 * I
  | 0, 1 => -0.046806149832549 + 0.012442141491185 * I
  | 0, 2 => 0.010894359342569 - 0.004575808769067 * I
  | 1, 0 => 0.062868370946917 - 0.048761268117765 * I
  | 1, 1 => 0.269028372054771 - 0.012442141491185 * I
  | 1, 2 => -0.041970529810473 + 0.014602687659668 * I
  | 2, 0 => -0.041970529810473 + 0.014602687659668 * I
  | 2, 1 => 0.269028372054771 - 0.012442141491185 * I
  | 2, 2 => 0.062868370946917 - 0.048761268117765 * I
  | 3, 0 => 0.010894359342569 - 0.004575808769067 * I
  | 3, 1 => -0.046806149832549 + 0.012442141491185 * I
  | 3, 2 => 0.245985577298764 + 0.038734389227165 * I
  | _, _ => 0

/-- The row normalisation shared by `CF4_3`, `CF5_3` and `CF6_4` (fnft__akns_discretization.c:334-340,
361-367 and 391-397): `eps_t_weights[m] = Σ_i raw[m][i]`, `qr_weights[3m+i] = raw[m][i]/eps_t_weights[m]`
(loops written as lists). -/
noncomputable def normRows (M : ℕ) (raw : ℕ → ℕ → ℂ) : List ℂ × List ℂ :=
  let w := fun m => 0 + raw m 0 + raw m 1 + raw m 2
  ((List.range (3 * M)).map fun j => raw (j / 3) (j % 3) / w (j / 3), (List.range M).map w)

/-- `fnft__akns_discretization_method_weights`, fnft__akns_discretization.c:246-415: the pair
`(qr_weights, eps_t_weights)`, or an error code. (`malloc` succeeds.) -/
noncomputable def akns_method_weights : AknsDisc → Except ℤ (List ℂ × List ℂ)
  | BO | D2SPLIT1A | D2SPLIT1B | D2SPLIT2A | D2SPLIT2B | D2SPLIT2S | D2SPLIT3A | D2SPLIT3B | D2SPLIT3S
  | D2SPLIT4A | D2SPLIT4B | D2SPLIT5A | D2SPLIT5B | D2SPLIT6A | D2SPLIT6B | D2SPLIT7A | D2SPLIT7B
  | D2SPLIT8A | D2SPLIT8B | D2SPLIT2_MODAL => .ok ([1], [1])
  | CF4_2 | D4SPLIT4A | D4SPLIT4B =>
    let scl_factor : ℂ := (1 / Real.sqrt 3 : ℝ)
    .ok ([0.5 + scl_factor, 0.5 - scl_factor, 0.5 - scl_factor, 0.5 + scl_factor], [0.5, 0.5])
  | CF4_3 => .ok (normRows 3 cf43raw)
  | CF5_3 => .ok (normRows 3 cf53raw)
  | CF6_4 => .ok (normRows 4 cf64raw)
  | _ => .error EC_INVALID_ARGUMENT

/-! ## Changes of basis -/

/-- The discretizations enumerated in the `switch`es of the change of basis routines
(fnft__akns_discretization.c:698-723 etc.). -/
def akns_basis_known : AknsDisc → Bool
  | D2SPLIT1A | D2SPLIT1B | D2SPLIT2B | D2SPLIT2S | D2SPLIT3A | D2SPLIT3B | D2SPLIT3S | D2SPLIT4A
  | D2SPLIT4B | D2SPLIT5A | D2SPLIT5B | D2SPLIT6A | D2SPLIT6B | D2SPLIT7A | D2SPLIT7B | D2SPLIT8A
  | D2SPLIT8B | D4SPLIT4A | D4SPLIT4B | BO | CF4_2 | CF4_3 | CF5_3 | CF6_4 | ES4 | TES4
  | D2SPLIT2_MODAL | D2SPLIT2A => true
  | _ => false

/-- The two discretizations with a modified basis (fnft__akns_discretization.c:761-762). -/
def akns_basis_modified : AknsDisc → Bool
  | D2SPLIT2_MODAL | D2SPLIT2A => true
  | _ => false

/-- Contents of `T`: the numbers `T_11, T_12, T_21, T_22, T_31, T_32, T_41, T_42` are stored at
`T[0..3]` without derivative, at `T[0], T[1], T[4], T[5], T[8], T[9], T[12], T[13]` with derivative,
when the other entries are filled as in fnft__akns_discretization.c:872-882. -/
noncomputable def basisOut (deriv : Bool) (t11 t12 t21 t22 t31 t32 t41 t42 : ℂ) : List ℂ :=
  if deriv then
    [t11, t12, 0, 0,
     t21, t22, 0, 0,
     t31, t32, t11, t12,
     t41, t42, t21, t22]
  else [t11, t12, t21, t22]

/-- `fnft__akns_discretization_change_of_basis_matrix_to_S`, fnft__akns_discretization.c:680-886.
The contents of `T`, or an error code (`CHECK_RETCODE` turns the code of the error into that of a failed
subroutine). -/
noncomputable def akns_basis_to_S (xi : ℂ) (deriv : Bool) (eps_t : ℝ) (d : AknsDisc) (vanilla : Bool) :
    AknsPde → Except ℤ (List ℂ)
  | .KdV =>
    if xi = 0 then .error (E_SUBROUTINE EC_DIV_BY_ZERO)
    else if akns_basis_known d then
      if akns_basis_modified d then
        if vanilla then
          let t11 := exp (-0.5 * I * xi * eps_t) * -I * 0.5 / xi
          let t22 := exp (0.5 * I * xi * eps_t)
          let t31 := -t11 * (1 / xi + 0.5 * I * eps_t)
          .ok (basisOut deriv t11 0 (-t11) t22 t31 0 (-t31) (0.5 * I * eps_t * t22))
        else
          let t11 := exp (-0.5 * I * xi * eps_t)
          let t12 := exp (0.5 * I * xi * eps_t) * -I * 0.5 / xi
          let t32 := t12 * (-1 / xi + 0.5 * I * eps_t)
          .ok (basisOut deriv t11 t12 0 (-t12) (-0.5 * I * eps_t * t11) t32 0 (-t32))
      else
        if vanilla then
          let t11 := -I * 0.5 / xi
          let t31 := -t11 / xi
          .ok (basisOut deriv t11 0 (-t11) 1 t31 0 (-t31) 0)
        else
          let t12 := -I * 0.5 / xi
          let t32 := -t12 / xi
          .ok (basisOut deriv 1 t12 0 (-t12) 0 t32 0 (-t32))
    else .error (E_SUBROUTINE EC_INVALID_ARGUMENT)
  | .NSE =>
    if akns_basis_known d then .ok (basisOut deriv 1 0 0 1 0 0 0 0)
    else .error (E_SUBROUTINE EC_INVALID_ARGUMENT)
  | .other _ => .error (E_SUBROUTINE EC_INVALID_ARGUMENT)

/-- `fnft__akns_discretization_change_of_basis_matrix_from_S`, fnft__akns_discretization.c:891-1096. -/
noncomputable def akns_basis_from_S (xi : ℂ) (deriv : Bool) (eps_t : ℝ) (d : AknsDisc) (vanilla : Bool) :
    AknsPde → Except ℤ (List ℂ)
  | .KdV =>
    if xi = 0 then .error (E_SUBROUTINE EC_DIV_BY_ZERO)
    else if akns_basis_known d then
      if akns_basis_modified d then
        if vanilla then
          let t11 := exp (0.5 * I * xi * eps_t) * 2 * I * xi
          let t21 := exp (-0.5 * I * xi * eps_t)
          let t41 := t21 * -0.5 * I * eps_t
          .ok (basisOut deriv t11 0 t21 t21 (t11 * (1 / xi + 0.5 * I * eps_t)) 0 t41 t41)
        else
          let t11 := exp (0.5 * I * xi * eps_t)
          let t22 := exp (-0.5 * I * xi * eps_t) * -2 * I * xi
          let t31 := t11 * 0.5 * I * eps_t
          .ok (basisOut deriv t11 t11 0 t22 t31 t31 0 (t22 * (1 / xi - 0.5 * I * eps_t)))
      else
        if vanilla then .ok (basisOut deriv (2 * I * xi) 0 1 1 (2 * I) 0 0 0)
        else .ok (basisOut deriv 1 1 0 (-2 * I * xi) 0 0 0 (-2 * I))
    else .error (E_SUBROUTINE EC_INVALID_ARGUMENT)
  | .NSE =>
    if akns_basis_known d then .ok (basisOut deriv 1 0 0 1 0 0 0 0)
    else .error (E_SUBROUTINE EC_INVALID_ARGUMENT)
  | .other _ => .error (E_SUBROUTINE EC_INVALID_ARGUMENT)

end FNFT

import Verif.Model.ManDisc
import Verif.Model.AknsFscatter
import Verif.Model.Nsev
/-!
# Model of /repo/src/private/fnft__manakov_scatter.c
-/
namespace FNFT
open Complex

/-- `manakov_scatter_U_BO`, fnft__manakov_scatter.c:34-69; entry `U[c]`. `none`: `x1` is zero, the C code computes NaN. -/
noncomputable def manU_BO (q1 q2 lam : ℂ) (eps_t : ℝ) (kappa : ℤ) : Option (ℕ → ℂ) :=
  if ‖q1‖ < EPSILON ∧ ‖q2‖ < EPSILON then
    some fun c => match c with
      | 0 => exp (-I * lam * eps_t)
      | 4 => exp (I * lam * eps_t)
      | 8 => exp (I * lam * eps_t)
      | _ => 0
  else
    let x1 : ℂ := csqrt (lam * lam + kappa * q1 * (starRingEnd ℂ) q1 + kappa * q2 * (starRingEnd ℂ) q2)
    let x2 : ℂ := eps_t * x1 * I
    let x3 : ℂ := q1 * (starRingEnd ℂ) q1 + q2 * (starRingEnd ℂ) q2
    if x1 = 0 then none
    else some fun c => match c with
      | 0 => -(lam / x1) * sinh x2 + cosh x2
      | 1 => -(I * q1 / x1) * sinh x2
      | 2 => -(I * q2 / x1) * sinh x2
      | 3 => (I * kappa * (starRingEnd ℂ) q1 / x1) * sinh x2
      | 4 => (q1 * (starRingEnd ℂ) q1 / x3) * (cosh x2 + (lam / x1) * sinh x2) +
          q2 * (starRingEnd ℂ) q2 * exp (eps_t * lam * I) / x3
      | 5 => (q2 * (starRingEnd ℂ) q1 / x3) * (cosh x2 - exp (eps_t * lam * I) + (lam / x1) * sinh x2)
      | 6 => (I * kappa * (starRingEnd ℂ) q2 / x1) * sinh x2
      | 7 => (q1 * (starRingEnd ℂ) q2 / x3) * (cosh x2 - exp (eps_t * lam * I) + (lam / x1) * sinh x2)
      | _ => (q2 * (starRingEnd ℂ) q2 / x3) * (cosh x2 + (lam / x1) * sinh x2) +
          q1 * (starRingEnd ℂ) q1 * exp (eps_t * lam * I) / x3

/-- Body of the loop over the samples, fnft__manakov_scatter.c:124-128; the state is `H[current]`, `H[!current]` is
overwritten completely. -/
noncomputable def manScatStep (q1 q2 : Buf ℂ) (l : ℂ) (eps_t : ℝ) (kappa : ℤ) (n : ℕ) (H : Buf ℂ) : Option (Buf ℂ) := do
  let x ← q1.rd n
  let y ← q2.rd n
  let U ← manU_BO x y l eps_t kappa
  misc_matrix_mult 3 3 3 (Buf.ofFn 9 U) H (Buf.malloc 9)

/-- The identity matrix, fnft__manakov_scatter.c:115. -/
noncomputable def manId : Buf ℂ := Buf.ofFn 9 fun c => if c = 0 ∨ c = 4 ∨ c = 8 then 1 else 0

/-- `memcpy` of the nine entries, fnft__manakov_scatter.c:137. -/
def manCopy9 (H : Buf ℂ) (off : ℕ) (result : Buf ℂ) : Option (Buf ℂ) :=
  forLoop 9 (fun t (r : Buf ℂ) => do
    let v ← H.rd t
    r.wr (off + t) v) result

/-- Body of the loop over `lambda` for the two supported discretizations (`half`: CF4_2), fnft__manakov_scatter.c:111-138. -/
noncomputable def manScatLambda (half : Bool) (D : ℕ) (q1 q2 : Buf ℂ) (eps_t : ℝ) (kappa : ℤ) (lambda : Buf ℂ) (i : ℕ)
    (result : Buf ℂ) : Option (Buf ℂ) := do
  let l ← lambda.rd i
  let H ← forLoop D (manScatStep q1 q2 (if half then l / 2 else l) eps_t kappa) manId
  manCopy9 H (9 * i) result

/-- `manakov_scatter_matrix`, fnft__manakov_scatter.c:78-143. NULL pointers are `none`. -/
noncomputable def man_scatter_matrix (D : ℕ) (q1 q2 : Option (Buf ℂ)) (eps_t : ℝ) (K : ℕ) (lambda : Option (Buf ℂ))
    (kappa : ℤ) (result : Option (Buf ℂ)) (d : ManDisc) : Option (ℤ × Option (Buf ℂ)) :=
  if D = 0 then some (EC_INVALID_ARGUMENT, result)
  else match q1, q2 with
    | some q1, some q2 =>
      if ¬ 0 < eps_t then some (EC_INVALID_ARGUMENT, result)
      else if K = 0 then some (EC_INVALID_ARGUMENT, result)
      else match lambda, result with
        | some lambda, some res =>
          if man_upsampling_factor d = 0 then some (EC_INVALID_ARGUMENT, some res)
          else if d = .CF4_2 ∨ d = .BO then
            (forLoop K (manScatLambda (d = .CF4_2) D q1 q2 eps_t kappa lambda) res).map fun r => (SUCCESS, some r)
          else some (E_SUBROUTINE EC_INVALID_ARGUMENT, some res)
        | _, _ => some (EC_INVALID_ARGUMENT, result)
    | _, _ => some (EC_INVALID_ARGUMENT, result)

end FNFT

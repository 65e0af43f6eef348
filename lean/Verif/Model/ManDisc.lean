import Verif.Model.Resample
import Verif.Model.Misc
import Verif.Model.MiscNum
/-!
# Model of /repo/src/private/fnft__manakov_discretization.c
-/
namespace FNFT
open Complex

/-- `fnft_manakov_discretization_t`, /repo/include/fnft_manakov_discretization_t.h:88-102, in the order of
the `enum`; `other n` is a value that is not an enumerator. -/
inductive ManDisc
  | D2SPLIT3A | D2SPLIT3B | D2SPLIT4A | D2SPLIT4B | D2SPLIT6B | D4SPLIT4A | D4SPLIT4B | D4SPLIT6B
  | FTES4_4A | FTES4_4B | FTES4_suzuki | CF4_2 | BO | other (n : ℤ)
  deriving DecidableEq

/-- `fnft__manakov_discretization_degree`, fnft__manakov_discretization.c:32-57. -/
def man_degree : ManDisc → ℕ
  | .D2SPLIT3A | .D2SPLIT3B => 6
  | .D2SPLIT4B | .D4SPLIT4B => 4
  | .D2SPLIT4A | .D4SPLIT4A | .FTES4_4A | .FTES4_4B => 8
  | .D2SPLIT6B | .D4SPLIT6B => 12
  | .FTES4_suzuki => 14
  | _ => 0

/-- `fnft__manakov_discretization_upsampling_factor`, fnft__manakov_discretization.c:63-85. -/
def man_upsampling_factor : ManDisc → ℕ
  | .D4SPLIT4A | .D4SPLIT4B | .D4SPLIT6B | .CF4_2 => 2
  | .D2SPLIT3A | .D2SPLIT3B | .D2SPLIT4B | .D2SPLIT4A | .FTES4_4A | .FTES4_4B | .D2SPLIT6B | .BO
  | .FTES4_suzuki => 1
  | .other _ => 0

/-- `fnft__manakov_discretization_method_order`, fnft__manakov_discretization.c:87-106. -/
def man_method_order : ManDisc → ℕ
  | .D2SPLIT3A | .D2SPLIT3B | .D2SPLIT4B | .D2SPLIT4A | .D2SPLIT6B => 2
  | .D4SPLIT4A | .D4SPLIT4B | .D4SPLIT6B | .FTES4_4A | .FTES4_4B | .FTES4_suzuki => 4
  | _ => 0

/-- `fnft__manakov_discretization_boundary_coeff`, fnft__manakov_discretization.c:448-470; `none` is NaN. -/
def man_boundary_coeff : ManDisc → Option ℚ
  | .other _ => none
  | _ => some (1 / 2)

/-! ## Preprocessing -/

/-- Copy loop with stride, fnft__manakov_discretization.c:183-186 and 193-196. State: the two destination
arrays and `i`. -/
def manDownBody (q1 q2 : Buf ℂ) (nskip : ℕ) (isub : ℕ) (s : Buf ℂ × Buf ℂ × ℕ) : Option (Buf ℂ × Buf ℂ × ℕ) := do
  let v1 ← q1.rd s.2.2
  let a ← s.1.wr isub v1
  let v2 ← q2.rd s.2.2
  let b ← s.2.1.wr isub v2
  return (a, b, s.2.2 + nskip)

/-- `misc_resample(Dsub, h, q_sub, delta, q_c)` into a freshly allocated array; the return code is not looked
at, so that an unsuccessful call leaves the array uninitialised. -/
noncomputable def manResample (Dsub : ℕ) (h : ℝ) (q : Buf ℂ) (delta : ℝ) : Option (Buf ℂ) := do
  let r ← misc_resample Dsub h (some q) delta (some (Buf.malloc Dsub))
  r.2

/-- `a1 = 0.25 + sqrt(3)/6`, fnft__manakov_discretization.c:198. -/
noncomputable def man_a1 : ℝ := 0.25 + Real.sqrt 3 / 6

/-- `a2 = 0.25 - sqrt(3)/6`, fnft__manakov_discretization.c:199. -/
noncomputable def man_a2 : ℝ := 0.25 - Real.sqrt 3 / 6

/-- Loop body of fnft__manakov_discretization.c:208-213. -/
noncomputable def manCFBody (c11 c12 c21 c22 : Buf ℂ) (i : ℕ) (s : Buf ℂ × Buf ℂ) : Option (Buf ℂ × Buf ℂ) := do
  let x1 ← c11.rd i
  let x2 ← c12.rd i
  let y1 ← c21.rd i
  let y2 ← c22.rd i
  let a ← s.1.wr (2 * i) (man_a1 * x1 + man_a2 * x2)
  let b ← s.2.wr (2 * i) (man_a1 * y1 + man_a2 * y2)
  let a ← a.wr (2 * i + 1) (man_a2 * x1 + man_a1 * x2)
  let b ← b.wr (2 * i + 1) (man_a2 * y1 + man_a1 * y2)
  return (a, b)

/-- The cases that need samples on a non-equidistant grid, fnft__manakov_discretization.c:188-215. -/
noncomputable def manPreCF (Dsub nskip : ℕ) (eps_t : ℝ) (q1 q2 : Buf ℂ) (s : Buf ℂ × Buf ℂ) : Option (Buf ℂ × Buf ℂ) := do
  let sub ← forLoop Dsub (manDownBody q1 q2 nskip) (Buf.malloc Dsub, Buf.malloc Dsub, 0)
  let c11 ← manResample Dsub (eps_t / nskip) sub.1 ((0.5 - Real.sqrt 3 / 6) * (eps_t / nskip))
  let c12 ← manResample Dsub (eps_t / nskip) sub.1 ((0.5 + Real.sqrt 3 / 6) * (eps_t / nskip))
  let c21 ← manResample Dsub (eps_t / nskip) sub.2.1 ((0.5 - Real.sqrt 3 / 6) * (eps_t / nskip))
  let c22 ← manResample Dsub (eps_t / nskip) sub.2.1 ((0.5 + Real.sqrt 3 / 6) * (eps_t / nskip))
  forLoop Dsub (manCFBody c11 c12 c21 c22) s

/-- The cases that use the samples as they are, fnft__manakov_discretization.c:174-187. -/
noncomputable def manPrePoint (Deff nskip : ℕ) (q1 q2 : Buf ℂ) (s : Buf ℂ × Buf ℂ) : Option (Buf ℂ × Buf ℂ) := do
  let r ← forLoop Deff (manDownBody q1 q2 nskip) (s.1, s.2, 0)
  return (r.1, r.2.1)

/-- The `switch` of the preprocessing, fnft__manakov_discretization.c:173-221. -/
noncomputable def manPreSwitch (d : ManDisc) (Deff Dsub nskip : ℕ) (eps_t : ℝ) (q1 q2 : Buf ℂ) (s : Buf ℂ × Buf ℂ) :
    Option (Except ℤ (Buf ℂ × Buf ℂ)) :=
  match d with
  | .D2SPLIT3A | .D2SPLIT3B | .D2SPLIT4B | .D2SPLIT4A | .FTES4_4A | .FTES4_4B | .D2SPLIT6B | .FTES4_suzuki
  | .BO => (manPrePoint Deff nskip q1 q2 s).map .ok
  | .D4SPLIT4A | .D4SPLIT4B | .D4SPLIT6B | .CF4_2 => (manPreCF Dsub nskip eps_t q1 q2 s).map .ok
  | .other _ => some (.error EC_INVALID_ARGUMENT)

/-- What the preprocessing leaves behind: code, `*Dsub_ptr`, the two arrays, `first_last_index` (`none`: not
set). -/
structure ManPreRes where
  ret : ℤ
  Dsub : ℕ
  out : Option (Buf ℂ × Buf ℂ)
  first_last : Option (ℕ × ℕ)

/-- `manakov_discretization_preprocess_signal`, fnft__manakov_discretization.c:110-236. The pointers
`Dsub_ptr`, `q1_preprocessed_ptr`, `q2_preprocessed_ptr`, `first_last_index` are not NULL; allocations succeed;
`ROUND(D/n)` is `roundDiv`. -/
noncomputable def man_preprocess_signal (D : ℕ) (q1 q2 : Option (Buf ℂ)) (eps_t : ℝ) (Dsub0 : ℕ) (d : ManDisc) :
    Option ManPreRes :=
  if D < 2 then some ⟨EC_INVALID_ARGUMENT, Dsub0, none, none⟩
  else match q1, q2 with
  | some q1, some q2 =>
    if eps_t ≤ 0 then some ⟨EC_INVALID_ARGUMENT, Dsub0, none, none⟩
    else
      let Dsub := Dsub0
      let Dsub := if Dsub < 2 then 2 else Dsub
      let Dsub := if Dsub > D then D else Dsub
      let nskip := roundDiv D Dsub
      let Dsub := roundDiv D nskip
      if man_upsampling_factor d = 0 then some ⟨EC_INVALID_ARGUMENT, Dsub0, none, none⟩
      else do
        let Deff := Dsub * man_upsampling_factor d
        match ← manPreSwitch d Deff Dsub nskip eps_t q1 q2 (Buf.malloc Deff, Buf.malloc Deff) with
        | .error ec => return ⟨ec, Dsub0, none, none⟩
        | .ok s => return ⟨SUCCESS, Dsub, some s, some (0, (Dsub - 1) * nskip)⟩
  | _, _ => some ⟨EC_INVALID_ARGUMENT, Dsub0, none, none⟩

/-! ## Spectral maps and phase factors -/

/-- `fnft__manakov_discretization_lambda_to_z`, fnft__manakov_discretization.c:243-267. -/
noncomputable def man_lambda_to_z (n : ℕ) (eps_t : ℝ) (vals : Buf ℂ) (d : ManDisc) : Option (ℤ × Buf ℂ) :=
  if d = .FTES4_suzuki then do
    let vals ← forLoop n (fun i (v : Buf ℂ) => do
      let x ← v.rd i
      v.wr i (exp (I * x * eps_t / 3))) vals
    return (SUCCESS, vals)
  else if man_upsampling_factor d = 0 then some (EC_INVALID_ARGUMENT, vals)
  else if man_degree d = 0 then some (EC_INVALID_ARGUMENT, vals)
  else do
    let degree1step : ℝ := man_degree d * man_upsampling_factor d
    let vals ← forLoop n (fun i (v : Buf ℂ) => do
      let x ← v.rd i
      v.wr i (exp (2 * I * x * eps_t / degree1step))) vals
    return (SUCCESS, vals)

/-- `fnft__manakov_discretization_z_to_lambda`, fnft__manakov_discretization.c:273-297. The logarithm of an
exact zero (an infinity in C) is outside of the model. -/
noncomputable def man_z_to_lambda (n : ℕ) (eps_t : ℝ) (vals : Buf ℂ) (d : ManDisc) : Option (ℤ × Buf ℂ) :=
  if d = .FTES4_suzuki then do
    let vals ← forLoop n (fun i (v : Buf ℂ) => do
      let x ← v.rd i
      if x = 0 then none else v.wr i (log x * 3 / (I * eps_t))) vals
    return (SUCCESS, vals)
  else if man_upsampling_factor d = 0 then some (EC_INVALID_ARGUMENT, vals)
  else if man_degree d = 0 then some (EC_INVALID_ARGUMENT, vals)
  else do
    let degree1step : ℝ := man_degree d * man_upsampling_factor d
    let vals ← forLoop n (fun i (v : Buf ℂ) => do
      let x ← v.rd i
      if x = 0 then none else v.wr i (log x * degree1step / (2 * I * eps_t))) vals
    return (SUCCESS, vals)

/-- `fnft__manakov_discretization_phase_factor_rho`, fnft__manakov_discretization.c:305-341 (the comparison
with `NAN` is never true; the unknown discretizations are rejected by the `default` case). -/
noncomputable def man_phase_factor_rho (eps_t T1 : ℝ) (d : ManDisc) : Except ℤ ℝ :=
  match d with
  | .D2SPLIT3A | .D2SPLIT3B | .D2SPLIT4A | .D2SPLIT4B | .D2SPLIT6B | .FTES4_4A | .FTES4_4B | .FTES4_suzuki
  | .BO => .ok (-2 * (T1 + eps_t * 0.5))
  | .D4SPLIT4A | .D4SPLIT4B | .D4SPLIT6B | .CF4_2 => .ok (-2 * (T1 + eps_t * 0.5) - eps_t)
  | .other _ => .error EC_INVALID_ARGUMENT

/-- `fnft__manakov_discretization_phase_factor_a`, fnft__manakov_discretization.c:348-387. -/
noncomputable def man_phase_factor_a (eps_t : ℝ) (D : ℕ) (T0 T1 : ℝ) (d : ManDisc) : Except ℤ ℝ :=
  match d with
  | .D2SPLIT3A | .D2SPLIT3B | .D2SPLIT4A | .D2SPLIT4B | .D2SPLIT6B | .D4SPLIT4A | .D4SPLIT4B | .D4SPLIT6B
  | .FTES4_4A | .FTES4_4B => .ok (-eps_t * D + (T1 + eps_t * 0.5) - (T0 - eps_t * 0.5))
  | .FTES4_suzuki => .ok ((T1 + eps_t * 0.5) - (T0 - eps_t * 0.5) - eps_t * 7 * D / 3)
  | .BO | .CF4_2 => .ok ((T1 + eps_t * 0.5) - (T0 - eps_t * 0.5))
  | .other _ => .error EC_INVALID_ARGUMENT

/-- `fnft__manakov_discretization_phase_factor_b`, fnft__manakov_discretization.c:394-443. -/
noncomputable def man_phase_factor_b (eps_t : ℝ) (D : ℕ) (T0 T1 : ℝ) (d : ManDisc) : Except ℤ ℝ :=
  match d with
  | .D2SPLIT3A | .D2SPLIT3B | .D2SPLIT4A | .D2SPLIT4B | .D2SPLIT6B | .FTES4_4A | .FTES4_4B =>
    if man_degree d = 0 then .error EC_INVALID_ARGUMENT
    else .ok (-eps_t * D - (T1 + eps_t * 0.5) - (T0 - eps_t * 0.5))
  | .FTES4_suzuki => .ok (-(T1 + eps_t * 0.5) - (T0 - eps_t * 0.5) - eps_t * 7 * D / 3)
  | .D4SPLIT4A | .D4SPLIT4B | .D4SPLIT6B => .ok (-eps_t * (D + 1) - (T1 + eps_t * 0.5) - (T0 - eps_t * 0.5))
  | .BO => .ok (-(T1 + eps_t * 0.5) - (T0 - eps_t * 0.5))
  | .CF4_2 => .ok (-(T1 + eps_t * 0.5) - (T0 - eps_t * 0.5) - eps_t)
  | .other _ => .error EC_INVALID_ARGUMENT

end FNFT

import Verif.Model.AknsDisc
import Verif.Model.AknsScatter
import Verif.Model.AknsFscatter
/-!
# Model of /repo/src/private/fnft__nse_discretization.c (except the preprocessing)
-/
namespace FNFT

/-- `fnft_nse_discretization_t`, /repo/include/fnft_nse_discretization_t.h:106-135, in the order of the
`enum`; `other n` is a value that is not an enumerator. -/
inductive NseDisc
  | D2SPLIT2_MODAL | BO | D2SPLIT1A | D2SPLIT1B | D2SPLIT2A | D2SPLIT2B | D2SPLIT2S | D2SPLIT3A | D2SPLIT3B
  | D2SPLIT3S | D2SPLIT4A | D2SPLIT4B | D2SPLIT5A | D2SPLIT5B | D2SPLIT6A | D2SPLIT6B | D2SPLIT7A
  | D2SPLIT7B | D2SPLIT8A | D2SPLIT8B | D4SPLIT4A | D4SPLIT4B | CF4_2 | CF4_3 | CF5_3 | CF6_4
  | ES4 | TES4 | other (n : ℤ)
  deriving DecidableEq

/-- `fnft__nse_discretization_to_akns_discretization`, fnft__nse_discretization.c:112-205. -/
def nse_to_akns : NseDisc → Except ℤ AknsDisc
  | .D2SPLIT2_MODAL => .ok .D2SPLIT2_MODAL
  | .D2SPLIT1A => .ok .D2SPLIT1A
  | .D2SPLIT1B => .ok .D2SPLIT1B
  | .D2SPLIT2A => .ok .D2SPLIT2A
  | .D2SPLIT2B => .ok .D2SPLIT2B
  | .D2SPLIT2S => .ok .D2SPLIT2S
  | .D2SPLIT3S => .ok .D2SPLIT3S
  | .D2SPLIT4B => .ok .D2SPLIT4B
  | .D2SPLIT3A => .ok .D2SPLIT3A
  | .D2SPLIT3B => .ok .D2SPLIT3B
  | .D2SPLIT4A => .ok .D2SPLIT4A
  | .D2SPLIT6B => .ok .D2SPLIT6B
  | .D2SPLIT6A => .ok .D2SPLIT6A
  | .D2SPLIT8B => .ok .D2SPLIT8B
  | .D2SPLIT5A => .ok .D2SPLIT5A
  | .D2SPLIT5B => .ok .D2SPLIT5B
  | .D2SPLIT8A => .ok .D2SPLIT8A
  | .D2SPLIT7A => .ok .D2SPLIT7A
  | .D2SPLIT7B => .ok .D2SPLIT7B
  | .BO => .ok .BO
  | .D4SPLIT4A => .ok .D4SPLIT4A
  | .D4SPLIT4B => .ok .D4SPLIT4B
  | .CF4_2 => .ok .CF4_2
  | .CF4_3 => .ok .CF4_3
  | .CF5_3 => .ok .CF5_3
  | .CF6_4 => .ok .CF6_4
  | .ES4 => .ok .ES4
  | .TES4 => .ok .TES4
  | .other _ => .error EC_INVALID_ARGUMENT

/-- `fnft__nse_discretization_degree`, fnft__nse_discretization.c:30-41. -/
def nse_degree (d : NseDisc) : ℕ :=
  match nse_to_akns d with
  | .ok a => akns_degree a
  | .error _ => 0

/-- `fnft__nse_discretization_boundary_coeff`, fnft__nse_discretization.c:47-57; `none` is NaN. -/
def nse_boundary_coeff (d : NseDisc) : Option ℚ :=
  match nse_to_akns d with
  | .ok a => akns_boundary_coeff a
  | .error _ => none

/-- `fnft__nse_discretization_upsampling_factor`, fnft__nse_discretization.c:62-72. -/
def nse_upsampling_factor (d : NseDisc) : ℕ :=
  match nse_to_akns d with
  | .ok a => akns_upsampling_factor a
  | .error _ => 0

/-- `fnft__nse_discretization_method_order`, fnft__nse_discretization.c:77-87. -/
def nse_method_order (d : NseDisc) : ℕ :=
  match nse_to_akns d with
  | .ok a => akns_method_order a
  | .error _ => 0

/-- `fnft__nse_discretization_method_weights`, fnft__nse_discretization.c:92-107. -/
noncomputable def nse_method_weights (d : NseDisc) : Except ℤ (List ℂ × List ℂ) :=
  match nse_to_akns d with
  | .error ec => .error (E_SUBROUTINE ec)
  | .ok a =>
    match akns_method_weights a with
    | .error ec => .error (E_SUBROUTINE ec)
    | .ok w => .ok w

/-- `fnft__nse_discretization_lambda_to_z`, fnft__nse_discretization.c:210-220. -/
noncomputable def nse_lambda_to_z (n : ℕ) (eps_t : ℝ) (vals : Buf ℂ) (d : NseDisc) : Option (ℤ × Buf ℂ) :=
  match nse_to_akns d with
  | .error ec => some (E_SUBROUTINE ec, vals)
  | .ok a => akns_lambda_to_z n eps_t vals a

/-- `fnft__nse_discretization_z_to_lambda`, fnft__nse_discretization.c:226-236. -/
noncomputable def nse_z_to_lambda (n : ℕ) (eps_t : ℝ) (vals : Buf ℂ) (d : NseDisc) : Option (ℤ × Buf ℂ) :=
  match nse_to_akns d with
  | .error ec => some (E_SUBROUTINE ec, vals)
  | .ok a => akns_z_to_lambda n eps_t vals a

/-- `fnft__nse_discretization_phase_factor_rho`, fnft__nse_discretization.c:243-260. Result: the code and
the value stored in `*phase_factor_rho` (outer `none`: nothing stored; `some none`: NaN stored). The
comparison `boundary_coeff == NAN` is never true. -/
noncomputable def nse_phase_factor_rho (eps_t T1 : ℝ) (d : NseDisc) : ℤ × Option (Option ℝ) :=
  let bc : Option ℝ := (nse_boundary_coeff d).map (fun x => (x : ℝ))
  if d = .D2SPLIT2A ∨ d = .D2SPLIT2_MODAL then
    let degree1step := nse_degree d
    if degree1step = 0 then (EC_INVALID_ARGUMENT, none)
    else (SUCCESS, some (bc.map fun b => -2 * (T1 + eps_t * b) + eps_t / degree1step))
  else (SUCCESS, some (bc.map fun b => -2 * (T1 + eps_t * b)))

/-- `fnft__nse_discretization_phase_factor_a`, fnft__nse_discretization.c:267-317. -/
noncomputable def nse_phase_factor_a (eps_t : ℝ) (D : ℕ) (T0 T1 : ℝ) (d : NseDisc) : ℤ × Option (Option ℝ) :=
  let bc : Option ℝ := (nse_boundary_coeff d).map (fun x => (x : ℝ))
  match d with
  | .D2SPLIT1A | .D2SPLIT1B | .D2SPLIT2B | .D2SPLIT2S | .D2SPLIT3A | .D2SPLIT3B | .D2SPLIT3S | .D2SPLIT4A
  | .D2SPLIT4B | .D2SPLIT5A | .D2SPLIT5B | .D2SPLIT6A | .D2SPLIT6B | .D2SPLIT7A | .D2SPLIT7B | .D2SPLIT8A
  | .D2SPLIT8B | .D4SPLIT4A | .D4SPLIT4B | .D2SPLIT2A | .D2SPLIT2_MODAL =>
    (SUCCESS, some (bc.map fun b => -eps_t * D + (T1 + eps_t * b) - (T0 - eps_t * b)))
  | .BO | .CF4_2 | .CF4_3 | .CF5_3 | .CF6_4 | .ES4 | .TES4 =>
    (SUCCESS, some (bc.map fun b => (T1 + eps_t * b) - (T0 - eps_t * b)))
  | .other _ => (EC_INVALID_ARGUMENT, none)

/-- `fnft__nse_discretization_phase_factor_b`, fnft__nse_discretization.c:324-383. -/
noncomputable def nse_phase_factor_b (eps_t : ℝ) (D : ℕ) (T0 T1 : ℝ) (d : NseDisc) : ℤ × Option (Option ℝ) :=
  let bc : Option ℝ := (nse_boundary_coeff d).map (fun x => (x : ℝ))
  match d with
  | .D2SPLIT1A | .D2SPLIT1B | .D2SPLIT2B | .D2SPLIT2S | .D2SPLIT3A | .D2SPLIT3B | .D2SPLIT3S | .D2SPLIT4A
  | .D2SPLIT4B | .D2SPLIT5A | .D2SPLIT5B | .D2SPLIT6A | .D2SPLIT6B | .D2SPLIT7A | .D2SPLIT7B | .D2SPLIT8A
  | .D2SPLIT8B | .D4SPLIT4A | .D4SPLIT4B =>
    (SUCCESS, some (bc.map fun b => -eps_t * D - (T1 + eps_t * b) - (T0 - eps_t * b)))
  | .D2SPLIT2A | .D2SPLIT2_MODAL =>
    let degree1step := nse_degree d
    if degree1step = 0 then (EC_INVALID_ARGUMENT, none)
    else (SUCCESS, some (bc.map fun b => -eps_t * D - (T1 + eps_t * b) - (T0 - eps_t * b) + eps_t / degree1step))
  | .BO | .CF4_2 | .CF4_3 | .CF5_3 | .CF6_4 | .ES4 | .TES4 =>
    (SUCCESS, some (bc.map fun b => -(T1 + eps_t * b) - (T0 - eps_t * b)))
  | .other _ => (EC_INVALID_ARGUMENT, none)

end FNFT

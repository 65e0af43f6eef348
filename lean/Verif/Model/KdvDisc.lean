import Verif.Model.Nsev
/-!
# Model of /repo/src/private/fnft__kdv_discretization.c, fnft__kdv_fscatter.c and fnft__kdv_scatter.c

The tables over the 56 discretizations are written out as in the `switch` statements of the C code.
-/
namespace FNFT

/-- `fnft_kdv_discretization_t`, /repo/include/fnft_kdv_discretization_t.h:116-173, in the order of the
`enum`; `other n` is a value that is not an enumerator. -/
inductive KdvDisc
  | D2SPLIT2_MODAL_VANILLA | BO_VANILLA | D2SPLIT1A_VANILLA | D2SPLIT1B_VANILLA | D2SPLIT2A_VANILLA
  | D2SPLIT2B_VANILLA | D2SPLIT2S_VANILLA | D2SPLIT3A_VANILLA | D2SPLIT3B_VANILLA | D2SPLIT3S_VANILLA
  | D2SPLIT4A_VANILLA | D2SPLIT4B_VANILLA | D2SPLIT5A_VANILLA | D2SPLIT5B_VANILLA | D2SPLIT6A_VANILLA
  | D2SPLIT6B_VANILLA | D2SPLIT7A_VANILLA | D2SPLIT7B_VANILLA | D2SPLIT8A_VANILLA | D2SPLIT8B_VANILLA
  | D4SPLIT4A_VANILLA | D4SPLIT4B_VANILLA | CF4_2_VANILLA | CF4_3_VANILLA | CF5_3_VANILLA
  | CF6_4_VANILLA | ES4_VANILLA | TES4_VANILLA | D2SPLIT2_MODAL | BO | D2SPLIT1A | D2SPLIT1B
  | D2SPLIT2A | D2SPLIT2B | D2SPLIT2S | D2SPLIT3A | D2SPLIT3B | D2SPLIT3S | D2SPLIT4A | D2SPLIT4B
  | D2SPLIT5A | D2SPLIT5B | D2SPLIT6A | D2SPLIT6B | D2SPLIT7A | D2SPLIT7B | D2SPLIT8A | D2SPLIT8B
  | D4SPLIT4A | D4SPLIT4B | CF4_2 | CF4_3 | CF5_3 | CF6_4 | ES4 | TES4 | other (n : ℤ)
  deriving DecidableEq

/-- `fnft__kdv_discretization_to_akns_discretization`, fnft__kdv_discretization.c:112-232. -/
def kdv_to_akns : KdvDisc → Except ℤ AknsDisc
  | .D2SPLIT2_MODAL_VANILLA | .D2SPLIT2_MODAL =>
    .ok .D2SPLIT2_MODAL
  | .D2SPLIT1A_VANILLA | .D2SPLIT1A =>
    .ok .D2SPLIT1A
  | .D2SPLIT1B_VANILLA | .D2SPLIT1B =>
    .ok .D2SPLIT1B
  | .D2SPLIT2A_VANILLA | .D2SPLIT2A =>
    .ok .D2SPLIT2A
  | .D2SPLIT2B_VANILLA | .D2SPLIT2B =>
    .ok .D2SPLIT2B
  | .D2SPLIT2S_VANILLA | .D2SPLIT2S =>
    .ok .D2SPLIT2S
  | .D2SPLIT3A_VANILLA | .D2SPLIT3A =>
    .ok .D2SPLIT3A
  | .D2SPLIT3B_VANILLA | .D2SPLIT3B =>
    .ok .D2SPLIT3B
  | .D2SPLIT3S_VANILLA | .D2SPLIT3S =>
    .ok .D2SPLIT3S
  | .D2SPLIT4A_VANILLA | .D2SPLIT4A =>
    .ok .D2SPLIT4A
  | .D2SPLIT4B_VANILLA | .D2SPLIT4B =>
    .ok .D2SPLIT4B
  | .D2SPLIT5A_VANILLA | .D2SPLIT5A =>
    .ok .D2SPLIT5A
  | .D2SPLIT5B_VANILLA | .D2SPLIT5B =>
    .ok .D2SPLIT5B
  | .D2SPLIT6A_VANILLA | .D2SPLIT6A =>
    .ok .D2SPLIT6A
  | .D2SPLIT6B_VANILLA | .D2SPLIT6B =>
    .ok .D2SPLIT6B
  | .D2SPLIT7A_VANILLA | .D2SPLIT7A =>
    .ok .D2SPLIT7A
  | .D2SPLIT7B_VANILLA | .D2SPLIT7B =>
    .ok .D2SPLIT7B
  | .D2SPLIT8A_VANILLA | .D2SPLIT8A =>
    .ok .D2SPLIT8A
  | .D2SPLIT8B_VANILLA | .D2SPLIT8B =>
    .ok .D2SPLIT8B
  | .BO_VANILLA | .BO =>
    .ok .BO
  | .D4SPLIT4A_VANILLA | .D4SPLIT4A =>
    .ok .D4SPLIT4A
  | .D4SPLIT4B_VANILLA | .D4SPLIT4B =>
    .ok .D4SPLIT4B
  | .CF4_2_VANILLA | .CF4_2 =>
    .ok .CF4_2
  | .CF4_3_VANILLA | .CF4_3 =>
    .ok .CF4_3
  | .CF5_3_VANILLA | .CF5_3 =>
    .ok .CF5_3
  | .CF6_4_VANILLA | .CF6_4 =>
    .ok .CF6_4
  | .ES4_VANILLA | .ES4 =>
    .ok .ES4
  | .TES4_VANILLA | .TES4 =>
    .ok .TES4
  | .other _ => .error EC_INVALID_ARGUMENT

/-- `fnft__kdv_discretization_vanilla_flag`, fnft__kdv_discretization.c:546-624. The flag is left alone when
the discretization is unknown. -/
def kdv_vanilla_flag : KdvDisc → Except ℤ ℕ
  | .D2SPLIT1A_VANILLA | .D2SPLIT1B_VANILLA | .D2SPLIT2B_VANILLA | .D2SPLIT2S_VANILLA | .D2SPLIT3A_VANILLA
  | .D2SPLIT3B_VANILLA | .D2SPLIT3S_VANILLA | .D2SPLIT4A_VANILLA | .D2SPLIT4B_VANILLA | .D2SPLIT5A_VANILLA
  | .D2SPLIT5B_VANILLA | .D2SPLIT6A_VANILLA | .D2SPLIT6B_VANILLA | .D2SPLIT7A_VANILLA | .D2SPLIT7B_VANILLA
  | .D2SPLIT8A_VANILLA | .D2SPLIT8B_VANILLA | .D4SPLIT4A_VANILLA | .D4SPLIT4B_VANILLA | .D2SPLIT2A_VANILLA
  | .D2SPLIT2_MODAL_VANILLA | .BO_VANILLA | .CF4_2_VANILLA | .CF4_3_VANILLA | .CF5_3_VANILLA
  | .CF6_4_VANILLA | .ES4_VANILLA | .TES4_VANILLA =>
    .ok 1
  | .D2SPLIT1A | .D2SPLIT1B | .D2SPLIT2B | .D2SPLIT2S | .D2SPLIT3A | .D2SPLIT3B | .D2SPLIT3S | .D2SPLIT4A
  | .D2SPLIT4B | .D2SPLIT5A | .D2SPLIT5B | .D2SPLIT6A | .D2SPLIT6B | .D2SPLIT7A | .D2SPLIT7B | .D2SPLIT8A
  | .D2SPLIT8B | .D4SPLIT4A | .D4SPLIT4B | .D2SPLIT2A | .D2SPLIT2_MODAL | .BO | .CF4_2 | .CF4_3 | .CF5_3
  | .CF6_4 | .ES4 | .TES4 =>
    .ok 0
  | .other _ => .error (E_SUBROUTINE EC_INVALID_ARGUMENT)

/-- `fnft__kdv_slow_discretization`, fnft__kdv_discretization.c:629-715: the code and the new value of
`*kdv_discretization_ptr`. -/
def kdv_slow_discretization (d : KdvDisc) : ℤ × KdvDisc :=
  match d with
  | .D2SPLIT1A_VANILLA | .D2SPLIT1B_VANILLA | .D2SPLIT2B_VANILLA | .D2SPLIT2S_VANILLA | .D2SPLIT3A_VANILLA
  | .D2SPLIT3B_VANILLA | .D2SPLIT3S_VANILLA | .D2SPLIT4A_VANILLA | .D2SPLIT4B_VANILLA | .D2SPLIT5A_VANILLA
  | .D2SPLIT5B_VANILLA | .D2SPLIT6A_VANILLA | .D2SPLIT6B_VANILLA | .D2SPLIT7A_VANILLA | .D2SPLIT7B_VANILLA
  | .D2SPLIT8A_VANILLA | .D2SPLIT8B_VANILLA | .D2SPLIT2A_VANILLA | .D2SPLIT2_MODAL_VANILLA =>
    (SUCCESS, .BO_VANILLA)
  | .D2SPLIT1A | .D2SPLIT1B | .D2SPLIT2B | .D2SPLIT2S | .D2SPLIT3A | .D2SPLIT3B | .D2SPLIT3S | .D2SPLIT4A
  | .D2SPLIT4B | .D2SPLIT5A | .D2SPLIT5B | .D2SPLIT6A | .D2SPLIT6B | .D2SPLIT7A | .D2SPLIT7B | .D2SPLIT8A
  | .D2SPLIT8B | .D2SPLIT2A | .D2SPLIT2_MODAL =>
    (SUCCESS, .BO)
  | .D4SPLIT4A_VANILLA | .D4SPLIT4B_VANILLA =>
    (SUCCESS, .CF4_2_VANILLA)
  | .D4SPLIT4A | .D4SPLIT4B =>
    (SUCCESS, .CF4_2)
  | .BO_VANILLA | .CF4_2_VANILLA | .CF4_3_VANILLA | .CF5_3_VANILLA | .CF6_4_VANILLA | .ES4_VANILLA
  | .TES4_VANILLA | .BO | .CF4_2 | .CF4_3 | .CF5_3 | .CF6_4 | .ES4 | .TES4 =>
    (SUCCESS, d)
  | .other _ => (E_SUBROUTINE EC_INVALID_ARGUMENT, d)

/-- `fnft__kdv_discretization_degree`, fnft__kdv_discretization.c:30-41. -/
def kdv_degree (d : KdvDisc) : ℕ :=
  match kdv_to_akns d with
  | .ok a => akns_degree a
  | .error _ => 0

/-- `fnft__kdv_discretization_boundary_coeff`, fnft__kdv_discretization.c:47-57; `none` is NaN. -/
def kdv_boundary_coeff (d : KdvDisc) : Option ℚ :=
  match kdv_to_akns d with
  | .ok a => akns_boundary_coeff a
  | .error _ => none

/-- `fnft__kdv_discretization_upsampling_factor`, fnft__kdv_discretization.c:62-72. -/
def kdv_upsampling_factor (d : KdvDisc) : ℕ :=
  match kdv_to_akns d with
  | .ok a => akns_upsampling_factor a
  | .error _ => 0

/-- `fnft__kdv_discretization_method_order`, fnft__kdv_discretization.c:77-87. -/
def kdv_method_order (d : KdvDisc) : ℕ :=
  match kdv_to_akns d with
  | .ok a => akns_method_order a
  | .error _ => 0

/-- `fnft__kdv_discretization_method_weights`, fnft__kdv_discretization.c:92-107. -/
noncomputable def kdv_method_weights (d : KdvDisc) : Except ℤ (List ℂ × List ℂ) :=
  match kdv_to_akns d with
  | .error ec => .error (E_SUBROUTINE ec)
  | .ok a =>
    match akns_method_weights a with
    | .error ec => .error (E_SUBROUTINE ec)
    | .ok w => .ok w

/-- `fnft__kdv_discretization_lambda_to_z`, fnft__kdv_discretization.c:237-247. -/
noncomputable def kdv_lambda_to_z (n : ℕ) (eps_t : ℝ) (vals : Buf ℂ) (d : KdvDisc) : Option (ℤ × Buf ℂ) :=
  match kdv_to_akns d with
  | .error ec => some (E_SUBROUTINE ec, vals)
  | .ok a => akns_lambda_to_z n eps_t vals a

/-- `fnft__kdv_discretization_z_to_lambda`, fnft__kdv_discretization.c:253-263. -/
noncomputable def kdv_z_to_lambda (n : ℕ) (eps_t : ℝ) (vals : Buf ℂ) (d : KdvDisc) : Option (ℤ × Buf ℂ) :=
  match kdv_to_akns d with
  | .error ec => some (E_SUBROUTINE ec, vals)
  | .ok a => akns_z_to_lambda n eps_t vals a

/-- `fnft__kdv_discretization_phase_factor_rho`, fnft__kdv_discretization.c:270-279; result as for
`nse_phase_factor_rho`. The comparison `boundary_coeff == NAN` is never true. -/
noncomputable def kdv_phase_factor_rho (eps_t T1 : ℝ) (d : KdvDisc) : ℤ × Option (Option ℝ) :=
  let bc : Option ℝ := (kdv_boundary_coeff d).map (fun x => (x : ℝ))
  (SUCCESS, some (bc.map fun b => -2 * (T1 + eps_t * b)))

/-- `fnft__kdv_discretization_phase_factor_a`, fnft__kdv_discretization.c:286-364. -/
noncomputable def kdv_phase_factor_a (eps_t : ℝ) (D : ℕ) (T0 T1 : ℝ) (d : KdvDisc) : ℤ × Option (Option ℝ) :=
  let bc : Option ℝ := (kdv_boundary_coeff d).map (fun x => (x : ℝ))
  match d with
  | .D2SPLIT1A_VANILLA | .D2SPLIT1B_VANILLA | .D2SPLIT2B_VANILLA | .D2SPLIT2S_VANILLA | .D2SPLIT3A_VANILLA
  | .D2SPLIT3B_VANILLA | .D2SPLIT3S_VANILLA | .D2SPLIT4A_VANILLA | .D2SPLIT4B_VANILLA | .D2SPLIT5A_VANILLA
  | .D2SPLIT5B_VANILLA | .D2SPLIT6A_VANILLA | .D2SPLIT6B_VANILLA | .D2SPLIT7A_VANILLA | .D2SPLIT7B_VANILLA
  | .D2SPLIT8A_VANILLA | .D2SPLIT8B_VANILLA | .D4SPLIT4A_VANILLA | .D4SPLIT4B_VANILLA | .D2SPLIT2A_VANILLA
  | .D2SPLIT2_MODAL_VANILLA | .D2SPLIT1A | .D2SPLIT1B | .D2SPLIT2B | .D2SPLIT2S | .D2SPLIT3A | .D2SPLIT3B
  | .D2SPLIT3S | .D2SPLIT4A | .D2SPLIT4B | .D2SPLIT5A | .D2SPLIT5B | .D2SPLIT6A | .D2SPLIT6B | .D2SPLIT7A
  | .D2SPLIT7B | .D2SPLIT8A | .D2SPLIT8B | .D4SPLIT4A | .D4SPLIT4B | .D2SPLIT2A | .D2SPLIT2_MODAL =>
    (SUCCESS, some (bc.map fun b => -eps_t * D + (T1 + eps_t * b) - (T0 - eps_t * b)))
  | .BO_VANILLA | .CF4_2_VANILLA | .CF4_3_VANILLA | .CF5_3_VANILLA | .CF6_4_VANILLA | .ES4_VANILLA
  | .TES4_VANILLA | .BO | .CF4_2 | .CF4_3 | .CF5_3 | .CF6_4 | .ES4 | .TES4 =>
    (SUCCESS, some (bc.map fun b => (T1 + eps_t * b) - (T0 - eps_t * b)))
  | .other _ => (EC_INVALID_ARGUMENT, none)

/-- `fnft__kdv_discretization_phase_factor_b`, fnft__kdv_discretization.c:371-450. -/
noncomputable def kdv_phase_factor_b (eps_t : ℝ) (D : ℕ) (T0 T1 : ℝ) (d : KdvDisc) : ℤ × Option (Option ℝ) :=
  let bc : Option ℝ := (kdv_boundary_coeff d).map (fun x => (x : ℝ))
  match d with
  | .D2SPLIT2_MODAL_VANILLA | .D2SPLIT1A_VANILLA | .D2SPLIT1B_VANILLA | .D2SPLIT2A_VANILLA
  | .D2SPLIT2B_VANILLA | .D2SPLIT2S_VANILLA | .D2SPLIT3A_VANILLA | .D2SPLIT3B_VANILLA | .D2SPLIT3S_VANILLA
  | .D2SPLIT4A_VANILLA | .D2SPLIT4B_VANILLA | .D2SPLIT5A_VANILLA | .D2SPLIT5B_VANILLA | .D2SPLIT6A_VANILLA
  | .D2SPLIT6B_VANILLA | .D2SPLIT7A_VANILLA | .D2SPLIT7B_VANILLA | .D2SPLIT8A_VANILLA | .D2SPLIT8B_VANILLA
  | .D4SPLIT4A_VANILLA | .D4SPLIT4B_VANILLA | .D2SPLIT2_MODAL | .D2SPLIT1A | .D2SPLIT1B | .D2SPLIT2A
  | .D2SPLIT2B | .D2SPLIT2S | .D2SPLIT3A | .D2SPLIT3B | .D2SPLIT3S | .D2SPLIT4A | .D2SPLIT4B | .D2SPLIT5A
  | .D2SPLIT5B | .D2SPLIT6A | .D2SPLIT6B | .D2SPLIT7A | .D2SPLIT7B | .D2SPLIT8A | .D2SPLIT8B | .D4SPLIT4A
  | .D4SPLIT4B =>
    (SUCCESS, some (bc.map fun b => -eps_t * D - (T1 + eps_t * b) - (T0 - eps_t * b)))
  | .BO_VANILLA | .CF4_2_VANILLA | .CF4_3_VANILLA | .CF5_3_VANILLA | .CF6_4_VANILLA | .ES4_VANILLA
  | .TES4_VANILLA | .BO | .CF4_2 | .CF4_3 | .CF5_3 | .CF6_4 | .ES4 | .TES4 =>
    (SUCCESS, some (bc.map fun b => -(T1 + eps_t * b) - (T0 - eps_t * b)))
  | .other _ => (EC_INVALID_ARGUMENT, none)

/-- `fnft__kdv_discretization_r_from_q` and `fnft__kdv_discretization_derivatives_r_from_q`,
fnft__kdv_discretization.c:457-458, selected as in the array `r_from_q[3]`, 470-474. -/
noncomputable def kdv_r_from_q (i : ℕ) (_q : ℂ) : ℂ := if i = 0 then -1 else 0

/-- `fnft__kdv_discretization_preprocess_signal`, fnft__kdv_discretization.c:459-482. -/
noncomputable def kdv_preprocess_signal (D : ℕ) (q : Option (Buf ℂ)) (eps_t : ℝ) (Dsub0 : ℕ) (d : KdvDisc) :
    Option PreRes :=
  match kdv_to_akns d with
  | .error ec => some ⟨E_SUBROUTINE ec, Dsub0, none, none⟩
  | .ok a => do
    let r ← akns_preprocess_signal D q kdv_r_from_q eps_t Dsub0 a
    return if r.ret = SUCCESS then r else ⟨E_SUBROUTINE r.ret, r.Dsub, r.out, r.first_last⟩

/-- `fnft__kdv_discretization_change_of_basis_matrix_to_S`, fnft__kdv_discretization.c:487-512. -/
noncomputable def kdv_basis_to_S (xi : ℂ) (deriv : Bool) (eps_t : ℝ) (d : KdvDisc) : Except ℤ (List ℂ) :=
  match kdv_vanilla_flag d with
  | .error ec => .error (E_SUBROUTINE ec)
  | .ok vanilla =>
    match kdv_to_akns d with
    | .error ec => .error (E_SUBROUTINE ec)
    | .ok a =>
      match akns_basis_to_S xi deriv eps_t a (vanilla ≠ 0) .KdV with
      | .error ec => .error (E_SUBROUTINE ec)
      | .ok T => .ok T

/-- `fnft__kdv_discretization_change_of_basis_matrix_from_S`, fnft__kdv_discretization.c:516-541. -/
noncomputable def kdv_basis_from_S (xi : ℂ) (deriv : Bool) (eps_t : ℝ) (d : KdvDisc) : Except ℤ (List ℂ) :=
  match kdv_vanilla_flag d with
  | .error ec => .error (E_SUBROUTINE ec)
  | .ok vanilla =>
    match kdv_to_akns d with
    | .error ec => .error (E_SUBROUTINE ec)
    | .ok a =>
      match akns_basis_from_S xi deriv eps_t a (vanilla ≠ 0) .KdV with
      | .error ec => .error (E_SUBROUTINE ec)
      | .ok T => .ok T

/-- `kdv_fscatter_numel`, /repo/src/private/fnft__kdv_fscatter.c:34-42. -/
def kdv_fscatter_numel (D : ℕ) (d : KdvDisc) : Option ℕ :=
  let deg := kdv_degree d
  if deg = 0 then some 0 else poly_fmult_numel 4 deg D

/-- `kdv_fscatter`, fnft__kdv_fscatter.c:44-80. The flag is read without a check of the code of the routine that
sets it; this cannot fail here. -/
noncomputable def kdv_fscatter (D : ℕ) (q r : Option (Buf ℂ)) (eps_t : ℝ) (result : Option (Buf ℂ))
    (deg_ptr : Option ℕ) (W_ptr : Option ℤ) (d : KdvDisc) : Option FscatterRes :=
  let bad (rc : ℤ) : FscatterRes := ⟨some rc, deg_ptr.getD 0, W_ptr.getD 0, result.getD (Buf.malloc 0)⟩
  if D = 0 ∨ q = none ∨ eps_t ≤ 0 ∨ result = none ∨ deg_ptr = none then some (bad EC_INVALID_ARGUMENT)
  else match kdv_to_akns d with
    | .error ec => some (bad (E_SUBROUTINE ec))
    | .ok a =>
      match kdv_vanilla_flag d with
      | .error _ => none
      | .ok vanilla =>
        if vanilla ≠ 0 then do
          let R ← akns_fscatter D q r eps_t result deg_ptr W_ptr a
          return ⟨R.ret.map chk, R.deg, R.W, R.result⟩
        else do
          let R ← akns_fscatter D r q eps_t result deg_ptr W_ptr a
          return ⟨R.ret.map chk, R.deg, R.W, R.result⟩

/-- `kdv_scatter_matrix`, /repo/src/private/fnft__kdv_scatter.c:36-93. -/
noncomputable def kdv_scatter_matrix (D : ℕ) (q r : Option (Buf ℂ)) (eps_t : ℝ) (K : ℕ)
    (lambda result : Option (Buf ℂ)) (W : Option (Buf ℤ)) (d : KdvDisc) (derivative_flag : ℕ) : Option ScatRes :=
  let bad (rc : ℤ) : ScatRes := ⟨rc, result.getD (Buf.malloc 0), W⟩
  if D = 0 ∨ q = none ∨ r = none ∨ ¬ eps_t > 0 ∨ K = 0 ∨ lambda = none ∨ result = none then
    some (bad EC_INVALID_ARGUMENT)
  else match kdv_to_akns d with
    | .error ec => some (bad (E_SUBROUTINE ec))
    | .ok a =>
      match kdv_vanilla_flag d with
      | .error ec => some (bad (E_SUBROUTINE ec))
      | .ok vanilla =>
        if vanilla ≠ 0 then do
          let R ← akns_scatter_matrix D q r eps_t K lambda result W a .KdV vanilla derivative_flag
          return ⟨chk R.ret, R.result, R.W⟩
        else do
          let R ← akns_scatter_matrix D r q eps_t K lambda result W a .KdV vanilla derivative_flag
          return ⟨chk R.ret, R.result, R.W⟩

/-- `kdv_scatter_bound_states`, fnft__kdv_scatter.c:98-132. -/
noncomputable def kdv_scatter_bound_states (D : ℕ) (q r : Option (Buf ℂ)) (T0 T1 : ℝ) (K : ℕ)
    (bound_states a_vals aprime_vals b : Option (Buf ℂ)) (Ws : Option (Buf ℤ)) (d : KdvDisc) (skip_b_flag : ℕ)
    (gPHI gPSI : ℕ → ℤ) : Option BsRes :=
  let bad (ec : ℤ) : BsRes := ⟨E_SUBROUTINE ec, a_vals.getD (Buf.malloc 0), aprime_vals.getD (Buf.malloc 0), b, Ws⟩
  match kdv_vanilla_flag d with
  | .error ec => some (bad ec)
  | .ok vanilla =>
    match kdv_to_akns d with
    | .error ec => some (bad ec)
    | .ok a =>
      if vanilla ≠ 0 then do
        let R ← akns_scatter_bound_states D q r T0 T1 K bound_states a_vals aprime_vals b Ws a .KdV vanilla skip_b_flag gPHI gPSI
        return { R with ret := chk R.ret }
      else do
        let R ← akns_scatter_bound_states D r q T0 T1 K bound_states a_vals aprime_vals b Ws a .KdV vanilla skip_b_flag gPHI gPSI
        return { R with ret := chk R.ret }

end FNFT

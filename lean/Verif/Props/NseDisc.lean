import Verif.Model.NseDisc
import Verif.Props.AknsDisc
import Verif.Spec.AknsSlow
/-!
# Property C32 (discretization tables)
-/
namespace FNFT

/-! ## Specification -/

/-- Names of the AKNS discretizations (suffix of the C enumerator). -/
def Spec.aknsName : AknsDisc → String
  | .D2SPLIT2_MODAL => "2SPLIT2_MODAL" | .D2SPLIT1A => "2SPLIT1A" | .D2SPLIT1B => "2SPLIT1B"
  | .D2SPLIT2A => "2SPLIT2A" | .D2SPLIT2B => "2SPLIT2B" | .D2SPLIT2S => "2SPLIT2S"
  | .D2SPLIT3A => "2SPLIT3A" | .D2SPLIT3B => "2SPLIT3B" | .D2SPLIT3S => "2SPLIT3S"
  | .D2SPLIT4A => "2SPLIT4A" | .D2SPLIT4B => "2SPLIT4B" | .D2SPLIT5A => "2SPLIT5A"
  | .D2SPLIT5B => "2SPLIT5B" | .D2SPLIT6A => "2SPLIT6A" | .D2SPLIT6B => "2SPLIT6B"
  | .D2SPLIT7A => "2SPLIT7A" | .D2SPLIT7B => "2SPLIT7B" | .D2SPLIT8A => "2SPLIT8A"
  | .D2SPLIT8B => "2SPLIT8B" | .BO => "BO" | .D4SPLIT4A => "4SPLIT4A" | .D4SPLIT4B => "4SPLIT4B"
  | .CF4_2 => "CF4_2" | .CF4_3 => "CF4_3" | .CF5_3 => "CF5_3" | .CF6_4 => "CF6_4" | .ES4 => "ES4"
  | .TES4 => "TES4" | .FTES4_4A => "FTES4_4A" | .FTES4_4B => "FTES4_4B" | .D4SPLIT6B => "4SPLIT6B"
  | .other _ => "?"

/-- Names of the NSE discretizations. -/
def Spec.nseName : NseDisc → String
  | .D2SPLIT2_MODAL => "2SPLIT2_MODAL" | .D2SPLIT1A => "2SPLIT1A" | .D2SPLIT1B => "2SPLIT1B"
  | .D2SPLIT2A => "2SPLIT2A" | .D2SPLIT2B => "2SPLIT2B" | .D2SPLIT2S => "2SPLIT2S"
  | .D2SPLIT3A => "2SPLIT3A" | .D2SPLIT3B => "2SPLIT3B" | .D2SPLIT3S => "2SPLIT3S"
  | .D2SPLIT4A => "2SPLIT4A" | .D2SPLIT4B => "2SPLIT4B" | .D2SPLIT5A => "2SPLIT5A"
  | .D2SPLIT5B => "2SPLIT5B" | .D2SPLIT6A => "2SPLIT6A" | .D2SPLIT6B => "2SPLIT6B"
  | .D2SPLIT7A => "2SPLIT7A" | .D2SPLIT7B => "2SPLIT7B" | .D2SPLIT8A => "2SPLIT8A"
  | .D2SPLIT8B => "2SPLIT8B" | .BO => "BO" | .D4SPLIT4A => "4SPLIT4A" | .D4SPLIT4B => "4SPLIT4B"
  | .CF4_2 => "CF4_2" | .CF4_3 => "CF4_3" | .CF5_3 => "CF5_3" | .CF6_4 => "CF6_4" | .ES4 => "ES4"
  | .TES4 => "TES4" | .other _ => "?"

/-- Degree and order of the base method as documented in fnft_nse_discretization_t.h:80-100 and in the
names of the methods; degree 0 for the slow methods. -/
def Spec.nseDoc : NseDisc → Option (ℕ × ℕ)
  | .D2SPLIT1A => some (1, 2) | .D2SPLIT1B => some (1, 2) | .D2SPLIT2A => some (1, 2)
  | .D2SPLIT2B => some (1, 2) | .D2SPLIT2S => some (1, 2) | .D2SPLIT2_MODAL => some (1, 2)
  | .D2SPLIT3A => some (3, 2) | .D2SPLIT3B => some (3, 2) | .D2SPLIT3S => some (2, 2)
  | .D2SPLIT4A => some (4, 2) | .D2SPLIT4B => some (2, 2) | .D2SPLIT5A => some (15, 2)
  | .D2SPLIT5B => some (15, 2) | .D2SPLIT6A => some (12, 2) | .D2SPLIT6B => some (6, 2)
  | .D2SPLIT7A => some (105, 2) | .D2SPLIT7B => some (105, 2) | .D2SPLIT8A => some (24, 2)
  | .D2SPLIT8B => some (12, 2) | .D4SPLIT4A => some (4, 4) | .D4SPLIT4B => some (2, 4)
  | .BO => some (0, 2) | .CF4_2 => some (0, 4) | .CF4_3 => some (0, 4) | .CF5_3 => some (0, 5)
  | .CF6_4 => some (0, 6) | .ES4 => some (0, 4) | .TES4 => some (0, 4)
  | .other _ => none

/-- The degree in the tables is the least common denominator of the weights that multiply `A` in the
splitting (`degree·w` is an integer for every factor `exp(w A)`), halved weights `1/2` of the first and
last factor of 2SPLIT2A excepted. -/
def Spec.isDegree (d : AknsDisc) (deg : ℕ) : Prop :=
  0 < deg ∧ (d ≠ .D2SPLIT2A → ∀ t ∈ Spec.splitting d, ∀ f ∈ t.2, f.1 = true → (f.2 * deg).den = 1)

/-! ## Theorems -/

/-- The tables of the AKNS layer are consistent: upsampling factor, order and boundary coefficient are
defined for the same discretizations; a discretization has a positive degree iff a fast scattering table
exists for it, in which case the other tables know it, too. -/
theorem C32_akns_tables (d : AknsDisc) :
    (akns_upsampling_factor d ≠ 0 ↔ akns_method_order d ≠ 0) ∧
    (akns_upsampling_factor d ≠ 0 ↔ akns_boundary_coeff d = some (1 / 2)) ∧
    (akns_upsampling_factor d = 0 ↔ akns_boundary_coeff d = none) ∧
    (akns_degree d ≠ 0 ↔ aknsTab d ≠ none) ∧
    (akns_degree d ≠ 0 ↔ Spec.splitting d ≠ [] ∨ d = .D2SPLIT2_MODAL) ∧
    (akns_degree d ≠ 0 → akns_upsampling_factor d ≠ 0) ∧
    (akns_upsampling_factor d ≠ 0 → (akns_degree d = 0 ↔ Spec.slow d)) := by
  refine ⟨?_, ?_, ?_, ?_, ?_, ?_, ?_⟩ <;> cases d <;>
    simp [akns_upsampling_factor, akns_method_order, akns_boundary_coeff, akns_degree, aknsTab,
      Spec.splitting, Spec.slow]

/-- The degree suffices for the splitting: every factor `exp(w A)` is a power of `z^(1/degree)`. -/
theorem C32_degree_splitting (d : AknsDisc) (hd : akns_degree d ≠ 0) : Spec.isDegree d (akns_degree d) := by
  refine ⟨Nat.pos_of_ne_zero hd, ?_⟩
  cases d <;> first | exact absurd rfl hd | decide +kernel

/-- Enumerators without implementation and values outside the enumeration are unknown to all tables. -/
theorem C32_akns_unknown (d : AknsDisc) :
    akns_upsampling_factor d = 0 ↔
      d = .FTES4_4A ∨ d = .FTES4_4B ∨ d = .D4SPLIT6B ∨ ∃ n, d = .other n := by
  cases d <;> simp [akns_upsampling_factor]

/-- Fast scattering rejects a discretization of degree zero without touching its outputs. -/
theorem C32_fscatter_rejects (d : AknsDisc) (hd : akns_degree d = 0) (D : ℕ) (q r : Option (Buf ℂ)) (eps : ℝ)
    (result : Buf ℂ) (deg0 : ℕ) (Wp : Option ℤ) :
    akns_fscatter D q r eps (some result) (some deg0) Wp d =
      some ⟨some EC_INVALID_ARGUMENT, deg0, Wp.getD 0, result⟩ := by
  rcases q with _ | q <;> rcases r with _ | r <;> unfold akns_fscatter <;> dsimp only [Option.getD_some]
  · split_ifs <;> rfl
  · split_ifs <;> rfl
  · split_ifs <;> rfl
  · split_ifs
    · rfl
    · rfl
    · simp [akns_fscatter_main, akns_fscatter_numel, hd]

/-- Slow scattering rejects every discretization without a slow method; nothing is written. -/
theorem C32_scatter_rejects (d : AknsDisc) (hd : ¬ Spec.slow d) (D : ℕ) (q r : Option (Buf ℂ)) (eps : ℝ) (K : ℕ)
    (lambda : Option (Buf ℂ)) (result : Buf ℂ) (W : Option (Buf ℤ)) (pde : AknsPde) (vf df : ℕ) :
    ∃ ec, ec ≠ SUCCESS ∧
      akns_scatter_matrix D q r eps K lambda (some result) W d pde vf df = some ⟨ec, result, W⟩ := by
  have h2 : EC_INVALID_ARGUMENT ≠ SUCCESS := by decide
  have hl : ∀ q r b w, scatLoop D q r eps d b w = some (.error (E_SUBROUTINE EC_INVALID_ARGUMENT)) := by
    intro q r b w
    cases d <;> first | rfl | exact absurd (by simp [Spec.slow]) hd
  rcases q with _ | q <;> rcases r with _ | r <;> rcases lambda with _ | lambda <;>
    unfold akns_scatter_matrix <;> dsimp only [Option.getD_some] <;> split_ifs <;>
    first
    | exact ⟨_, h2, rfl⟩
    | (refine ⟨E_SUBROUTINE EC_INVALID_ARGUMENT, by decide, ?_⟩
       rw [hl]; rfl)

/-- The NSE discretizations are the known AKNS discretizations of the same name. -/
theorem C32_nse_names (d : NseDisc) :
    (∀ a, nse_to_akns d = .ok a → Spec.aknsName a = Spec.nseName d ∧ akns_upsampling_factor a ≠ 0) ∧
    ((∃ a, nse_to_akns d = .ok a) ↔ ∀ n, d ≠ .other n) := by
  constructor
  · intro a h
    cases d <;> simp only [nse_to_akns, Except.ok.injEq, reduceCtorEq] at h <;> subst h <;>
      simp [Spec.aknsName, Spec.nseName, akns_upsampling_factor]
  · cases d <;> simp [nse_to_akns]

/-- Inverse of the name map (proof device). -/
def aknsToNse : AknsDisc → NseDisc
  | .D2SPLIT2_MODAL => .D2SPLIT2_MODAL
  | .BO => .BO
  | .D2SPLIT1A => .D2SPLIT1A
  | .D2SPLIT1B => .D2SPLIT1B
  | .D2SPLIT2A => .D2SPLIT2A
  | .D2SPLIT2B => .D2SPLIT2B
  | .D2SPLIT2S => .D2SPLIT2S
  | .D2SPLIT3A => .D2SPLIT3A
  | .D2SPLIT3B => .D2SPLIT3B
  | .D2SPLIT3S => .D2SPLIT3S
  | .D2SPLIT4A => .D2SPLIT4A
  | .D2SPLIT4B => .D2SPLIT4B
  | .D2SPLIT5A => .D2SPLIT5A
  | .D2SPLIT5B => .D2SPLIT5B
  | .D2SPLIT6A => .D2SPLIT6A
  | .D2SPLIT6B => .D2SPLIT6B
  | .D2SPLIT7A => .D2SPLIT7A
  | .D2SPLIT7B => .D2SPLIT7B
  | .D2SPLIT8A => .D2SPLIT8A
  | .D2SPLIT8B => .D2SPLIT8B
  | .D4SPLIT4A => .D4SPLIT4A
  | .D4SPLIT4B => .D4SPLIT4B
  | .CF4_2 => .CF4_2
  | .CF4_3 => .CF4_3
  | .CF5_3 => .CF5_3
  | .CF6_4 => .CF6_4
  | .ES4 => .ES4
  | .TES4 => .TES4
  | _ => .other 0

/-- Every known AKNS discretization can be selected by an NSE discretization, by exactly one. -/
theorem C32_nse_complete (a : AknsDisc) (h : akns_upsampling_factor a ≠ 0) : ∃! d, nse_to_akns d = .ok a := by
  refine ⟨aknsToNse a, ?_, ?_⟩
  · cases a <;> first | rfl | exact absurd rfl h
  · intro y hy
    cases y <;> simp only [nse_to_akns, Except.ok.injEq, reduceCtorEq] at hy <;> subst hy <;> rfl

/-- Degrees and orders are those of the documentation; for unknown values the tables return zero, NaN, zero,
zero. -/
theorem C32_nse_documented (d : NseDisc) :
    (∀ deg ord, Spec.nseDoc d = some (deg, ord) →
      nse_degree d = deg ∧ nse_method_order d = ord ∧ nse_boundary_coeff d = some (1 / 2) ∧
        1 ≤ nse_upsampling_factor d) ∧
    (Spec.nseDoc d = none →
      nse_degree d = 0 ∧ nse_method_order d = 0 ∧ nse_boundary_coeff d = none ∧ nse_upsampling_factor d = 0) := by
  cases d <;>
    simp +contextual [Spec.nseDoc, nse_degree, nse_method_order, nse_boundary_coeff, nse_upsampling_factor,
      nse_to_akns, akns_degree, akns_method_order, akns_boundary_coeff, akns_upsampling_factor]

/-- Unknown NSE values are rejected by all routines that return a code, arrays unchanged, except that
`phase_factor_rho` succeeds with NaN. -/
theorem C32_nse_rejects (n : ℤ) (N : ℕ) (eps T0 T1 : ℝ) (D : ℕ) (vals : Buf ℂ) :
    nse_to_akns (.other n) = .error EC_INVALID_ARGUMENT ∧
    nse_method_weights (.other n) = .error (-EC_INVALID_ARGUMENT) ∧
    nse_lambda_to_z N eps vals (.other n) = some (-EC_INVALID_ARGUMENT, vals) ∧
    nse_z_to_lambda N eps vals (.other n) = some (-EC_INVALID_ARGUMENT, vals) ∧
    nse_phase_factor_a eps D T0 T1 (.other n) = (EC_INVALID_ARGUMENT, none) ∧
    nse_phase_factor_b eps D T0 T1 (.other n) = (EC_INVALID_ARGUMENT, none) ∧
    nse_phase_factor_rho eps T1 (.other n) = (SUCCESS, some none) := by
  have h : E_SUBROUTINE EC_INVALID_ARGUMENT = -EC_INVALID_ARGUMENT := by decide
  refine ⟨rfl, ?_, ?_, ?_, rfl, rfl, ?_⟩
  · rw [← h]; rfl
  · rw [← h]; rfl
  · rw [← h]; rfl
  · simp [nse_phase_factor_rho, nse_boundary_coeff, nse_to_akns]

/-- The basis and weight routines reject unknown discretizations. -/
theorem C32_akns_rejects (d : AknsDisc) (h : akns_upsampling_factor d = 0) (xi : ℂ) (deriv : Bool) (eps : ℝ)
    (vanilla : Bool) (pde : AknsPde) (n : ℕ) (vals : Buf ℂ) :
    (∃ ec, ec ≠ SUCCESS ∧ akns_basis_to_S xi deriv eps d vanilla pde = .error ec) ∧
    (∃ ec, ec ≠ SUCCESS ∧ akns_basis_from_S xi deriv eps d vanilla pde = .error ec) ∧
    akns_method_weights d = .error EC_INVALID_ARGUMENT ∧
    akns_lambda_to_z n eps vals d = some (EC_INVALID_ARGUMENT, vals) ∧
    akns_z_to_lambda n eps vals d = some (EC_INVALID_ARGUMENT, vals) := by
  have hb : akns_basis_known d = false := by
    rw [Bool.eq_false_iff]
    exact fun hc => (known_basis d).mp hc h
  have e1 : E_SUBROUTINE EC_INVALID_ARGUMENT ≠ SUCCESS := by decide
  have e2 : E_SUBROUTINE EC_DIV_BY_ZERO ≠ SUCCESS := by decide
  refine ⟨?_, ?_, ?_, ?_, ?_⟩
  · rcases pde with _ | _ | m
    · by_cases hx : xi = 0
      · exact ⟨_, e2, by simp [akns_basis_to_S, hx]⟩
      · exact ⟨_, e1, by simp [akns_basis_to_S, hx, hb]⟩
    · exact ⟨_, e1, by simp [akns_basis_to_S, hb]⟩
    · exact ⟨_, e1, rfl⟩
  · rcases pde with _ | _ | m
    · by_cases hx : xi = 0
      · exact ⟨_, e2, by simp [akns_basis_from_S, hx]⟩
      · exact ⟨_, e1, by simp [akns_basis_from_S, hx, hb]⟩
    · exact ⟨_, e1, by simp [akns_basis_from_S, hb]⟩
    · exact ⟨_, e1, rfl⟩
  · cases d <;> first | rfl | exact absurd h (by simp [akns_upsampling_factor])
  · simp [akns_lambda_to_z, h]
  · simp [akns_z_to_lambda, h]

example : akns_upsampling_factor .D4SPLIT6B = 0 ∧ akns_degree .CF4_2 = 0 ∧ ¬ Spec.slow .D2SPLIT2A ∧
    akns_degree .D2SPLIT7A = 105 := by
  refine ⟨rfl, rfl, ?_, rfl⟩
  simp [Spec.slow]

end FNFT

import Verif.Model.KdvDisc
import Verif.Props.NseDisc
import Verif.Props.AknsDisc
/-!
# Property C47 (discretization tables of the KdV equation)
-/
namespace FNFT
open Complex

/-! ## Specification -/

/-- Names of the KdV discretizations (suffix of the C enumerator). -/
def Spec.kdvName : KdvDisc → String
  | .D2SPLIT2_MODAL_VANILLA => "2SPLIT2_MODAL_VANILLA" | .BO_VANILLA => "BO_VANILLA"
  | .D2SPLIT1A_VANILLA => "2SPLIT1A_VANILLA" | .D2SPLIT1B_VANILLA => "2SPLIT1B_VANILLA"
  | .D2SPLIT2A_VANILLA => "2SPLIT2A_VANILLA" | .D2SPLIT2B_VANILLA => "2SPLIT2B_VANILLA"
  | .D2SPLIT2S_VANILLA => "2SPLIT2S_VANILLA" | .D2SPLIT3A_VANILLA => "2SPLIT3A_VANILLA"
  | .D2SPLIT3B_VANILLA => "2SPLIT3B_VANILLA" | .D2SPLIT3S_VANILLA => "2SPLIT3S_VANILLA"
  | .D2SPLIT4A_VANILLA => "2SPLIT4A_VANILLA" | .D2SPLIT4B_VANILLA => "2SPLIT4B_VANILLA"
  | .D2SPLIT5A_VANILLA => "2SPLIT5A_VANILLA" | .D2SPLIT5B_VANILLA => "2SPLIT5B_VANILLA"
  | .D2SPLIT6A_VANILLA => "2SPLIT6A_VANILLA" | .D2SPLIT6B_VANILLA => "2SPLIT6B_VANILLA"
  | .D2SPLIT7A_VANILLA => "2SPLIT7A_VANILLA" | .D2SPLIT7B_VANILLA => "2SPLIT7B_VANILLA"
  | .D2SPLIT8A_VANILLA => "2SPLIT8A_VANILLA" | .D2SPLIT8B_VANILLA => "2SPLIT8B_VANILLA"
  | .D4SPLIT4A_VANILLA => "4SPLIT4A_VANILLA" | .D4SPLIT4B_VANILLA => "4SPLIT4B_VANILLA"
  | .CF4_2_VANILLA => "CF4_2_VANILLA" | .CF4_3_VANILLA => "CF4_3_VANILLA" | .CF5_3_VANILLA => "CF5_3_VANILLA"
  | .CF6_4_VANILLA => "CF6_4_VANILLA" | .ES4_VANILLA => "ES4_VANILLA" | .TES4_VANILLA => "TES4_VANILLA"
  | .D2SPLIT2_MODAL => "2SPLIT2_MODAL" | .BO => "BO" | .D2SPLIT1A => "2SPLIT1A" | .D2SPLIT1B => "2SPLIT1B"
  | .D2SPLIT2A => "2SPLIT2A" | .D2SPLIT2B => "2SPLIT2B" | .D2SPLIT2S => "2SPLIT2S" | .D2SPLIT3A => "2SPLIT3A"
  | .D2SPLIT3B => "2SPLIT3B" | .D2SPLIT3S => "2SPLIT3S" | .D2SPLIT4A => "2SPLIT4A" | .D2SPLIT4B => "2SPLIT4B"
  | .D2SPLIT5A => "2SPLIT5A" | .D2SPLIT5B => "2SPLIT5B" | .D2SPLIT6A => "2SPLIT6A" | .D2SPLIT6B => "2SPLIT6B"
  | .D2SPLIT7A => "2SPLIT7A" | .D2SPLIT7B => "2SPLIT7B" | .D2SPLIT8A => "2SPLIT8A" | .D2SPLIT8B => "2SPLIT8B"
  | .D4SPLIT4A => "4SPLIT4A" | .D4SPLIT4B => "4SPLIT4B" | .CF4_2 => "CF4_2" | .CF4_3 => "CF4_3" | .CF5_3 => "CF5_3"
  | .CF6_4 => "CF6_4" | .ES4 => "ES4" | .TES4 => "TES4"
  | .other _ => "?"

/-- Degree and order of the base method as documented in fnft_kdv_discretization_t.h and in the names of the
methods; degree 0 for the slow methods. -/
def Spec.kdvDoc : KdvDisc → Option (ℕ × ℕ)
  | .D2SPLIT2_MODAL | .D2SPLIT2_MODAL_VANILLA => some (1, 2) | .BO | .BO_VANILLA => some (0, 2)
  | .D2SPLIT1A | .D2SPLIT1A_VANILLA => some (1, 2) | .D2SPLIT1B | .D2SPLIT1B_VANILLA => some (1, 2)
  | .D2SPLIT2A | .D2SPLIT2A_VANILLA => some (1, 2) | .D2SPLIT2B | .D2SPLIT2B_VANILLA => some (1, 2)
  | .D2SPLIT2S | .D2SPLIT2S_VANILLA => some (1, 2) | .D2SPLIT3A | .D2SPLIT3A_VANILLA => some (3, 2)
  | .D2SPLIT3B | .D2SPLIT3B_VANILLA => some (3, 2) | .D2SPLIT3S | .D2SPLIT3S_VANILLA => some (2, 2)
  | .D2SPLIT4A | .D2SPLIT4A_VANILLA => some (4, 2) | .D2SPLIT4B | .D2SPLIT4B_VANILLA => some (2, 2)
  | .D2SPLIT5A | .D2SPLIT5A_VANILLA => some (15, 2) | .D2SPLIT5B | .D2SPLIT5B_VANILLA => some (15, 2)
  | .D2SPLIT6A | .D2SPLIT6A_VANILLA => some (12, 2) | .D2SPLIT6B | .D2SPLIT6B_VANILLA => some (6, 2)
  | .D2SPLIT7A | .D2SPLIT7A_VANILLA => some (105, 2) | .D2SPLIT7B | .D2SPLIT7B_VANILLA => some (105, 2)
  | .D2SPLIT8A | .D2SPLIT8A_VANILLA => some (24, 2) | .D2SPLIT8B | .D2SPLIT8B_VANILLA => some (12, 2)
  | .D4SPLIT4A | .D4SPLIT4A_VANILLA => some (4, 4) | .D4SPLIT4B | .D4SPLIT4B_VANILLA => some (2, 4)
  | .CF4_2 | .CF4_2_VANILLA => some (0, 4) | .CF4_3 | .CF4_3_VANILLA => some (0, 4)
  | .CF5_3 | .CF5_3_VANILLA => some (0, 5) | .CF6_4 | .CF6_4_VANILLA => some (0, 6)
  | .ES4 | .ES4_VANILLA => some (0, 4) | .TES4 | .TES4_VANILLA => some (0, 4)
  | .other _ => none

/-- Selects the discretization with a given AKNS method and a given ordering of the components (proof device). -/
def aknsToKdv (vanilla : Bool) : AknsDisc → KdvDisc
  | .D2SPLIT2_MODAL => if vanilla then .D2SPLIT2_MODAL_VANILLA else .D2SPLIT2_MODAL
  | .BO => if vanilla then .BO_VANILLA else .BO
  | .D2SPLIT1A => if vanilla then .D2SPLIT1A_VANILLA else .D2SPLIT1A
  | .D2SPLIT1B => if vanilla then .D2SPLIT1B_VANILLA else .D2SPLIT1B
  | .D2SPLIT2A => if vanilla then .D2SPLIT2A_VANILLA else .D2SPLIT2A
  | .D2SPLIT2B => if vanilla then .D2SPLIT2B_VANILLA else .D2SPLIT2B
  | .D2SPLIT2S => if vanilla then .D2SPLIT2S_VANILLA else .D2SPLIT2S
  | .D2SPLIT3A => if vanilla then .D2SPLIT3A_VANILLA else .D2SPLIT3A
  | .D2SPLIT3B => if vanilla then .D2SPLIT3B_VANILLA else .D2SPLIT3B
  | .D2SPLIT3S => if vanilla then .D2SPLIT3S_VANILLA else .D2SPLIT3S
  | .D2SPLIT4A => if vanilla then .D2SPLIT4A_VANILLA else .D2SPLIT4A
  | .D2SPLIT4B => if vanilla then .D2SPLIT4B_VANILLA else .D2SPLIT4B
  | .D2SPLIT5A => if vanilla then .D2SPLIT5A_VANILLA else .D2SPLIT5A
  | .D2SPLIT5B => if vanilla then .D2SPLIT5B_VANILLA else .D2SPLIT5B
  | .D2SPLIT6A => if vanilla then .D2SPLIT6A_VANILLA else .D2SPLIT6A
  | .D2SPLIT6B => if vanilla then .D2SPLIT6B_VANILLA else .D2SPLIT6B
  | .D2SPLIT7A => if vanilla then .D2SPLIT7A_VANILLA else .D2SPLIT7A
  | .D2SPLIT7B => if vanilla then .D2SPLIT7B_VANILLA else .D2SPLIT7B
  | .D2SPLIT8A => if vanilla then .D2SPLIT8A_VANILLA else .D2SPLIT8A
  | .D2SPLIT8B => if vanilla then .D2SPLIT8B_VANILLA else .D2SPLIT8B
  | .D4SPLIT4A => if vanilla then .D4SPLIT4A_VANILLA else .D4SPLIT4A
  | .D4SPLIT4B => if vanilla then .D4SPLIT4B_VANILLA else .D4SPLIT4B
  | .CF4_2 => if vanilla then .CF4_2_VANILLA else .CF4_2
  | .CF4_3 => if vanilla then .CF4_3_VANILLA else .CF4_3
  | .CF5_3 => if vanilla then .CF5_3_VANILLA else .CF5_3
  | .CF6_4 => if vanilla then .CF6_4_VANILLA else .CF6_4
  | .ES4 => if vanilla then .ES4_VANILLA else .ES4
  | .TES4 => if vanilla then .TES4_VANILLA else .TES4
  | _ => .other 0

/-! ## Theorems -/

/-- The KdV discretizations are the known AKNS discretizations of the same name; the suffix `_VANILLA` tells which of the two
equivalent AKNS systems is used. All values that are not enumerators are rejected by both tables. -/
theorem C47_names (d : KdvDisc) :
    (∀ a v, kdv_to_akns d = .ok a → kdv_vanilla_flag d = .ok v →
      (v = 0 ∨ v = 1) ∧ Spec.kdvName d = Spec.aknsName a ++ (if v = 0 then "" else "_VANILLA") ∧
      akns_upsampling_factor a ≠ 0) ∧
    ((∃ a, kdv_to_akns d = .ok a) ↔ ∀ n, d ≠ .other n) ∧
    ((∃ v, kdv_vanilla_flag d = .ok v) ↔ ∀ n, d ≠ .other n) := by
  refine ⟨?_, ?_, ?_⟩
  · intro a v h h'
    cases d <;> simp only [kdv_to_akns, kdv_vanilla_flag, Except.ok.injEq, reduceCtorEq] at h h' <;> subst h <;> subst h' <;>
      exact ⟨by decide, by decide, by decide⟩
  · cases d <;> simp [kdv_to_akns]
  · cases d <;> simp [kdv_vanilla_flag]

/-- Every known AKNS method can be selected with either ordering, by exactly one KdV discretization. -/
theorem C47_complete (a : AknsDisc) (h : akns_upsampling_factor a ≠ 0) (v : ℕ) (hv : v = 0 ∨ v = 1) :
    ∃! d, kdv_to_akns d = .ok a ∧ kdv_vanilla_flag d = .ok v := by
  refine ⟨aknsToKdv (decide (v = 1)) a, ?_, ?_⟩
  · rcases hv with rfl | rfl <;> cases a <;> first | exact ⟨rfl, rfl⟩ | exact absurd rfl h
  · rintro y ⟨hy, hy'⟩
    cases y <;> simp only [kdv_to_akns, kdv_vanilla_flag, Except.ok.injEq, reduceCtorEq] at hy hy' <;> subst hy <;> subst hy' <;> rfl

/-- Degrees and orders are those of the documentation; for unknown values the tables return zero, NaN, zero, zero. -/
theorem C47_documented (d : KdvDisc) :
    (∀ deg ord, Spec.kdvDoc d = some (deg, ord) →
      kdv_degree d = deg ∧ kdv_method_order d = ord ∧ kdv_boundary_coeff d = some (1 / 2) ∧
        1 ≤ kdv_upsampling_factor d) ∧
    (Spec.kdvDoc d = none →
      kdv_degree d = 0 ∧ kdv_method_order d = 0 ∧ kdv_boundary_coeff d = none ∧ kdv_upsampling_factor d = 0) := by
  cases d <;>
    simp +contextual [Spec.kdvDoc, kdv_degree, kdv_method_order, kdv_boundary_coeff, kdv_upsampling_factor,
      kdv_to_akns, akns_degree, akns_method_order, akns_boundary_coeff, akns_upsampling_factor]

/-- The slow method that replaces a discretization for the discrete spectrum: it exists for every known discretization, is a
slow method, uses the same AKNS system and the same number of samples per step (so that the preprocessed signal
fits), has at most the same order and is the discretization itself if that is slow. Unknown values are rejected unchanged. -/
theorem C47_slow (d : KdvDisc) :
    (∀ a v, kdv_to_akns d = .ok a → kdv_vanilla_flag d = .ok v →
      ∃ d' a', kdv_slow_discretization d = (SUCCESS, d') ∧ kdv_to_akns d' = .ok a' ∧ Spec.slow a' ∧
        kdv_vanilla_flag d' = .ok v ∧ kdv_upsampling_factor d' = kdv_upsampling_factor d ∧
        kdv_method_order d' = kdv_method_order d ∧ (kdv_degree d = 0 → d' = d)) ∧
    (∀ n, d = .other n → kdv_slow_discretization d = (-EC_INVALID_ARGUMENT, d)) := by
  constructor
  · intro a v h h'
    cases d <;> simp only [kdv_to_akns, kdv_vanilla_flag, Except.ok.injEq, reduceCtorEq] at h h' <;> subst h <;> subst h' <;>
      refine ⟨_, _, rfl, rfl, by simp [Spec.slow], rfl, rfl, rfl, by simp [kdv_degree, kdv_to_akns, akns_degree]⟩
  · rintro n rfl
    have h : E_SUBROUTINE EC_INVALID_ARGUMENT = -EC_INVALID_ARGUMENT := by decide
    rw [← h]; rfl

/-- The phase factors of `a`, `b` and `b/a`: the boundaries are half a step outside of `[T0, T1]`, and the polynomial transfer
matrices have an additional factor `z^(D/2)`, that is, a phase `eps*D`. In contrast to the NSE there is no other shift. -/
theorem C47_phase_factors (d : KdvDisc) (hd : ∀ n, d ≠ .other n) (eps : ℝ) (D : ℕ) (T0 T1 : ℝ) :
    kdv_phase_factor_rho eps T1 d = (SUCCESS, some (some (-2 * (T1 + eps / 2)))) ∧
    kdv_phase_factor_a eps D T0 T1 d =
      (SUCCESS, some (some ((if kdv_degree d = 0 then 0 else -eps * D) + (T1 + eps / 2) - (T0 - eps / 2)))) ∧
    kdv_phase_factor_b eps D T0 T1 d =
      (SUCCESS, some (some ((if kdv_degree d = 0 then 0 else -eps * D) - (T1 + eps / 2) - (T0 - eps / 2)))) := by
  refine ⟨?_, ?_, ?_⟩
  · cases d <;> first
      | exact absurd rfl (hd _)
      | simp [kdv_phase_factor_rho, kdv_boundary_coeff, kdv_to_akns, akns_boundary_coeff, div_eq_mul_inv]
  · cases d <;> first
      | exact absurd rfl (hd _)
      | simp [kdv_phase_factor_a, kdv_boundary_coeff, kdv_to_akns, akns_boundary_coeff, kdv_degree, akns_degree, div_eq_mul_inv]
  · cases d <;> first
      | exact absurd rfl (hd _)
      | simp [kdv_phase_factor_b, kdv_boundary_coeff, kdv_to_akns, akns_boundary_coeff, kdv_degree, akns_degree, div_eq_mul_inv]

/-- Unknown values are rejected by all routines that return a code, arrays unchanged, except that
`phase_factor_rho` succeeds with NaN. -/
theorem C47_rejects (n : ℤ) (N : ℕ) (eps T0 T1 : ℝ) (D : ℕ) (vals : Buf ℂ) (q : Option (Buf ℂ)) (Dsub0 : ℕ) (xi : ℂ) (deriv : Bool) :
    kdv_to_akns (.other n) = .error EC_INVALID_ARGUMENT ∧
    kdv_method_weights (.other n) = .error (-EC_INVALID_ARGUMENT) ∧
    kdv_lambda_to_z N eps vals (.other n) = some (-EC_INVALID_ARGUMENT, vals) ∧
    kdv_z_to_lambda N eps vals (.other n) = some (-EC_INVALID_ARGUMENT, vals) ∧
    kdv_phase_factor_a eps D T0 T1 (.other n) = (EC_INVALID_ARGUMENT, none) ∧
    kdv_phase_factor_b eps D T0 T1 (.other n) = (EC_INVALID_ARGUMENT, none) ∧
    kdv_phase_factor_rho eps T1 (.other n) = (SUCCESS, some none) ∧
    kdv_preprocess_signal D q eps Dsub0 (.other n) = some ⟨-EC_INVALID_ARGUMENT, Dsub0, none, none⟩ ∧
    kdv_basis_to_S xi deriv eps (.other n) = .error (-EC_INVALID_ARGUMENT) ∧
    kdv_basis_from_S xi deriv eps (.other n) = .error (-EC_INVALID_ARGUMENT) ∧
    kdv_fscatter_numel D (.other n) = some 0 := by
  have h : E_SUBROUTINE EC_INVALID_ARGUMENT = -EC_INVALID_ARGUMENT := by decide
  have h' : E_SUBROUTINE (E_SUBROUTINE EC_INVALID_ARGUMENT) = -EC_INVALID_ARGUMENT := by decide
  refine ⟨rfl, ?_, ?_, ?_, rfl, rfl, ?_, ?_, ?_, ?_, rfl⟩
  · rw [← h]; rfl
  · rw [← h]; rfl
  · rw [← h]; rfl
  · simp [kdv_phase_factor_rho, kdv_boundary_coeff, kdv_to_akns]
  · rw [← h]; rfl
  · rw [← h']; rfl
  · rw [← h']; rfl

/-- The spectral maps of the polynomial methods are the ones of the AKNS layer: `z = exp(2 i λ eps / degree1step)` and back. -/
theorem C47_spectral_maps (d : KdvDisc) (a : AknsDisc) (hd : kdv_to_akns d = .ok a) (hdeg : kdv_degree d ≠ 0) (n : ℕ) (eps : ℝ)
    (heps : 0 < eps) (vals : Buf ℂ) (v : ℕ → ℂ) (hv : vals.Holds 0 n v) :
    (∃ b, kdv_lambda_to_z n eps vals d = some (SUCCESS, b) ∧ b.len = vals.len ∧
      b.Holds 0 n (fun i => exp (2 * I * v i * eps / (kdv_degree d * kdv_upsampling_factor d : ℕ)))) ∧
    ((∀ i, i < n → v i ≠ 0) → ∃ b c, kdv_z_to_lambda n eps vals d = some (SUCCESS, b) ∧
      kdv_lambda_to_z n eps b d = some (SUCCESS, c) ∧ c.Holds 0 n v) := by
  have hdeg' : akns_degree a ≠ 0 := by simpa [kdv_degree, hd] using hdeg
  constructor
  · obtain ⟨b, h1, h2, h3⟩ := C33_lambda_to_z n eps a vals v hv hdeg'
    refine ⟨b, by simp only [kdv_lambda_to_z, hd, h1], h2, ?_⟩
    simpa only [kdv_degree, kdv_upsampling_factor, hd, Spec.degree1step] using h3
  · intro h0
    obtain ⟨b, c, h1, h2, h3⟩ := C33_roundtrip_z n eps heps a hdeg' vals v hv h0
    exact ⟨b, c, by simp only [kdv_z_to_lambda, hd, h1], by simp only [kdv_lambda_to_z, hd, h2], h3⟩

example : (∀ n, KdvDisc.D4SPLIT4B_VANILLA ≠ .other n) ∧ kdv_vanilla_flag .D2SPLIT8A = .ok 0 ∧
    kdv_slow_discretization .D4SPLIT4A_VANILLA = (SUCCESS, .CF4_2_VANILLA) ∧ kdv_degree .D2SPLIT4B = 2 :=
  ⟨fun _ => by simp, rfl, rfl, rfl⟩

end FNFT

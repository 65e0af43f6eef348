import Verif.Model.AknsDisc
import Verif.Props.MiscNum
import Mathlib.Analysis.SpecialFunctions.ExpDeriv
import Mathlib.Analysis.SpecialFunctions.Complex.Log
import Mathlib.Tactic.IntervalCases
import Mathlib.LinearAlgebra.Matrix.NonsingularInverse
import Mathlib.Analysis.Calculus.Deriv.Inv
/-!
# Properties C31, C33, C35
-/
namespace FNFT
open AknsDisc Complex Matrix

/-! ## C31 changes of basis -/

/-- Discretizations known to the library. -/
def Spec.known (d : AknsDisc) : Prop := akns_upsampling_factor d ≠ 0

theorem known_basis (d : AknsDisc) : akns_basis_known d = true ↔ Spec.known d := by
  cases d <;> simp [akns_basis_known, Spec.known, akns_upsampling_factor]

/-- The block matrix `[T, 0; T', T]`. -/
noncomputable def Spec.dual (T T' : Matrix (Fin 2) (Fin 2) ℂ) : Matrix (Fin 4) (Fin 4) ℂ :=
  !![T 0 0, T 0 1, 0, 0; T 1 0, T 1 1, 0, 0; T' 0 0, T' 0 1, T 0 0, T 0 1; T' 1 0, T' 1 1, T 1 0, T 1 1]

theorem stores_basisOut2 (t11 t12 t21 t22 t31 t32 t41 t42 : ℂ) :
    Spec.Stores (Buf.ofList (basisOut false t11 t12 t21 t22 t31 t32 t41 t42)) !![t11, t12; t21, t22] := by
  intro i j
  fin_cases i <;> fin_cases j <;> simp [Buf.rd_ofList, basisOut]

theorem stores_basisOut4 (t11 t12 t21 t22 t31 t32 t41 t42 : ℂ) :
    Spec.Stores (Buf.ofList (basisOut true t11 t12 t21 t22 t31 t32 t41 t42))
      (Spec.dual !![t11, t12; t21, t22] !![t31, t32; t41, t42]) := by
  intro i j
  fin_cases i <;> fin_cases j <;> simp [Buf.rd_ofList, basisOut, Spec.dual]

theorem stores_m2 (M N : Matrix (Fin 2) (Fin 2) ℂ) :
    Spec.Stores (Buf.ofList (basisOut false (M 0 0) (M 0 1) (M 1 0) (M 1 1) (N 0 0) (N 0 1) (N 1 0) (N 1 1))) M := by
  intro i j
  fin_cases i <;> fin_cases j <;> simp [Buf.rd_ofList, basisOut]

theorem stores_m4 (M N : Matrix (Fin 2) (Fin 2) ℂ) :
    Spec.Stores (Buf.ofList (basisOut true (M 0 0) (M 0 1) (M 1 0) (M 1 1) (N 0 0) (N 0 1) (N 1 0) (N 1 1)))
      (Spec.dual M N) := by
  intro i j
  fin_cases i <;> fin_cases j <;> simp [Buf.rd_ofList, basisOut, Spec.dual]

/-- The matrices that the two routines compute, as functions of `xi`. -/
noncomputable def basisTo (eps : ℝ) (d : AknsDisc) (vanilla : Bool) (pde : AknsPde) (xi : ℂ) : Matrix (Fin 2) (Fin 2) ℂ :=
  if pde = .KdV then
    let e := exp ((if akns_basis_modified d then 1 else 0) * (I * xi * eps / 2))
    let f := exp (-((if akns_basis_modified d then 1 else 0) * (I * xi * eps / 2)))
    if vanilla then !![-f * I / (2 * xi), 0; f * I / (2 * xi), e] else !![f, -e * I / (2 * xi); 0, e * I / (2 * xi)]
  else 1

noncomputable def basisFrom (eps : ℝ) (d : AknsDisc) (vanilla : Bool) (pde : AknsPde) (xi : ℂ) : Matrix (Fin 2) (Fin 2) ℂ :=
  if pde = .KdV then
    let e := exp ((if akns_basis_modified d then 1 else 0) * (I * xi * eps / 2))
    let f := exp (-((if akns_basis_modified d then 1 else 0) * (I * xi * eps / 2)))
    if vanilla then !![e * 2 * I * xi, 0; f, f] else !![e, e; 0, -f * 2 * I * xi]
  else 1

noncomputable def basisTo' (eps : ℝ) (d : AknsDisc) (vanilla : Bool) (pde : AknsPde) (xi : ℂ) : Matrix (Fin 2) (Fin 2) ℂ :=
  if pde = .KdV then
    let c : ℂ := (if akns_basis_modified d then 1 else 0) * (I * eps / 2)
    let e := exp ((if akns_basis_modified d then 1 else 0) * (I * xi * eps / 2))
    let f := exp (-((if akns_basis_modified d then 1 else 0) * (I * xi * eps / 2)))
    if vanilla then !![f * I / (2 * xi) * (1 / xi + c), 0; -(f * I / (2 * xi)) * (1 / xi + c), e * c]
    else !![-f * c, -e * I / (2 * xi) * (-1 / xi + c); 0, e * I / (2 * xi) * (-1 / xi + c)]
  else 0

noncomputable def basisFrom' (eps : ℝ) (d : AknsDisc) (vanilla : Bool) (pde : AknsPde) (xi : ℂ) : Matrix (Fin 2) (Fin 2) ℂ :=
  if pde = .KdV then
    let c : ℂ := (if akns_basis_modified d then 1 else 0) * (I * eps / 2)
    let e := exp ((if akns_basis_modified d then 1 else 0) * (I * xi * eps / 2))
    let f := exp (-((if akns_basis_modified d then 1 else 0) * (I * xi * eps / 2)))
    if vanilla then !![e * 2 * I * (1 + c * xi), 0; -f * c, -f * c] else !![e * c, e * c; 0, -f * 2 * I * (1 - c * xi)]
  else 0

theorem basis_to_eq {xi : ℂ} (deriv : Bool) {eps : ℝ} {d : AknsDisc} (vanilla : Bool) {pde : AknsPde}
    (hp : pde = .KdV ∨ pde = .NSE) (hd : Spec.known d) (hx : pde = .KdV → xi ≠ 0) :
    akns_basis_to_S xi deriv eps d vanilla pde = .ok (basisOut deriv
      (basisTo eps d vanilla pde xi 0 0) (basisTo eps d vanilla pde xi 0 1)
      (basisTo eps d vanilla pde xi 1 0) (basisTo eps d vanilla pde xi 1 1)
      (basisTo' eps d vanilla pde xi 0 0) (basisTo' eps d vanilla pde xi 0 1)
      (basisTo' eps d vanilla pde xi 1 0) (basisTo' eps d vanilla pde xi 1 1)) := by
  have hk := (known_basis d).mpr hd
  rcases hp with rfl | rfl
  · have hx := hx rfl
    simp only [akns_basis_to_S, if_neg hx, hk, if_true, basisTo, basisTo']
    have e1 : (-0.5 : ℂ) * I * xi * eps = -(I * xi * eps / 2) := by ring
    have e2 : (0.5 : ℂ) * I * xi * eps = I * xi * eps / 2 := by ring
    rw [e1, e2]
    cases akns_basis_modified d <;> cases vanilla <;> simp <;> congr 1 <;> ring1
  · simp [akns_basis_to_S, hk, basisTo, basisTo']

theorem basis_from_eq {xi : ℂ} (deriv : Bool) {eps : ℝ} {d : AknsDisc} (vanilla : Bool) {pde : AknsPde}
    (hp : pde = .KdV ∨ pde = .NSE) (hd : Spec.known d) (hx : pde = .KdV → xi ≠ 0) :
    akns_basis_from_S xi deriv eps d vanilla pde = .ok (basisOut deriv
      (basisFrom eps d vanilla pde xi 0 0) (basisFrom eps d vanilla pde xi 0 1)
      (basisFrom eps d vanilla pde xi 1 0) (basisFrom eps d vanilla pde xi 1 1)
      (basisFrom' eps d vanilla pde xi 0 0) (basisFrom' eps d vanilla pde xi 0 1)
      (basisFrom' eps d vanilla pde xi 1 0) (basisFrom' eps d vanilla pde xi 1 1)) := by
  have hk := (known_basis d).mpr hd
  rcases hp with rfl | rfl
  · have hx := hx rfl
    simp only [akns_basis_from_S, if_neg hx, hk, if_true, basisFrom, basisFrom']
    have e1 : (-0.5 : ℂ) * I * xi * eps = -(I * xi * eps / 2) := by ring
    have e2 : (0.5 : ℂ) * I * xi * eps = I * xi * eps / 2 := by ring
    rw [e1, e2]
    cases akns_basis_modified d <;> cases vanilla <;> simp <;> congr 1 <;> first | ring1 | (field_simp; done) | (field_simp; ring1)
  · simp [akns_basis_from_S, hk, basisFrom, basisFrom']

theorem hda {f g : ℂ → ℂ} {f' g' x : ℂ} (h : HasDerivAt f f' x) (hf : ∀ y, g y = f y) (hf' : g' = f') :
    HasDerivAt g g' x := by
  rw [hf', funext hf]; exact h

theorem basis_deriv (eps : ℝ) (d : AknsDisc) (vanilla : Bool) (pde : AknsPde) (xi : ℂ) (hx : pde = .KdV → xi ≠ 0)
    (i j : Fin 2) :
    HasDerivAt (fun x => basisTo eps d vanilla pde x i j) (basisTo' eps d vanilla pde xi i j) xi ∧
    HasDerivAt (fun x => basisFrom eps d vanilla pde x i j) (basisFrom' eps d vanilla pde xi i j) xi := by
  by_cases hp : pde = .KdV
  · subst hp
    have hx := hx rfl
    simp only [basisTo, basisTo', basisFrom, basisFrom', if_true]
    generalize (if akns_basis_modified d = true then (1 : ℂ) else 0) = m
    have he : HasDerivAt (fun x => exp (m * (I * x * eps / 2))) (exp (m * (I * xi * eps / 2)) * (m * (I * eps / 2))) xi := by
      have h : HasDerivAt (fun x : ℂ => m * (I * x * eps / 2)) (m * (I * eps / 2)) xi :=
        hda ((hasDerivAt_id xi).const_mul (m * (I * eps / 2))) (fun y => by simp; ring) (by ring)
      exact h.cexp
    have hf : HasDerivAt (fun x => exp (-(m * (I * x * eps / 2)))) (-exp (-(m * (I * xi * eps / 2))) * (m * (I * eps / 2))) xi := by
      have h : HasDerivAt (fun x : ℂ => -(m * (I * x * eps / 2))) (-(m * (I * eps / 2))) xi :=
        hda ((hasDerivAt_id xi).const_mul (-(m * (I * eps / 2)))) (fun y => by simp; ring) (by ring)
      exact hda h.cexp (fun y => rfl) (by ring)
    have hi : HasDerivAt (fun x : ℂ => I / (2 * x)) (-(I / (2 * xi)) * (1 / xi)) xi :=
      hda ((hasDerivAt_inv hx).const_mul (I / 2)) (fun y => by ring) (by field_simp)
    have c0 : HasDerivAt (fun _ : ℂ => (0 : ℂ)) 0 xi := hasDerivAt_const _ _
    have hid : HasDerivAt (fun x : ℂ => 2 * I * x) (2 * I) xi := by
      simpa using (hasDerivAt_id xi).const_mul (2 * I)
    cases vanilla <;> fin_cases i <;> fin_cases j <;> simp <;> (try exact c0) <;> (try exact ⟨c0, c0⟩) <;>
      (try refine ⟨c0, ?_⟩) <;> (try refine ⟨?_, c0⟩) <;> (try constructor)
    all_goals first
      | (exact hda he (fun y => by ring1) (by ring1))
      | (exact hda hf (fun y => by ring1) (by ring1))
      | (exact hda (hf.mul hi) (fun y => by simp; ring1) (by ring1))
      | (exact hda (hf.mul hi).neg (fun y => by simp; ring1) (by ring1))
      | (exact hda (he.mul hi) (fun y => by simp; ring1) (by ring1))
      | (exact hda (he.mul hi).neg (fun y => by simp; ring1) (by ring1))
      | (exact hda (he.mul hid) (fun y => by simp; ring1) (by ring1))
      | (exact hda (hf.mul hid).neg (fun y => by simp; ring1) (by ring1))
      | skip
  · simp only [basisTo, basisTo', basisFrom, basisFrom', if_neg hp]
    exact ⟨hasDerivAt_const _ _, hasDerivAt_const _ _⟩

theorem basis_inv (eps : ℝ) (d : AknsDisc) (vanilla : Bool) (pde : AknsPde) (xi : ℂ) (hx : pde = .KdV → xi ≠ 0) :
    basisTo eps d vanilla pde xi * basisFrom eps d vanilla pde xi = 1 ∧
    basisFrom eps d vanilla pde xi * basisTo eps d vanilla pde xi = 1 := by
  have : basisTo eps d vanilla pde xi * basisFrom eps d vanilla pde xi = 1 := by
    by_cases hp : pde = .KdV
    · subst hp
      have hx := hx rfl
      simp only [basisTo, basisFrom, if_true]
      have h1 : exp ((if akns_basis_modified d = true then (1 : ℂ) else 0) * (I * xi * eps / 2)) *
          exp (-((if akns_basis_modified d = true then (1 : ℂ) else 0) * (I * xi * eps / 2))) = 1 := by
        rw [← exp_add]; simp
      generalize exp ((if akns_basis_modified d = true then (1 : ℂ) else 0) * (I * xi * eps / 2)) = e at *
      generalize exp (-((if akns_basis_modified d = true then (1 : ℂ) else 0) * (I * xi * eps / 2))) = f at *
      have hI : I * I = -1 := I_mul_I
      cases vanilla <;> ext i j <;> fin_cases i <;> fin_cases j <;>
        simp [Matrix.mul_apply, Fin.sum_univ_two] <;> field_simp <;>
        first | (linear_combination (exp := 1) h1; done) | (linear_combination (-1) * h1 + e * f * hI; done) | (linear_combination (-e * f) * hI; done) | (linear_combination h1 - e * f * hI; done) | (linear_combination (e * f) * hI; done) | skip
    · simp [basisTo, basisFrom, if_neg hp]
  exact ⟨this, mul_eq_one_comm.mp this⟩

theorem dual_mul (A A' B B' : Matrix (Fin 2) (Fin 2) ℂ) :
    Spec.dual A A' * Spec.dual B B' = Spec.dual (A * B) (A' * B + A * B') := by
  ext i j
  fin_cases i <;> fin_cases j <;>
    simp [Spec.dual, Matrix.mul_apply, Fin.sum_univ_four, Fin.sum_univ_two] <;> ring

theorem dual_one : Spec.dual 1 0 = 1 := by
  ext i j
  fin_cases i <;> fin_cases j <;> simp [Spec.dual]

/-- C31. For the KdV and the NSE, a known discretization, any step and flag: there are matrix functions
`A`, `B` with derivatives `A'`, `B'` such that at every `xi` (nonzero for KdV) the routines return `A xi`
and `B xi`, resp. `[A,0;A',A]` and `[B,0;B',B]` when derivatives are requested, and the two
matrices are inverse to each other in both cases. -/
theorem C31_change_of_basis (eps : ℝ) (d : AknsDisc) (hd : Spec.known d) (vanilla : Bool) (pde : AknsPde)
    (hp : pde = .KdV ∨ pde = .NSE) :
    ∃ A B A' B' : ℂ → Matrix (Fin 2) (Fin 2) ℂ, ∀ xi : ℂ, (pde = .KdV → xi ≠ 0) →
      (∃ T S, akns_basis_to_S xi false eps d vanilla pde = .ok T ∧ Spec.Stores (Buf.ofList T) (A xi) ∧
        akns_basis_from_S xi false eps d vanilla pde = .ok S ∧ Spec.Stores (Buf.ofList S) (B xi)) ∧
      (∃ T S, akns_basis_to_S xi true eps d vanilla pde = .ok T ∧ Spec.Stores (Buf.ofList T) (Spec.dual (A xi) (A' xi)) ∧
        akns_basis_from_S xi true eps d vanilla pde = .ok S ∧ Spec.Stores (Buf.ofList S) (Spec.dual (B xi) (B' xi))) ∧
      A xi * B xi = 1 ∧ B xi * A xi = 1 ∧
      Spec.dual (A xi) (A' xi) * Spec.dual (B xi) (B' xi) = 1 ∧
      Spec.dual (B xi) (B' xi) * Spec.dual (A xi) (A' xi) = 1 ∧
      ∀ i j, HasDerivAt (fun x => A x i j) (A' xi i j) xi ∧ HasDerivAt (fun x => B x i j) (B' xi i j) xi := by
  refine ⟨basisTo eps d vanilla pde, basisFrom eps d vanilla pde, basisTo' eps d vanilla pde,
    basisFrom' eps d vanilla pde, fun xi hx => ?_⟩
  obtain ⟨hAB, hBA⟩ := basis_inv eps d vanilla pde xi hx
  have hdual : Spec.dual (basisTo eps d vanilla pde xi) (basisTo' eps d vanilla pde xi) *
      Spec.dual (basisFrom eps d vanilla pde xi) (basisFrom' eps d vanilla pde xi) = 1 := by
    rw [dual_mul, hAB, ← dual_one]
    congr 1
    -- the derivative of the constant A * B = 1
    ext i j
    have h1 : HasDerivAt (fun x => (basisTo eps d vanilla pde x * basisFrom eps d vanilla pde x) i j)
        ((basisTo' eps d vanilla pde xi * basisFrom eps d vanilla pde xi +
          basisTo eps d vanilla pde xi * basisFrom' eps d vanilla pde xi) i j) xi := by
      simp only [Matrix.mul_apply, Matrix.add_apply, Fin.sum_univ_two]
      have hh := fun i j => basis_deriv eps d vanilla pde xi hx i j
      exact hda (((hh i 0).1.mul (hh 0 j).2).add ((hh i 1).1.mul (hh 1 j).2)) (fun _ => rfl) (by ring)
    have h2 : HasDerivAt (fun x => (basisTo eps d vanilla pde x * basisFrom eps d vanilla pde x) i j) 0 xi := by
      refine (hasDerivAt_const xi ((1 : Matrix (Fin 2) (Fin 2) ℂ) i j)).congr_of_eventuallyEq ?_
      by_cases hk : pde = .KdV
      · filter_upwards [isOpen_ne.mem_nhds (hx hk)] with y hy
        rw [(basis_inv eps d vanilla pde y fun _ => hy).1]
      · exact Filter.Eventually.of_forall fun y => by
          show (basisTo eps d vanilla pde y * basisFrom eps d vanilla pde y) i j = _
          rw [(basis_inv eps d vanilla pde y fun h => absurd h hk).1]
    rw [h1.unique h2]; rfl
  refine ⟨⟨_, _, basis_to_eq false vanilla hp hd hx, ?_, basis_from_eq false vanilla hp hd hx, ?_⟩,
    ⟨_, _, basis_to_eq true vanilla hp hd hx, ?_, basis_from_eq true vanilla hp hd hx, ?_⟩, hAB, hBA, hdual,
    mul_eq_one_comm.mp hdual, fun i j => basis_deriv eps d vanilla pde xi hx i j⟩
  · exact stores_m2 _ _
  · exact stores_m2 _ _
  · exact stores_m4 _ _
  · exact stores_m4 _ _

/-- For the NSE the change of basis is the identity. -/
theorem C31_nse_identity (xi : ℂ) (eps : ℝ) (d : AknsDisc) (hd : Spec.known d) (vanilla : Bool) :
    ∃ T, akns_basis_to_S xi false eps d vanilla .NSE = .ok T ∧ Spec.Stores (Buf.ofList T) (1 : Matrix (Fin 2) (Fin 2) ℂ) := by
  refine ⟨_, basis_to_eq false vanilla (Or.inr rfl) hd (fun h => by cases h), ?_⟩
  have := stores_m2 (basisTo eps d vanilla .NSE xi) (basisTo' eps d vanilla .NSE xi)
  simpa only [basisTo, reduceCtorEq, if_false] using this

/-- For the KdV equation the S basis is mapped to the basis of the discretization by `[2iξ,0;1,1]` (vanilla) or
`[1,1;0,-2iξ]` (not vanilla), followed by `diag(e^(iξh/2), e^(-iξh/2))` for the two discretizations that use a
modified basis. -/
theorem C31_kdv_explicit (xi : ℂ) (hx : xi ≠ 0) (eps : ℝ) (d : AknsDisc) (hd : Spec.known d) (vanilla : Bool) :
    ∃ T, akns_basis_from_S xi false eps d vanilla .KdV = .ok T ∧
      Spec.Stores (Buf.ofList T) ((if d = D2SPLIT2A ∨ d = D2SPLIT2_MODAL then
          !![exp (I * xi * eps / 2), 0; 0, exp (-(I * xi * eps / 2))] else 1) *
        (if vanilla then !![2 * I * xi, 0; 1, 1] else !![1, 1; 0, -2 * I * xi])) := by
  refine ⟨_, basis_from_eq false vanilla (Or.inl rfl) hd (fun _ => hx), ?_⟩
  have := stores_m2 (basisFrom eps d vanilla .KdV xi) (basisFrom' eps d vanilla .KdV xi)
  have hm : akns_basis_modified d = true ↔ d = D2SPLIT2A ∨ d = D2SPLIT2_MODAL := by
    cases d <;> simp [akns_basis_modified]
  convert this using 1
  by_cases h : d = D2SPLIT2A ∨ d = D2SPLIT2_MODAL
  · rw [if_pos h]
    ext i j
    cases vanilla <;> fin_cases i <;> fin_cases j <;> simp [basisFrom, hm, h, Matrix.mul_apply, Fin.sum_univ_two] <;> ring
  · rw [if_neg h]
    ext i j
    cases vanilla <;> fin_cases i <;> fin_cases j <;> simp [basisFrom, hm, h]

/-- Errors of the change of basis routines: the code of a failed subroutine, `-E_DIV_BY_ZERO` exactly for `xi = 0` and KdV, and
`-E_INVALID_ARGUMENT` for values that are not discretizations or equations. -/
theorem C31_errors (xi : ℂ) (deriv : Bool) (eps : ℝ) (d : AknsDisc) (vanilla : Bool) (pde : AknsPde) :
    (pde = .KdV → xi = 0 → akns_basis_to_S xi deriv eps d vanilla pde = .error (E_SUBROUTINE EC_DIV_BY_ZERO) ∧
      akns_basis_from_S xi deriv eps d vanilla pde = .error (E_SUBROUTINE EC_DIV_BY_ZERO)) ∧
    ((pde = .KdV → xi ≠ 0) → (¬ Spec.known d ∨ (pde ≠ .KdV ∧ pde ≠ .NSE)) →
      akns_basis_to_S xi deriv eps d vanilla pde = .error (E_SUBROUTINE EC_INVALID_ARGUMENT) ∧
      akns_basis_from_S xi deriv eps d vanilla pde = .error (E_SUBROUTINE EC_INVALID_ARGUMENT)) := by
  constructor
  · rintro rfl rfl; simp [akns_basis_to_S, akns_basis_from_S]
  · intro hx h
    cases pde with
    | other n => simp [akns_basis_to_S, akns_basis_from_S]
    | KdV =>
      have hk : akns_basis_known d = false := by
        rw [← Bool.not_eq_true, known_basis]; rcases h with h | h
        · exact h
        · exact absurd rfl h.1
      simp [akns_basis_to_S, akns_basis_from_S, hx rfl, hk]
    | NSE =>
      have hk : akns_basis_known d = false := by
        rw [← Bool.not_eq_true, known_basis]; rcases h with h | h
        · exact h
        · exact absurd rfl h.2
      simp [akns_basis_to_S, akns_basis_from_S, hk]

example : Spec.known D2SPLIT2A ∧ Spec.known BO ∧ ¬ Spec.known FTES4_4A := by
  simp [Spec.known, akns_upsampling_factor]

/-! ## C33 spectral parameter maps -/

theorem map_loop (f : ℂ → ℂ) (n : ℕ) (vals : Buf ℂ) (v : ℕ → ℂ) (hv : vals.Holds 0 n v) :
    ∃ b, forLoop n (fun i (v : Buf ℂ) => do
      let x ← v.rd i
      v.wr i (f x)) vals = some b ∧ b.Holds 0 n (fun i => f (v i)) ∧ b.len = vals.len ∧
      ∀ i, n ≤ i → b.rd i = vals.rd i := by
  have key := forLoop_inv (n := n) (body := fun i (v : Buf ℂ) => do
      let x ← v.rd i
      v.wr i (f x)) (s := vals)
    (fun k b => b.len = vals.len ∧ (∀ i, i < k → b.rd i = some (f (v i))) ∧ ∀ i, k ≤ i → b.rd i = vals.rd i)
    ⟨rfl, fun i h => by omega, fun i _ => rfl⟩ ?_
  · obtain ⟨b, h1, h2, h3, h4⟩ := key
    exact ⟨b, h1, fun i hi => by rw [Nat.zero_add]; exact h3 i hi, h2, h4⟩
  · rintro k b hk ⟨h1, h2, h3⟩
    have hr : vals.rd k = some (v k) := by simpa using hv k hk
    have hlt : k < b.len := by rw [h1]; exact Buf.rd_lt hr
    refine ⟨b.set k (f (v k)), ?_, by simp [h1], ?_, ?_⟩
    · simp only [h3 k le_rfl, hr, Option.bind_eq_bind, Option.bind_some, Buf.wr_eq _ hlt]
    · intro i hi
      rw [Buf.rd_set _ hlt]
      split
      · subst i; rfl
      · exact h2 i (by omega)
    · intro i hi
      rw [Buf.rd_set _ hlt, if_neg (by omega)]
      exact h3 i (by omega)

theorem map_loop_ne (f : ℂ → ℂ) (n : ℕ) (vals : Buf ℂ) (v : ℕ → ℂ) (hv : vals.Holds 0 n v)
    (h0 : ∀ i, i < n → v i ≠ 0) :
    ∃ b, forLoop n (fun i (v : Buf ℂ) => do
      let x ← v.rd i
      if x = 0 then none else v.wr i (f x)) vals = some b ∧ b.Holds 0 n (fun i => f (v i)) ∧ b.len = vals.len ∧
      ∀ i, n ≤ i → b.rd i = vals.rd i := by
  have key := forLoop_inv (n := n) (body := fun i (v : Buf ℂ) => do
      let x ← v.rd i
      if x = 0 then none else v.wr i (f x)) (s := vals)
    (fun k b => b.len = vals.len ∧ (∀ i, i < k → b.rd i = some (f (v i))) ∧ ∀ i, k ≤ i → b.rd i = vals.rd i)
    ⟨rfl, fun i h => by omega, fun i _ => rfl⟩ ?_
  · obtain ⟨b, h1, h2, h3, h4⟩ := key
    exact ⟨b, h1, fun i hi => by rw [Nat.zero_add]; exact h3 i hi, h2, h4⟩
  · rintro k b hk ⟨h1, h2, h3⟩
    have hr : vals.rd k = some (v k) := by simpa using hv k hk
    have hlt : k < b.len := by rw [h1]; exact Buf.rd_lt hr
    refine ⟨b.set k (f (v k)), ?_, by simp [h1], ?_, ?_⟩
    · simp only [h3 k le_rfl, hr, Option.bind_eq_bind, Option.bind_some, Buf.wr_eq _ hlt, if_neg (h0 k hk)]
    · intro i hi
      rw [Buf.rd_set _ hlt]
      split
      · subst i; rfl
      · exact h2 i (by omega)
    · intro i hi
      rw [Buf.rd_set _ hlt, if_neg (by omega)]
      exact h3 i (by omega)

/-- Length, in steps of `z`, of one sample: `degree * upsampling factor`. -/
def Spec.degree1step (d : AknsDisc) : ℕ := akns_degree d * akns_upsampling_factor d

theorem C33_lambda_to_z (n : ℕ) (eps : ℝ) (d : AknsDisc) (vals : Buf ℂ) (v : ℕ → ℂ)
    (hv : vals.Holds 0 n v) (hd : akns_degree d ≠ 0) :
    ∃ b, akns_lambda_to_z n eps vals d = some (SUCCESS, b) ∧ b.len = vals.len ∧
      b.Holds 0 n (fun i => exp (2 * I * v i * eps / Spec.degree1step d)) := by
  have hu : akns_upsampling_factor d ≠ 0 := by
    cases d <;> simp [akns_degree, akns_upsampling_factor] at hd ⊢
  obtain ⟨b, h1, h2, h3, -⟩ := map_loop (fun x => exp (2 * I * x * eps / ((akns_degree d * akns_upsampling_factor d : ℝ) : ℂ))) n vals v hv
  refine ⟨b, ?_, h3, ?_⟩
  · unfold akns_lambda_to_z; rw [if_neg hu, if_neg hd]; dsimp only; rw [h1]; rfl
  · simpa [Spec.degree1step] using h2

theorem C33_z_to_lambda (n : ℕ) (eps : ℝ) (d : AknsDisc) (vals : Buf ℂ) (v : ℕ → ℂ)
    (hv : vals.Holds 0 n v) (hd : akns_degree d ≠ 0) (h0 : ∀ i, i < n → v i ≠ 0) :
    ∃ b, akns_z_to_lambda n eps vals d = some (SUCCESS, b) ∧ b.len = vals.len ∧
      b.Holds 0 n (fun i => log (v i) / (2 * I * eps / Spec.degree1step d)) := by
  have hu : akns_upsampling_factor d ≠ 0 := by
    cases d <;> simp [akns_degree, akns_upsampling_factor] at hd ⊢
  obtain ⟨b, h1, h2, h3, -⟩ := map_loop_ne (fun x => log x / (2 * I * eps / ((akns_degree d * akns_upsampling_factor d : ℝ) : ℂ))) n vals v hv h0
  refine ⟨b, ?_, h3, ?_⟩
  · unfold akns_z_to_lambda; rw [if_neg hu, if_neg hd]; dsimp only; rw [h1]; rfl
  · simpa [Spec.degree1step] using h2

/-- Discretizations without polynomial form and unknown values are rejected and the array is unchanged. -/
theorem C33_reject (n : ℕ) (eps : ℝ) (d : AknsDisc) (vals : Buf ℂ) (hd : akns_degree d = 0) :
    akns_lambda_to_z n eps vals d = some (EC_INVALID_ARGUMENT, vals) ∧
    akns_z_to_lambda n eps vals d = some (EC_INVALID_ARGUMENT, vals) := by
  unfold akns_lambda_to_z akns_z_to_lambda
  constructor <;> (split <;> [rfl; skip]) <;> first | rfl | (rw [if_pos hd])

theorem degree1step_pos {d : AknsDisc} (hd : akns_degree d ≠ 0) : 0 < Spec.degree1step d := by
  cases d <;> simp [akns_degree] at hd <;> simp [Spec.degree1step, akns_degree, akns_upsampling_factor]

/-- `z = 0` excepted, mapping to `lambda` and back returns the original values. -/
theorem C33_roundtrip_z (n : ℕ) (eps : ℝ) (heps : 0 < eps) (d : AknsDisc) (hd : akns_degree d ≠ 0) (vals : Buf ℂ)
    (v : ℕ → ℂ) (hv : vals.Holds 0 n v) (h0 : ∀ i, i < n → v i ≠ 0) :
    ∃ b c, akns_z_to_lambda n eps vals d = some (SUCCESS, b) ∧ akns_lambda_to_z n eps b d = some (SUCCESS, c) ∧
      c.Holds 0 n v := by
  obtain ⟨b, h1, -, h2⟩ := C33_z_to_lambda n eps d vals v hv hd h0
  obtain ⟨c, h3, -, h4⟩ := C33_lambda_to_z n eps d b _ h2 hd
  refine ⟨b, c, h1, h3, fun i hi => ?_⟩
  rw [h4 i hi]
  have hp : (Spec.degree1step d : ℂ) ≠ 0 := by exact_mod_cast (degree1step_pos hd).ne'
  have he : (eps : ℂ) ≠ 0 := by exact_mod_cast heps.ne'
  have : 2 * I * (log (v i) / (2 * I * eps / Spec.degree1step d)) * eps / Spec.degree1step d = log (v i) := by
    field_simp
  show some (exp _) = _
  rw [this, exp_log (h0 i hi)]

/-- Mapping to `z` and back returns `lambda` as long as the principal branch is not left. -/
theorem C33_roundtrip_lambda (n : ℕ) (eps : ℝ) (heps : 0 < eps) (d : AknsDisc) (hd : akns_degree d ≠ 0) (vals : Buf ℂ)
    (v : ℕ → ℂ) (hv : vals.Holds 0 n v) (h0 : ∀ i, i < n → |2 * (v i).re * eps / Spec.degree1step d| < Real.pi) :
    ∃ b c, akns_lambda_to_z n eps vals d = some (SUCCESS, b) ∧ akns_z_to_lambda n eps b d = some (SUCCESS, c) ∧
      c.Holds 0 n v := by
  obtain ⟨b, h1, -, h2⟩ := C33_lambda_to_z n eps d vals v hv hd
  obtain ⟨c, h3, -, h4⟩ := C33_z_to_lambda n eps d b _ h2 hd (fun i _ => exp_ne_zero _)
  refine ⟨b, c, h1, h3, fun i hi => ?_⟩
  rw [h4 i hi]
  have hp : (Spec.degree1step d : ℂ) ≠ 0 := by exact_mod_cast (degree1step_pos hd).ne'
  have he : (eps : ℂ) ≠ 0 := by exact_mod_cast heps.ne'
  have him : (2 * I * v i * eps / Spec.degree1step d).im = 2 * (v i).re * eps / Spec.degree1step d := by
    have : 2 * I * v i * eps / Spec.degree1step d = ((2 * eps / Spec.degree1step d : ℝ) : ℂ) * (I * v i) := by
      push_cast; ring
    rw [this, im_ofReal_mul, I_mul_im]; ring
  have := abs_lt.mp (h0 i hi)
  show some (log (exp _) / _) = _
  rw [log_exp (by rw [him]; linarith) (by rw [him]; linarith)]
  congr 1
  field_simp

/-- The real line goes to the unit circle, the upper half plane to the open unit disk, the lower half plane to the outside. -/
theorem C33_geometry (eps : ℝ) (heps : 0 < eps) (d : AknsDisc) (hd : akns_degree d ≠ 0) (l : ℂ) :
    (l.im = 0 ↔ ‖exp (2 * I * l * eps / Spec.degree1step d)‖ = 1) ∧
    (0 < l.im ↔ ‖exp (2 * I * l * eps / Spec.degree1step d)‖ < 1) := by
  have hp : (0 : ℝ) < Spec.degree1step d := by exact_mod_cast degree1step_pos hd
  have hre : (2 * I * l * eps / Spec.degree1step d).re = -(2 * eps / Spec.degree1step d) * l.im := by
    have : 2 * I * l * eps / Spec.degree1step d = ((2 * eps / Spec.degree1step d : ℝ) : ℂ) * (I * l) := by
      push_cast; ring
    rw [this, re_ofReal_mul]
    simp
  have hc : 0 < 2 * eps / Spec.degree1step d := by positivity
  rw [norm_exp, hre]
  constructor
  · rw [Real.exp_eq_one_iff]
    constructor
    · intro h; rw [h]; ring
    · intro h; rcases mul_eq_zero.mp h with h | h
      · linarith
      · exact h
  · rw [Real.exp_lt_one_iff]
    constructor
    · intro h; nlinarith
    · intro h; by_contra hn; nlinarith

/-! ## C35 weights of the commutator-free methods -/

/-- The pointwise and commutator-free methods: what the weights must satisfy. `M` exponentials, `nodes` sample points
with quadrature weights `g`; `qr` is the `M × nodes` table of sample weights, `w` the step weights. -/
structure Spec.CFWeights (M nodes : ℕ) (g : ℕ → ℂ) (qr w : List ℂ) (tol : ℝ) : Prop where
  len_qr : qr.length = M * nodes
  len_w : w.length = M
  row : ∀ m, m < M → ∑ i ∈ Finset.range nodes, qr.getD (m * nodes + i) 0 = 1
  total : ‖∑ m ∈ Finset.range M, w.getD m 0 - 1‖ ≤ tol
  col : ∀ i, i < nodes → ‖∑ m ∈ Finset.range M, w.getD m 0 * qr.getD (m * nodes + i) 0 - g i‖ ≤ tol

/-- Weights of the three-point Gauss-Legendre formula on `[0,1]`. -/
noncomputable def Spec.gauss3 (i : ℕ) : ℂ := if i = 1 then 4 / 9 else 5 / 18

theorem normRows_ok {M : ℕ} {raw : ℕ → ℕ → ℂ} {tol : ℝ} {g : ℕ → ℂ}
    (h0 : ∀ m, m < M → raw m 0 + raw m 1 + raw m 2 ≠ 0)
    (ht : ‖∑ m ∈ Finset.range M, (raw m 0 + raw m 1 + raw m 2) - 1‖ ≤ tol)
    (hc : ∀ i, i < 3 → ‖∑ m ∈ Finset.range M, raw m i - g i‖ ≤ tol) :
    Spec.CFWeights M 3 g (normRows M raw).1 (normRows M raw).2 tol := by
  have hw : ∀ m, m < M → (normRows M raw).2.getD m 0 = raw m 0 + raw m 1 + raw m 2 := by
    intro m hm
    simp [normRows, List.getD_eq_getElem?_getD, hm]
  have hq : ∀ m i, m < M → i < 3 → (normRows M raw).1.getD (m * 3 + i) 0 = raw m i / (raw m 0 + raw m 1 + raw m 2) := by
    intro m i hm hi
    have h1 : m * 3 + i < 3 * M := by omega
    have h2 : (m * 3 + i) / 3 = m := by omega
    have h3 : (m * 3 + i) % 3 = i := by omega
    simp [normRows, List.getD_eq_getElem?_getD, h1, h2, h3]
  refine ⟨by simp [normRows, mul_comm], by simp [normRows], ?_, ?_, ?_⟩
  · intro m hm
    simp only [Finset.sum_range_succ, Finset.sum_range_zero]
    rw [hq m 0 hm (by norm_num), hq m 1 hm (by norm_num), hq m 2 hm (by norm_num), zero_add, ← add_div, ← add_div]
    exact div_self (h0 m hm)
  · rw [Finset.sum_congr rfl fun m hm => hw m (Finset.mem_range.mp hm)]; exact ht
  · intro i hi
    rw [Finset.sum_congr rfl fun m hm => by
      rw [hw m (Finset.mem_range.mp hm), hq m i (Finset.mem_range.mp hm) hi, mul_div_cancel₀ _ (h0 m (Finset.mem_range.mp hm))]]
    exact hc i hi

theorem cf43_rows (i : ℕ) (_ : i < 3) : cf43raw i 0 + cf43raw i 1 + cf43raw i 2 = (cf43f i 0 : ℝ) := by
  have hs : Real.sqrt (3 / 20) * Real.sqrt (3 / 20) = 3 / 20 := Real.mul_self_sqrt (by norm_num)
  have hl : ∀ x, misc_legendre_poly 2 x = (3 * x * x - 1) / 2 := by
    intro x; simp [misc_legendre_poly, legendreLoop]; ring
  have h0 : ∀ x, misc_legendre_poly 0 x = 1 := fun x => by simp [misc_legendre_poly]
  have h1 : ∀ x, misc_legendre_poly 1 x = x := fun x => by simp [misc_legendre_poly]
  have : ∀ m, cf43raw i m = (((cf43f i 0 + 3 * cf43x m * cf43f i 1 + 5 * ((3 * cf43x m * cf43x m - 1) / 2) * cf43f i 2) * cf43w m : ℝ) : ℂ) := by
    intro m
    simp [cf43raw, List.range_succ, hl, h0, h1]
    left; ring
  rw [this, this, this, ← ofReal_add, ← ofReal_add]
  congr 1
  simp only [cf43x, cf43w]
  linear_combination (15 * 2 * 2 * cf43f i 2 * (5 / 18)) * hs

theorem cf43_cols (m : ℕ) (_ : m < 3) : cf43raw 0 m + cf43raw 1 m + cf43raw 2 m = (cf43w m : ℝ) := by
  have : ∀ i, cf43raw i m = (((cf43f i 0 + 3 * misc_legendre_poly 1 (cf43x m) * cf43f i 1 + 5 * misc_legendre_poly 2 (cf43x m) * cf43f i 2) * cf43w m : ℝ) : ℂ) := by
    intro i
    simp [cf43raw, List.range_succ, misc_legendre_poly]
    left; ring
  rw [this, this, this, ← ofReal_add, ← ofReal_add]
  congr 1
  simp only [cf43f]
  ring

/-- C35. The weights of every accepted discretization: sample weights and step weights sum to one, and the
exponents of one step add up to the Gauss quadrature formula. -/
theorem C35_weights_pointwise (d : AknsDisc) (h : akns_upsampling_factor d = 1) :
    ∃ qr w, akns_method_weights d = .ok (qr, w) ∧ Spec.CFWeights 1 1 (fun _ => 1) qr w 0 := by
  refine ⟨[1], [1], ?_, ⟨rfl, rfl, ?_, ?_, ?_⟩⟩
  · cases d <;> simp [akns_upsampling_factor] at h <;> rfl
  · intro m hm; interval_cases m; simp
  · simp
  · intro m hm; interval_cases m; simp

theorem C35_weights_two (d : AknsDisc) (h : akns_upsampling_factor d = 2) :
    ∃ qr w, akns_method_weights d = .ok (qr, w) ∧ Spec.CFWeights 2 2 (fun _ => 1 / 2) qr w 0 := by
  refine ⟨[0.5 + (1 / Real.sqrt 3 : ℝ), 0.5 - (1 / Real.sqrt 3 : ℝ), 0.5 - (1 / Real.sqrt 3 : ℝ), 0.5 + (1 / Real.sqrt 3 : ℝ)],
    [0.5, 0.5], ?_, ⟨rfl, rfl, ?_, ?_, ?_⟩⟩
  · cases d <;> simp [akns_upsampling_factor] at h <;> rfl
  · intro m hm; interval_cases m <;> simp [Finset.sum_range_succ] <;> norm_num
  · simp [Finset.sum_range_succ]; norm_num
  · intro m hm
    interval_cases m <;> simp [Finset.sum_range_succ] <;> ring_nf <;> simp

theorem C35_weights_CF4_3 : ∃ qr w, akns_method_weights CF4_3 = .ok (qr, w) ∧
    Spec.CFWeights 3 3 Spec.gauss3 qr w 0 := by
  refine ⟨_, _, rfl, normRows_ok ?_ ?_ ?_⟩
  · intro m hm
    rw [cf43_rows m hm]
    interval_cases m <;> simp [cf43f]
  · simp only [Finset.sum_range_succ, Finset.sum_range_zero]
    rw [cf43_rows 0 (by norm_num), cf43_rows 1 (by norm_num), cf43_rows 2 (by norm_num)]
    simp only [cf43f]; push_cast; norm_num
  · intro i hi
    simp only [Finset.sum_range_succ, Finset.sum_range_zero]
    rw [zero_add, cf43_cols i hi]
    interval_cases i <;> simp [cf43w, Spec.gauss3]

theorem cf53_rows : cf53raw 0 0 + cf53raw 0 1 + cf53raw 0 2 = 3 / 10 + I / 10 ∧
    cf53raw 1 0 + cf53raw 1 1 + cf53raw 1 2 = 2 / 5 ∧ cf53raw 2 0 + cf53raw 2 1 + cf53raw 2 2 = 3 / 10 - I / 10 := by
  refine ⟨?_, ?_, ?_⟩
  · simp only [cf53raw]; push_cast; ring
  · simp only [cf53raw, map_add, map_mul, conj_I, conj_ofReal, map_neg, map_div₀, map_ofNat]; push_cast; ring
  · simp only [cf53raw, map_add, map_mul, conj_I, conj_ofReal, map_neg, map_div₀, map_ofNat, map_one]; push_cast; ring

theorem C35_weights_CF5_3 : ∃ qr w, akns_method_weights CF5_3 = .ok (qr, w) ∧
    Spec.CFWeights 3 3 Spec.gauss3 qr w 0 := by
  obtain ⟨h0, h1, h2⟩ := cf53_rows
  refine ⟨_, _, rfl, normRows_ok ?_ ?_ ?_⟩
  · intro m hm
    interval_cases m
    · rw [h0]; intro h; have := congrArg re h; simp at this
    · rw [h1]; norm_num
    · rw [h2]; intro h; have := congrArg re h; simp at this
  · simp only [Finset.sum_range_succ, Finset.sum_range_zero, h0, h1, h2]
    ring_nf; simp
  · intro i hi
    have : ∑ m ∈ Finset.range 3, cf53raw m i = Spec.gauss3 i := by
      simp only [Finset.sum_range_succ, Finset.sum_range_zero]
      interval_cases i <;>
        simp only [cf53raw, map_add, map_mul, conj_I, conj_ofReal, map_neg, map_div₀, map_ofNat, map_one, Spec.gauss3] <;>
        push_cast <;> norm_num <;> ring
    rw [this]; simp

theorem C35_weights_CF6_4 : ∃ qr w, akns_method_weights CF6_4 = .ok (qr, w) ∧
    Spec.CFWeights 4 3 Spec.gauss3 qr w 4e-15 := by
  have nn : ∀ (a b : ℝ), |a| ≤ 2e-15 → |b| ≤ 2e-15 → ‖(a + b * I : ℂ)‖ ≤ 4e-15 := by
    intro a b ha hb
    refine (norm_add_le _ _).trans ?_
    rw [norm_mul, norm_I, mul_one, norm_real, norm_real, Real.norm_eq_abs, Real.norm_eq_abs]
    linarith
  refine ⟨_, _, rfl, normRows_ok ?_ ?_ ?_⟩
  · intro m hm h
    have := congrArg re h
    interval_cases m <;> simp [cf64raw] at this <;> norm_num at this
  · have : ∑ m ∈ Finset.range 4, (cf64raw m 0 + cf64raw m 1 + cf64raw m 2) - 1 =
        ((-2e-15 + 0 : ℝ) : ℂ) + ((2e-15 : ℝ) : ℂ) * I := by
      simp only [Finset.sum_range_succ, Finset.sum_range_zero, cf64raw]; push_cast; ring_nf
    rw [this]; exact nn _ _ (by rw [abs_of_nonpos] <;> norm_num) (by rw [abs_of_nonneg] <;> norm_num)
  · intro i hi
    interval_cases i
    · have : ∑ m ∈ Finset.range 4, cf64raw m 0 - Spec.gauss3 0 =
          ((-7 / 9000000000000000 : ℝ) : ℂ) + ((1e-15 : ℝ) : ℂ) * I := by
        simp only [Finset.sum_range_succ, Finset.sum_range_zero, cf64raw, Spec.gauss3]; push_cast; norm_num; ring_nf
      rw [this]; exact nn _ _ (by rw [abs_le]; norm_num) (by rw [abs_le]; norm_num)
    · have : ∑ m ∈ Finset.range 4, cf64raw m 1 - Spec.gauss3 1 =
          ((-1 / 2250000000000000 : ℝ) : ℂ) + ((0 : ℝ) : ℂ) * I := by
        simp only [Finset.sum_range_succ, Finset.sum_range_zero, cf64raw, Spec.gauss3]; push_cast; norm_num; ring_nf
      rw [this]; exact nn _ _ (by rw [abs_le]; norm_num) (by rw [abs_le]; norm_num)
    · have : ∑ m ∈ Finset.range 4, cf64raw m 2 - Spec.gauss3 2 =
          ((-7 / 9000000000000000 : ℝ) : ℂ) + ((1e-15 : ℝ) : ℂ) * I := by
        simp only [Finset.sum_range_succ, Finset.sum_range_zero, cf64raw, Spec.gauss3]; push_cast; norm_num; ring_nf
      rw [this]; exact nn _ _ (by rw [abs_le]; norm_num) (by rw [abs_le]; norm_num)

end FNFT

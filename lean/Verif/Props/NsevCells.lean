import Verif.Proofs.CellSol
import Verif.Props.NsevConv
import Verif.Props.NsevBound
/-!
# `fnft_nsev` with the exponential method is exact for piecewise constant signals
-/
set_option linter.unusedSectionVars false
namespace FNFT
open Complex AknsDisc Set
open FNFT.Conv

variable {D : ℕ} {qb : Buf ℂ} {x : ℕ → ℂ} {T0 T1 : ℝ} {kappa : ℤ} {o : NsevOpts}

/-- C79. Every piecewise constant signal has scattering coefficients, and they are unique. -/
theorem C79_exists (q r : ℕ → ℂ) (T0 : ℝ) {eps : ℝ} (he : 0 < eps) (D : ℕ) (l : ℂ) :
    ∃ A B, Spec.CellScattering q r T0 eps D l A B ∧ ∀ A' B', Spec.CellScattering q r T0 eps D l A' B' → A' = A ∧ B' = B := by
  obtain ⟨A, B, h⟩ := cells_exist q r T0 he D l
  refine ⟨A, B, h, fun A' B' h' => ?_⟩
  have k1 := cells_chain he rfl h (fun _ _ => rfl)
  have k2 := cells_chain he rfl h' (fun _ _ => rfl)
  exact ⟨k2.1.symm.trans k1.1, k2.2.symm.trans k1.2⟩

/-- One step is exact, unless the determinant is so small that a Taylor polynomial is used. -/
theorem bo_exact {E : Spec.M2 → Spec.M2} (hE : Spec.NearExp E) {eps : ℝ} {q r : ℕ → ℂ} {l : ℂ} {n : ℕ}
    (h : (eps : ℂ) ^ 2 * (l ^ 2 - q n * r n) = 0 ∨ 1e-16 ≤ ‖(eps : ℂ) ^ 2 * (l ^ 2 - q n * r n)‖) :
    Spec.slowStep E .BO eps (Spec.cfWeight .BO) q r l n = NormedSpace.exp ((eps : ℂ) • Spec.aknsP (q n) (r n) l) := by
  have e : ((eps : ℂ) • Spec.aknsP (q n) (r n) l).det = (eps : ℂ) ^ 2 * (l ^ 2 - q n * r n) := by
    rw [Matrix.det_fin_two]; simp [Spec.aknsP]
    linear_combination (-(eps : ℂ) ^ 2 * l ^ 2) * Complex.I_sq
  have hreg : Spec.Regular .BO eps (Spec.cfWeight .BO) (fun _ => q n) (fun _ => r n) l 1 := by
    intro m hm X hX
    simp only [Spec.slowExponents, Spec.cfWeight, one_mul, List.mem_singleton] at hX
    rw [hX, e]
    exact h
  have := slowStep_exact hE hreg (n := 0) (by norm_num)
  simpa [Spec.slowStep, Spec.cfWeight] using this

/-- C79. Let the signal have the constant value `x n` on the interval of length `h` around the `n`-th sample point. Whenever `fnft_nsev` reports success with the discretization `BO`
(and no Richardson extrapolation), the values it wrote for the grid point `ξ_i` are exactly those for the scattering coefficients `A`, `B` of this signal at `ξ_i`.
Exception: a determinant `h² (ξ² + κ |x n|²)` that is not zero but smaller than `1e-16`. -/
theorem C79_continuous_spectrum (h : Spec.NsevArgs D qb x T0 T1 kappa o .BO) {M : ℕ} {XI0 XI1 : ℝ} {c : Buf ℂ}
    (hc : Spec.ContReq D M XI0 XI1 o .BO c) (hrich : o.rich ≠ 1) {s : NsevSt} (hs : s.contspec = some c)
    (hr : Spec.NsevReq kappa o (some (XI0, XI1)) s) (roots : RootFinder) (g : ℕ → Garbage) (s' : NsevSt) (o' : NsevOpts)
    (hrun : fnft_nsev roots D (some qb) (some (T0, T1)) M (some (XI0, XI1)) kappa o g s = some (SUCCESS, s', o')) :
    ∃ c', s'.contspec = some c' ∧ ∀ i, i < M → ∀ A B,
      let eps := (T1 - T0) / (D - 1)
      let xi := Spec.grid XI0 XI1 M i
      (∀ n, n < D → eps ^ 2 * (xi ^ 2 + kappa * ‖x n‖ ^ 2) = 0 ∨ 1e-16 ≤ |eps ^ 2 * (xi ^ 2 + kappa * ‖x n‖ ^ 2)|) →
      Spec.CellScattering x (fun n => -(kappa : ℂ) * (starRingEnd ℂ) (x n)) T0 eps D xi A B → Spec.ContClose o.cs M i A B 0 c' := by
  obtain ⟨qf, rf, U, h1, h2, h3⟩ := C41_any_request h hc hrich hs hr
  obtain ⟨-, c', e1, e2⟩ := h3 roots g s' o' hrun
  have u1 : akns_upsampling_factor .BO = 1 := rfl
  have u2 : ∀ N, Spec.slowCount .BO N = N := fun _ => rfl
  rw [Spec.Processed, if_pos u1] at h1
  refine ⟨c', e1, ?_⟩
  intro i hi A B eps xi hreg hS
  have hD' : (2 : ℝ) ≤ D := by exact_mod_cast h.hD
  have hpos : 0 < eps := div_pos (by linarith [h.hT]) (by linarith)
  have hT : T1 = T0 + (D - 1) * eps := by
    show T1 = T0 + (D - 1) * ((T1 - T0) / (D - 1))
    have : (D : ℝ) - 1 ≠ 0 := by linarith
    field_simp; ring
  obtain ⟨E, hE, hU⟩ := h2.1 (Or.inl rfl)
  have key := cells_chain hpos hT hS (U := U xi) fun n hn => ?_
  · refine contWritten_close hc.hcs e2 hi ?_ ?_
    · simp only [Spec.gridA, u1, mul_one, u2]
      rw [key.1]; simp
    · simp only [Spec.gridB, u1, mul_one, u2]
      rw [key.2]; simp
  · obtain ⟨g1, g2⟩ := h1 n hn
    rw [one_mul] at g1 g2
    have e3 : ((eps : ℂ) ^ 2 * ((xi : ℂ) ^ 2 - qf n * rf n)) = ((eps ^ 2 * (xi ^ 2 + kappa * ‖x n‖ ^ 2) : ℝ) : ℂ) := by
      rw [g1, g2]
      push_cast
      rw [← Complex.mul_conj']
      ring
    rw [hU, bo_exact hE, g1, g2]
    rw [e3, Complex.norm_real, Real.norm_eq_abs, Complex.ofReal_eq_zero]
    exact hreg n hn

/-- C79, norming constants. Let `b` be the norming constant that the routine determines for a bound state `l` (all methods with the base method `BO`), and let the coefficient `a` of the
piecewise constant signal vanish at `l`. Then `b` is the coefficient `B` of the signal. Exceptions: there is no boundary at which all components of the solutions are different from zero (then the entry
is not changed), and small determinants. -/
theorem C79_norming_constant {E : Spec.M2 → Spec.M2} (hE : Spec.NearExp E) {D : ℕ} {eps : ℝ} (he : 0 < eps) (hT : T1 = T0 + (D - 1) * eps) {qf rf : ℕ → ℂ} {l : ℂ} {old : Option ℂ} {b : ℂ}
    (hb : Spec.NormConst E .BO D D T0 T1 eps qf rf l old b)
    (hreg : ∀ n, n < D → (eps : ℂ) ^ 2 * (l ^ 2 - qf n * rf n) = 0 ∨ 1e-16 ≤ ‖(eps : ℂ) ^ 2 * (l ^ 2 - qf n * rf n)‖)
    {B : ℂ} (hS : Spec.CellScattering qf rf T0 eps D l 0 B) :
    Spec.NoBoundary NormedSpace.exp .BO D D T0 T1 eps qf rf l ∧ some b = old ∨ b = B := by
  have hreg' : Spec.Regular .BO eps (Spec.cfWeight .BO) qf rf l (Spec.slowCount .BO D) := by
    intro n hn X hX
    simp only [Spec.slowExponents, Spec.cfWeight, one_mul, List.mem_singleton] at hX
    have e : ((eps : ℂ) • Spec.aknsP (qf n) (rf n) l).det = (eps : ℂ) ^ 2 * (l ^ 2 - qf n * rf n) := by
      rw [Matrix.det_fin_two]; simp [Spec.aknsP]
      linear_combination (-(eps : ℂ) ^ 2 * l ^ 2) * Complex.I_sq
    rw [hX, e]
    exact hreg n hn
  have hU : ∀ n, n < D → Spec.slowStep NormedSpace.exp .BO eps (Spec.cfWeight .BO) qf rf l n = NormedSpace.exp ((eps : ℂ) • Spec.aknsP (qf n) (rf n) l) := by
    intro n _
    simp [Spec.slowStep, Spec.cfWeight]
  have key := cells_chain he hT hS hU
  rcases C44_norming_constant hE (Or.inl rfl) (by simp [akns_upsampling_factor]) hb hreg' key.1 with h | ⟨h, -⟩
  · exact Or.inl h
  · exact Or.inr (h.trans key.2)

/-! ### The conditions can be met -/

/-- Three samples, the method `BO`, all three kinds of values at the frequencies 1 and 2; the determinants are large enough. -/
example : let o := { nsev_default_opts with disc := .BO, cs := .BOTH }
    Spec.NsevArgs 3 (Buf.ofList [1, 2 * I, 4]) (fun i => [1, 2 * I, 4].getD i 0) (-1) 1 1 o .BO ∧ Spec.ContReq 3 2 1 2 o .BO (Buf.malloc 6) ∧ o.rich ≠ 1 ∧
      Spec.NsevReq 1 o (some (1, 2)) ⟨some (Buf.malloc 6), none, none, none⟩ ∧
      ∀ i, i < 2 → ∀ n, n < 3 → 1e-16 ≤ |((1 - (-1)) / ((3 : ℕ) - 1) : ℝ) ^ 2 * (Spec.grid 1 2 2 i ^ 2 + (1 : ℤ) * ‖([1, 2 * I, 4] : List ℂ).getD n 0‖ ^ 2)| := by
  intro o
  refine ⟨{ hd := rfl, hD := by norm_num, hCF := fun h => (by norm_num), hsize := by decide
            hq := by intro i hi; have : i < 3 := by omega
                     interval_cases i <;> rfl
            hT := by norm_num, hk := rfl, hal := fun h => by cases h },
    { hM := by norm_num, hXI := by norm_num, hsz := by unfold Spec.ContSize; decide, hcs := fun n h => (by cases h), hlen := by decide }, by decide,
    ⟨fun _ => ⟨_, rfl, by norm_num⟩, (fun h => by simp at h), (fun _ h => by simp at h)⟩, fun i hi n hn => ?_⟩
  have hg : 1 ≤ Spec.grid 1 2 2 i := by interval_cases i <;> norm_num [Spec.grid]
  have h1 : 1 ≤ Spec.grid 1 2 2 i ^ 2 := by nlinarith
  rw [abs_of_nonneg (by positivity)]
  refine le_trans ?_ (mul_le_mul_of_nonneg_left (h1.trans (le_add_of_nonneg_right (by positivity))) (by positivity))
  norm_num

end FNFT

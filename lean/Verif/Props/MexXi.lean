import Verif.Model.MexXi
import Verif.Props.Mex
import Verif.Props.NsevInvGrid
/-!
# The MATLAB interface of `fnft_nsev_inverse_XI`
-/
namespace FNFT
open Spec Complex

/-- A number that rounds to the natural number `n` (halves are rounded up). -/
def Spec.RoundsTo (x : ℝ) (n : ℕ) : Prop := (n : ℝ) - 1 / 2 ≤ x ∧ x < n + 1 / 2 ∧ -(1 / 2) < x

theorem roundU_of {x : ℝ} {n : ℕ} (h : RoundsTo x n) : roundU x = some n := by
  obtain ⟨h1, h2, h3⟩ := h
  rw [roundU, if_neg (not_le.mpr h3)]
  congr 1
  rw [Nat.floor_eq_iff (by linarith)]
  constructor <;> linarith

/-- A real row vector that is returned: `1×n`, with the values `v`. -/
def Spec.RealRow (a : Option MxRealMat) (n : ℕ) (v : ℕ → ℝ) : Prop :=
  ∃ m, a = some m ∧ m.rows = 1 ∧ m.cols = n ∧ m.val.len = n ∧ ∀ i, i < n → m.val.rd i = some (v i)

theorem xi_run {nlhs : ℕ} (hnl : 1 ≤ nlhs) {a T b : MxArray} {rest : List MxArray} {x y : ℝ} {t : ℕ → ℝ} {D M : ℕ} (ha : IsNumber a x) (hx : RoundsTo x D) (hT : IsRow T 2 t)
    (hb : IsNumber b y) (hy : RoundsTo y M) {X : ℝ × ℝ} (hrun : fnft_nsev_inverse_XI D (some (t 0, t 1)) M (some (0, 0)) inv_default_opts.disc = some (SUCCESS, some X)) (hM : nlhs = 1 ∨ M ≠ 1) :
    ∃ p, mex_fnft_nsev_inverse_XI nlhs (a :: T :: b :: rest) = some (.ok p) ∧ p.len = nlhs ∧ RealRow (p.rd 0) 2 (fun i => if i = 0 then X.1 else X.2) ∧
      (2 ≤ nlhs → RealRow (p.rd 1) M fun j => X.1 + j * ((X.2 - X.1) / ((M : ℝ) - 1))) := by
  unfold mex_fnft_nsev_inverse_XI
  rw [if_neg (by omega)]
  simp only []
  rw [if_neg (by simp [(isScalar_of ha).1]), if_neg (by simp [isRow_of hT]), if_neg (by simp [(isScalar_of hb).1])]
  simp only [(isScalar_of ha).2, (isScalar_of hb).2, mxPair_of hT, roundU_of hx, roundU_of hy, hrun, Option.bind_eq_bind, Option.bind_some, ne_eq, not_true, if_false]
  obtain ⟨p, e1, e2, e3, e4⟩ := Buf.wr_spec (b := (Buf.malloc (max nlhs 1) : Buf MxRealMat)) (i := 0) ⟨1, 2, Buf.ofList [X.1, X.2]⟩ (by simp [Buf.malloc])
  have hlen : p.len = nlhs := by rw [e2]; simp [Buf.malloc]; omega
  rw [e1]
  simp only [Option.bind_some]
  have r0 : RealRow (some ⟨1, 2, Buf.ofList [X.1, X.2]⟩) 2 (fun i => if i = 0 then X.1 else X.2) := by
    refine ⟨_, rfl, rfl, rfl, rfl, fun i hi => ?_⟩
    have : i = 0 ∨ i = 1 := by omega
    rcases this with rfl | rfl <;> rfl
  by_cases h2 : nlhs ≥ 2
  · rw [if_pos h2, mxGrid, if_neg (by omega)]
    obtain ⟨g, f1, f2, f3⟩ := fill_spec (off := 0) (cnt := M) (f := fun i => some (X.1 + i * ((X.2 - X.1) / ((M : ℝ) - 1)))) (b := (Buf.calloc M : Buf ℝ)) (fun i => X.1 + i * ((X.2 - X.1) / ((M : ℝ) - 1)))
      (fun i _ _ => rfl) (Or.inl (by simp [Buf.calloc]))
    simp only [Option.bind_eq_bind, Option.bind_some, f1]
    obtain ⟨p', g1, g2, g3, g4⟩ := Buf.wr_spec (b := p) (i := 1) ⟨1, M, g⟩ (by omega)
    rw [g1]
    refine ⟨p', rfl, by rw [g2, hlen], by rw [g4 0 (by omega), e3]; exact r0, fun _ => ⟨_, g3, rfl, rfl, by rw [f2]; rfl, fun i hi => ?_⟩⟩
    rw [f3, if_pos ⟨Nat.zero_le _, by omega⟩]
  · rw [if_neg h2]
    exact ⟨p, rfl, hlen, by rw [e3]; exact r0, fun h => absurd h h2⟩

/-- C84. A correct call `[XI, xi] = mex_fnft_nsev_inverse_XI(D, T, M)` with an even number `M` succeeds. `XI` are the bounds that `fnft_nsev_inverse_XI` returns for the default discretization, and `xi` is an increasing grid
of `M` equidistant frequencies from `XI(1)` to `XI(2)`, which `z = exp(2i ξ ε)`, `ε = (T(2)-T(1))/(D-1)`, maps to all `M`-th roots of unity, starting next to `-1`. -/
theorem C84_inverse_XI {nlhs : ℕ} (hnl : 1 ≤ nlhs) {a T b : MxArray} {rest : List MxArray} {x y : ℝ} {t : ℕ → ℝ} {D M : ℕ} (ha : IsNumber a x) (hx : RoundsTo x D) (hD : 2 ≤ D) (hT : IsRow T 2 t)
    (ht : t 0 < t 1) (hb : IsNumber b y) (hy : RoundsTo y M) (hM : 2 ≤ M) (hev : M % 2 = 0) :
    ∃ (p : Buf MxRealMat) (X0 X1 : ℝ) (xi : ℕ → ℝ), mex_fnft_nsev_inverse_XI nlhs (a :: T :: b :: rest) = some (.ok p) ∧ p.len = nlhs ∧ X0 < X1 ∧
      fnft_nsev_inverse_XI D (some (t 0, t 1)) M (some (0, 0)) inv_default_opts.disc = some (SUCCESS, some (X0, X1)) ∧
      RealRow (p.rd 0) 2 (fun i => if i = 0 then X0 else X1) ∧ (2 ≤ nlhs → RealRow (p.rd 1) M xi) ∧
      xi 0 = X0 ∧ xi (M - 1) = X1 ∧ (∀ j, xi (j + 1) - xi j = (X1 - X0) / ((M : ℝ) - 1)) ∧
      (∀ j, j < M → exp (2 * I * (xi j : ℂ) * ((t 1 - t 0) / ((D : ℝ) - 1) : ℝ)) = -exp (2 * Real.pi * I / M) ^ (j + 1)) ∧
      ∀ z : ℂ, z ^ M = 1 → ∃ j, j < M ∧ exp (2 * I * (xi j : ℂ) * ((t 1 - t 0) / ((D : ℝ) - 1) : ℝ)) = z := by
  obtain ⟨X0, X1, e1, e2, -, -, e3, e4⟩ := C64_grid D M hD hM hev (t 0) (t 1) ht inv_default_opts.disc .D2SPLIT2A rfl (by decide) (0, 0)
  have hd : Spec.degree1step .D2SPLIT2A = 1 := by simp [Spec.degree1step, akns_degree, akns_upsampling_factor]
  rw [hd] at e3 e4
  simp only [Nat.cast_one, div_one] at e3 e4
  obtain ⟨p, f1, f2, f3, f4⟩ := xi_run hnl (rest := rest) ha hx hT hb hy e1 (Or.inr (by omega))
  have hM' : ((M : ℝ) - 1) ≠ 0 := by
    have : (2 : ℝ) ≤ M := by exact_mod_cast hM
    intro h; linarith
  refine ⟨p, X0, X1, fun j => X0 + j * ((X1 - X0) / ((M : ℝ) - 1)), f1, f2, e2, e1, f3, f4, by simp, ?_, fun j => by push_cast; ring, e3, e4⟩
  simp only
  rw [Nat.cast_sub (by omega), Nat.cast_one]
  field_simp
  ring

/-- C84. If the number of samples is below two, there is no frequency, or `T(1) < T(2)` does not hold, then the error of the C routine is reported. -/
theorem C84_inverse_XI_error {nlhs : ℕ} (hnl : 1 ≤ nlhs) {a T b : MxArray} {rest : List MxArray} {x y : ℝ} {t : ℕ → ℝ} {D M : ℕ} (ha : IsNumber a x) (hx : RoundsTo x D) (hT : IsRow T 2 t)
    (hb : IsNumber b y) (hy : RoundsTo y M) (h : D < 2 ∨ M = 0 ∨ t 1 ≤ t 0) :
    mex_fnft_nsev_inverse_XI nlhs (a :: T :: b :: rest) = some (.error (.failed EC_INVALID_ARGUMENT)) := by
  have hrun := (C64_rejects D M (some (t 0, t 1)) (some (0, 0)) inv_default_opts.disc).1 (by
    rcases h with h | h | h
    · exact Or.inl h
    · exact Or.inr (Or.inl h)
    · exact Or.inr (Or.inr (Or.inr (Or.inr ⟨_, _, rfl, h⟩))))
  unfold mex_fnft_nsev_inverse_XI
  rw [if_neg (by omega)]
  simp only []
  rw [if_neg (by simp [(isScalar_of ha).1]), if_neg (by simp [isRow_of hT]), if_neg (by simp [(isScalar_of hb).1])]
  simp only [(isScalar_of ha).2, (isScalar_of hb).2, mxPair_of hT, roundU_of hx, roundU_of hy, hrun, Option.bind_eq_bind, Option.bind_some]
  rfl

/-- C84. Missing inputs and inputs of the wrong kind are reported. -/
theorem C84_inverse_XI_rejects {nlhs : ℕ} (hnl : 1 ≤ nlhs) {prhs : List MxArray} (hv : ∀ a ∈ prhs, MxValid a)
    (h : ¬ ∃ a T b rest x y t, prhs = a :: T :: b :: rest ∧ IsNumber a x ∧ IsRow T 2 t ∧ IsNumber b y) :
    mex_fnft_nsev_inverse_XI nlhs prhs = some (.error .usage) := by
  unfold mex_fnft_nsev_inverse_XI
  rw [if_neg (by omega)]
  rcases prhs with _ | ⟨a, _ | ⟨T, _ | ⟨b, rest⟩⟩⟩
  · rfl
  · rfl
  · rfl
  simp only []
  by_cases h1 : a.isScalar
  swap
  · rw [if_pos h1]
  by_cases h2 : T.isRow 2
  swap
  · rw [if_neg (not_not.mpr h1), if_pos h2]
  by_cases h3 : b.isScalar
  swap
  · rw [if_neg (not_not.mpr h1), if_neg (not_not.mpr h2), if_pos h3]
  exfalso
  obtain ⟨x, g1, -⟩ := isScalar_ok (hv a (by simp)) h1
  obtain ⟨t, g2⟩ := isRow_ok (hv T (by simp)) h2
  obtain ⟨y, g3, -⟩ := isScalar_ok (hv b (by simp)) h3
  exact h ⟨a, T, b, rest, x, y, t, rfl, g1, g2, g3⟩

/-- C84. For `M = 1` the grid that is requested as a second output is computed with a division by zero (it becomes NaN in C, and the model stops), although the C routine succeeds; `XI` alone is delivered. -/
theorem C84_inverse_XI_one {nlhs : ℕ} (hnl : 2 ≤ nlhs) {a T b : MxArray} {rest : List MxArray} {x y : ℝ} {t : ℕ → ℝ} {D : ℕ} (ha : IsNumber a x) (hx : RoundsTo x D) (hD : 2 ≤ D) (hT : IsRow T 2 t)
    (ht : t 0 < t 1) (hb : IsNumber b y) (hy : RoundsTo y 1) :
    ∃ X, fnft_nsev_inverse_XI D (some (t 0, t 1)) 1 (some (0, 0)) inv_default_opts.disc = some (SUCCESS, some X) ∧ mex_fnft_nsev_inverse_XI nlhs (a :: T :: b :: rest) = none ∧
      ∃ p, mex_fnft_nsev_inverse_XI 1 (a :: T :: b :: rest) = some (.ok p) ∧ p.len = 1 ∧ RealRow (p.rd 0) 2 (fun i => if i = 0 then X.1 else X.2) := by
  have e1 := inv_XI_value (M := 1) hD (by norm_num) ht (d := inv_default_opts.disc) (a := .D2SPLIT2A) rfl (by decide) (0, 0) (by norm_num) (by norm_num)
  obtain ⟨p, f1, f2, f3, -⟩ := xi_run le_rfl (rest := rest) ha hx hT hb hy e1 (Or.inl rfl)
  refine ⟨_, e1, ?_, p, f1, f2, f3⟩
  unfold mex_fnft_nsev_inverse_XI
  rw [if_neg (by omega)]
  simp only []
  rw [if_neg (by simp [(isScalar_of ha).1]), if_neg (by simp [isRow_of hT]), if_neg (by simp [(isScalar_of hb).1])]
  simp only [(isScalar_of ha).2, (isScalar_of hb).2, mxPair_of hT, roundU_of hx, roundU_of hy, e1, Option.bind_eq_bind, Option.bind_some, ne_eq, not_true, if_false]
  refine Option.bind_eq_none_iff.mpr fun p' _ => ?_
  rw [if_pos hnl]
  simp [mxGrid]

/-- C84. `fnft_version` returns the configured version, and writes at most nine characters to `suffix`; a NULL pointer among the first three arguments is reported, and nothing is written. -/
theorem C84_version (M m p : ℕ) (fmt : List Char) (x y z : Option ℕ) (s : List Char) :
    (x ≠ none → y ≠ none → z ≠ none → fmt.length ≤ 8 → fnft_version M m p fmt x y z (some s) = some (SUCCESS, some M, some m, some p, some fmt)) ∧
    (x = none ∨ y = none ∨ z = none → fnft_version M m p fmt x y z (some s) = some (EC_INVALID_ARGUMENT, x, y, z, some s)) ∧
    (∀ ec X Y Z s', fnft_version M m p fmt x y z (some s) = some (ec, X, Y, Z, some s') → s' = s ∨ s'.length + 1 ≤ 9) ∧
    (8 < fmt.length → ∃ ec r, fnft_version M m p fmt x y z (some s) = some (ec, r) ∧ ec ≠ SUCCESS) := by
  unfold fnft_version
  refine ⟨fun h1 h2 h3 h4 => ?_, fun h => by rw [if_pos h], fun ec X Y Z s' h => ?_, fun h => ?_⟩
  · rw [if_neg (by tauto)]
    simp only
    rw [if_neg (by omega), List.take_of_length_le h4]
  · split_ifs at h with h1 h2
    · left; simp_all
    · right; simp only [Option.some.injEq, Prod.mk.injEq] at h; rw [← h.2.2.2.2, List.length_take]; omega
    · right; simp only [Option.some.injEq, Prod.mk.injEq] at h; rw [← h.2.2.2.2, List.length_take]; omega
  · split_ifs
    · exact ⟨_, _, rfl, by decide⟩
    · exact ⟨_, _, rfl, by decide⟩

/-- C84. `mex_fnft_version` without inputs prints the version or returns its four parts; every other call is an error. -/
theorem C84_mex_version (M m p : ℕ) (s : String) (nlhs nrhs : ℕ) :
    mex_fnft_version M m p s 0 0 = .printed M m p s ∧ mex_fnft_version M m p s 4 0 = .outputs M m p s ∧
    (¬ (nrhs = 0 ∧ (nlhs = 0 ∨ nlhs = 4)) → mex_fnft_version M m p s nlhs nrhs = .error) := by
  refine ⟨rfl, rfl, fun h => ?_⟩
  unfold mex_fnft_version
  split_ifs <;> first | rfl | (exfalso; omega)

/-- A call that meets the hypotheses of `C84_inverse_XI`: `D = 256`, `T = [0, 1]`, `M = 512`. -/
example : ∃ (a T b : MxArray) (x y : ℝ) (t : ℕ → ℝ), IsNumber a x ∧ RoundsTo x 256 ∧ IsRow T 2 t ∧ t 0 < t 1 ∧ IsNumber b y ∧ RoundsTo y 512 :=
  ⟨⟨.double, false, 1, 1, Buf.ofList [256], Buf.malloc 0, ""⟩, ⟨.double, false, 1, 2, Buf.ofList [0, 1], Buf.malloc 0, ""⟩, ⟨.double, false, 1, 1, Buf.ofList [512], Buf.malloc 0, ""⟩,
    256, 512, fun i => i, ⟨rfl, rfl, rfl⟩, ⟨by norm_num, by norm_num, by norm_num⟩, ⟨rfl, rfl, rfl, fun i hi => by
      have : i = 0 ∨ i = 1 := by omega
      rcases this with rfl | rfl <;> simp [Buf.ofList, Buf.rd]⟩, by norm_num, ⟨rfl, rfl, rfl⟩, ⟨by norm_num, by norm_num, by norm_num⟩⟩

end FNFT

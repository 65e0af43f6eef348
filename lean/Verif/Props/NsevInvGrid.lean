import Verif.Model.NsevInv
import Verif.Proofs.NsevFast
import Mathlib.RingTheory.RootsOfUnity.Complex
/-!
# C64: the grid of frequencies of `fnft_nsev_inverse_XI`
-/
namespace FNFT
open Complex

theorem log_exp_re {x : ℝ} (h1 : -Real.pi < x) (h2 : x ≤ Real.pi) : log (exp (x * I)) = x * I := by
  apply log_exp <;> simpa

theorem inv_XI_value {D M : ℕ} (hD : 2 ≤ D) (hM : 1 ≤ M) {T0 T1 : ℝ} (hT : T0 < T1) {d : NseDisc} {a : AknsDisc} (hd : nse_to_akns d = .ok a)
    (hdeg : akns_degree a ≠ 0) (XI : ℝ × ℝ) (hlt : ((M / 2 + 1 : ℕ) : ℝ) ≤ (M : ℝ)) (h' : (M : ℝ) < 2 * ((M / 2 + 1 : ℕ) : ℝ)) :
    fnft_nsev_inverse_XI D (some (T0, T1)) M (some XI) d = some (SUCCESS,
      some (Real.pi * (2 * ((M / 2 + 1 : ℕ) : ℝ) / M - 2) * Spec.degree1step a / (2 * ((T1 - T0) / ((D : ℝ) - 1))),
        Real.pi * Spec.degree1step a / (2 * ((T1 - T0) / ((D : ℝ) - 1))))) := by
  have hM0 : (0 : ℝ) < M := by exact_mod_cast hM
  have hpi := Real.pi_pos
  have hdd : ((D : ℝ) - 1) > 0 := by
    have : (2 : ℝ) ≤ D := by exact_mod_cast hD
    linarith
  have he : 0 < (T1 - T0) / ((D : ℝ) - 1) := div_pos (by linarith) hdd
  set eps := (T1 - T0) / ((D : ℝ) - 1) with heps
  have hs : (Spec.degree1step a : ℝ) ≠ 0 := by
    have hu : akns_upsampling_factor a ≠ 0 := by
      cases a <;> simp [akns_degree, akns_upsampling_factor] at hdeg ⊢
    unfold Spec.degree1step
    exact_mod_cast Nat.mul_ne_zero hdeg hu
  set n : ℕ := M / 2 + 1 with hn
  have hv : (Buf.ofList [exp (2 * Real.pi * I * (n : ℂ) / M), (-1 : ℂ)]).Holds 0 2
      (fun i => if i = 0 then exp (2 * Real.pi * I * (n : ℂ) / M) else -1) := by
    intro i hi
    interval_cases i <;> simp [Buf.ofList, Buf.rd]
  obtain ⟨b, h1, -, h3⟩ := nse_z_to_lambda_ok (eps := eps) hd hdeg hv (by
    intro i _
    split
    · exact exp_ne_zero _
    · norm_num)
  have r0 := h3 0 (by norm_num)
  have r1 := h3 1 (by norm_num)
  simp only [Nat.zero_add, if_true, one_ne_zero, if_false] at r0 r1
  unfold fnft_nsev_inverse_XI
  rw [if_neg (by omega), if_neg (by omega)]
  dsimp only
  rw [if_neg (not_not.mpr hT), ← heps, h1]
  simp only [Option.bind_eq_bind, Option.bind_some, r0, r1]
  have e0 : log (exp (2 * Real.pi * I * (n : ℂ) / M)) = ((Real.pi * (2 * (n : ℝ) / M - 2) : ℝ) : ℂ) * I := by
    rw [← log_exp_re (x := Real.pi * (2 * (n : ℝ) / M - 2))]
    · congr 1
      rw [exp_eq_exp_iff_exists_int]
      refine ⟨1, ?_⟩
      have : (M : ℂ) ≠ 0 := by exact_mod_cast hM0.ne'
      push_cast
      field_simp
      ring
    · have : 1 < 2 * (n : ℝ) / M := by rw [lt_div_iff₀ hM0]; linarith
      nlinarith
    · have : 2 * (n : ℝ) / M ≤ 2 := by rw [div_le_iff₀ hM0]; linarith
      nlinarith
  have hI : ∀ x : ℝ, (x : ℂ) * I / (2 * I * eps / (Spec.degree1step a : ℂ)) = ((x * Spec.degree1step a / (2 * eps) : ℝ) : ℂ) := by
    intro x
    have h1 : (eps : ℂ) ≠ 0 := by exact_mod_cast he.ne'
    have h2 : (Spec.degree1step a : ℂ) ≠ 0 := by exact_mod_cast hs
    push_cast
    field_simp [I_ne_zero]
  have l1 : log (-1 : ℂ) = (Real.pi : ℂ) * I := by rw [log_neg_one]
  rw [e0, l1, hI, hI, ofReal_re, ofReal_re]
  rfl

/-- C64: the grid of frequencies. For every polynomial discretization, even `M ≥ 2`, `D ≥ 2` and interval, `fnft_nsev_inverse_XI` succeeds, and the `M` equidistant
points between `XI[0]` and `XI[1]` are the points `ξ_j = (2(j+1)/M - 1) π/(2 ε/degree)`, i.e. they are equidistant, lie between the two Nyquist bounds,
and their images under `z = exp(2 i ξ ε/degree)` are the `M`-th roots of unity, in the order `-w, -w², ..., -w^M` with `w = exp(2πi/M)`. -/
theorem C64_grid (D M : ℕ) (hD : 2 ≤ D) (hM : 2 ≤ M) (hev : M % 2 = 0) (T0 T1 : ℝ) (hT : T0 < T1) (d : NseDisc) (a : AknsDisc) (hd : nse_to_akns d = .ok a)
    (hdeg : akns_degree a ≠ 0) (XI : ℝ × ℝ) :
    ∃ X0 X1 : ℝ, fnft_nsev_inverse_XI D (some (T0, T1)) M (some XI) d = some (SUCCESS, some (X0, X1)) ∧ X0 < X1 ∧
      X1 = Real.pi * Spec.degree1step a / (2 * ((T1 - T0) / ((D : ℝ) - 1))) ∧
      (∀ j, j < M → X0 + j * ((X1 - X0) / ((M : ℝ) - 1)) = (2 * ((j : ℝ) + 1) / M - 1) * X1) ∧
      (∀ j, j < M → exp (2 * I * ((X0 + j * ((X1 - X0) / ((M : ℝ) - 1)) : ℝ) : ℂ) * ((T1 - T0) / ((D : ℝ) - 1) : ℝ) / Spec.degree1step a) =
        -exp (2 * Real.pi * I / M) ^ (j + 1)) ∧
      ∀ z : ℂ, z ^ M = 1 → ∃ j, j < M ∧
        exp (2 * I * ((X0 + j * ((X1 - X0) / ((M : ℝ) - 1)) : ℝ) : ℂ) * ((T1 - T0) / ((D : ℝ) - 1) : ℝ) / Spec.degree1step a) = z := by
  obtain ⟨m, rfl⟩ : ∃ m, M = 2 * m := ⟨M / 2, by omega⟩
  have hm : 1 ≤ m := by omega
  have hmr : (0 : ℝ) < m := by exact_mod_cast hm
  have hm1 : (1 : ℝ) ≤ m := by exact_mod_cast hm
  have hpi := Real.pi_pos
  have hq : 2 * m / 2 + 1 = m + 1 := by omega
  have hdd : ((D : ℝ) - 1) > 0 := by
    have : (2 : ℝ) ≤ D := by exact_mod_cast hD
    linarith
  have he : 0 < (T1 - T0) / ((D : ℝ) - 1) := div_pos (by linarith) hdd
  have hs : 0 < (Spec.degree1step a : ℝ) := by
    have hu : akns_upsampling_factor a ≠ 0 := by
      cases a <;> simp [akns_degree, akns_upsampling_factor] at hdeg ⊢
    unfold Spec.degree1step
    exact_mod_cast Nat.pos_of_ne_zero (Nat.mul_ne_zero hdeg hu)
  have hv := inv_XI_value (M := 2 * m) hD (by omega) hT hd hdeg XI (by rw [hq]; push_cast; linarith)
    (by rw [hq]; push_cast; linarith)
  rw [hq] at hv
  set eps := (T1 - T0) / ((D : ℝ) - 1) with heps
  set s := (Spec.degree1step a : ℝ) with hsd
  have hX1 : 0 < Real.pi * s / (2 * eps) := by positivity
  have hgrid : ∀ j : ℕ, Real.pi * (2 * ((m + 1 : ℕ) : ℝ) / ((2 * m : ℕ) : ℝ) - 2) * s / (2 * eps) + j * ((Real.pi * s / (2 * eps) -
      Real.pi * (2 * ((m + 1 : ℕ) : ℝ) / ((2 * m : ℕ) : ℝ) - 2) * s / (2 * eps)) / (((2 * m : ℕ) : ℝ) - 1)) =
      (2 * ((j : ℝ) + 1) / ((2 * m : ℕ) : ℝ) - 1) * (Real.pi * s / (2 * eps)) := by
    intro j
    have h2 : (2 * (m : ℝ) - 1) ≠ 0 := by linarith
    push_cast
    field_simp
    ring
  have hexp : ∀ j : ℕ, exp (2 * I * (((2 * ((j : ℝ) + 1) / ((2 * m : ℕ) : ℝ) - 1) * (Real.pi * s / (2 * eps)) : ℝ) : ℂ) * (eps : ℂ) / (Spec.degree1step a : ℂ)) =
      -exp (2 * Real.pi * I / ((2 * m : ℕ) : ℂ)) ^ (j + 1) := by
    intro j
    have h1 : (eps : ℂ) ≠ 0 := by exact_mod_cast he.ne'
    have h2 : (s : ℂ) ≠ 0 := by exact_mod_cast hs.ne'
    have h2' : (Spec.degree1step a : ℂ) = (s : ℂ) := by rw [hsd]; push_cast; rfl
    have h3 : (m : ℂ) ≠ 0 := by exact_mod_cast hmr.ne'
    rw [h2', ← exp_nat_mul, ← neg_one_mul, ← show exp (-(Real.pi : ℂ) * I) = -1 by rw [neg_mul, exp_neg, exp_pi_mul_I]; norm_num, ← exp_add]
    congr 1
    push_cast
    field_simp
    ring
  refine ⟨_, _, hv, ?_, rfl, fun j _ => hgrid j, fun j _ => by rw [hgrid, hexp], ?_⟩
  · have e : Real.pi * (2 * ((m + 1 : ℕ) : ℝ) / ((2 * m : ℕ) : ℝ) - 2) * s / (2 * eps) =
        (2 * ((m + 1 : ℕ) : ℝ) / ((2 * m : ℕ) : ℝ) - 2) * (Real.pi * s / (2 * eps)) := by ring
    have h2 : 2 * ((m + 1 : ℕ) : ℝ) / ((2 * m : ℕ) : ℝ) - 2 < 1 := by
      have : 2 * ((m + 1 : ℕ) : ℝ) / ((2 * m : ℕ) : ℝ) = 1 + 1 / m := by push_cast; field_simp
      have h4 : 1 / (m : ℝ) ≤ 1 := by rw [div_le_one hmr]; exact hm1
      linarith
    rw [e]
    nlinarith
  · intro z hz
    have hprim : IsPrimitiveRoot (exp (2 * Real.pi * I / ((2 * m : ℕ) : ℂ))) (2 * m) := isPrimitiveRoot_exp _ (by omega)
    have hneg : (-z) ^ (2 * m) = 1 := by rw [neg_pow, Even.neg_one_pow ⟨m, by ring⟩, one_mul, hz]
    have : NeZero (2 * m) := ⟨by omega⟩
    obtain ⟨i, hi, hiz⟩ := hprim.eq_pow_of_pow_eq_one hneg
    by_cases h0 : i = 0
    · refine ⟨2 * m - 1, by omega, ?_⟩
      rw [hgrid, hexp, show 2 * m - 1 + 1 = 2 * m by omega, hprim.pow_eq_one]
      rw [h0, pow_zero] at hiz
      rw [hiz, neg_neg]
    · refine ⟨i - 1, by omega, ?_⟩
      rw [hgrid, hexp, show i - 1 + 1 = i by omega, hiz, neg_neg]

/-- C64 (finding): for odd `M ≥ 3` the call succeeds, too, but the grid does not fit to a Fourier transform of length `M`: the image of the last grid point is
`-1`, which is not an `M`-th root of unity. (`fnft_nsev_inverse` itself rejects odd `M`.) -/
theorem C64_odd (D M : ℕ) (hD : 2 ≤ D) (hM : 3 ≤ M) (hodd : M % 2 = 1) (T0 T1 : ℝ) (hT : T0 < T1) (d : NseDisc) (a : AknsDisc) (hd : nse_to_akns d = .ok a)
    (hdeg : akns_degree a ≠ 0) (XI : ℝ × ℝ) :
    ∃ X0 X1 : ℝ, fnft_nsev_inverse_XI D (some (T0, T1)) M (some XI) d = some (SUCCESS, some (X0, X1)) ∧
      exp (2 * I * ((X0 + ((M - 1 : ℕ) : ℝ) * ((X1 - X0) / ((M : ℝ) - 1)) : ℝ) : ℂ) * ((T1 - T0) / ((D : ℝ) - 1) : ℝ) / Spec.degree1step a) ^ M ≠ 1 := by
  have hm1 : (3 : ℝ) ≤ M := by exact_mod_cast hM
  have hdd : ((D : ℝ) - 1) > 0 := by
    have : (2 : ℝ) ≤ D := by exact_mod_cast hD
    linarith
  have he : 0 < (T1 - T0) / ((D : ℝ) - 1) := div_pos (by linarith) hdd
  have hs : (Spec.degree1step a : ℝ) ≠ 0 := by
    have hu : akns_upsampling_factor a ≠ 0 := by
      cases a <;> simp [akns_degree, akns_upsampling_factor] at hdeg ⊢
    unfold Spec.degree1step
    exact_mod_cast (Nat.mul_ne_zero hdeg hu)
  refine ⟨_, _, inv_XI_value (M := M) hD (by omega) hT hd hdeg XI (by exact_mod_cast (by omega)) (by exact_mod_cast (by omega)), ?_⟩
  set eps := (T1 - T0) / ((D : ℝ) - 1) with heps
  generalize Real.pi * (2 * ((M / 2 + 1 : ℕ) : ℝ) / M - 2) * Spec.degree1step a / (2 * eps) = X0
  have e : X0 + ((M - 1 : ℕ) : ℝ) * ((Real.pi * Spec.degree1step a / (2 * eps) - X0) / ((M : ℝ) - 1)) = Real.pi * Spec.degree1step a / (2 * eps) := by
    have h2 : ((M : ℝ) - 1) ≠ 0 := by linarith
    rw [Nat.cast_sub (by omega), Nat.cast_one]
    field_simp
    ring
  rw [e]
  have h1 : (eps : ℂ) ≠ 0 := by exact_mod_cast he.ne'
  have h2 : (Spec.degree1step a : ℂ) ≠ 0 := by exact_mod_cast hs
  rw [show 2 * I * ((Real.pi * Spec.degree1step a / (2 * eps) : ℝ) : ℂ) * eps / (Spec.degree1step a : ℂ) = Real.pi * I by push_cast; field_simp, exp_pi_mul_I,
    Odd.neg_one_pow (Nat.odd_iff.mpr hodd)]
  norm_num

/-- C64: rejected calls. With `D < 2`, `M = 0`, a missing array or an empty interval nothing is stored and the code is that of an invalid argument; a
discretization without a polynomial method is rejected, too (but `XI` is overwritten). -/
theorem C64_rejects (D M : ℕ) (T XI : Option (ℝ × ℝ)) (d : NseDisc) :
    (D < 2 ∨ M = 0 ∨ XI = none ∨ T = none ∨ (∃ T0 T1, T = some (T0, T1) ∧ T1 ≤ T0) →
      fnft_nsev_inverse_XI D T M XI d = some (EC_INVALID_ARGUMENT, XI)) ∧
    (nse_degree d = 0 → ∀ r, fnft_nsev_inverse_XI D T M XI d = some r → r.1 ≠ SUCCESS) := by
  constructor
  · unfold fnft_nsev_inverse_XI
    rintro (h | h | h | h | ⟨T0, T1, h, h'⟩)
    · rw [if_pos h]
    · rw [if_pos h]; split <;> rfl
    · subst h; split <;> [rfl; (split <;> rfl)]
    · subst h; split <;> [rfl; (split <;> [rfl; (cases XI <;> rfl)])]
    · subst h
      split
      · rfl
      split
      · rfl
      cases XI
      · rfl
      · dsimp only; rw [if_pos (not_lt.mpr h')]
  · intro hd r h
    have hE : EC_INVALID_ARGUMENT ≠ SUCCESS := by decide
    have hz : ∀ e v r, nse_z_to_lambda 2 e v d = some r → r.1 ≠ SUCCESS := by
      intro e v r h
      unfold nse_z_to_lambda at h
      unfold nse_degree at hd
      cases hc : nse_to_akns d with
      | error ec =>
        rw [hc] at h
        cases h
        apply E_SUBROUTINE_ne
        rintro rfl
        cases d <;> simp [nse_to_akns, SUCCESS, EC_INVALID_ARGUMENT] at hc
      | ok a =>
        rw [hc] at h hd
        dsimp only at h hd
        unfold akns_z_to_lambda at h
        rw [if_pos hd] at h
        split_ifs at h <;> cases h <;> exact hE
    unfold fnft_nsev_inverse_XI at h
    split_ifs at h
    · cases h; exact hE
    · cases h; exact hE
    · rcases XI with - | XI
      · cases h; exact hE
      rcases T with - | ⟨T0, T1⟩
      · cases h; exact hE
      dsimp only at h
      split_ifs at h
      · cases hz' : nse_z_to_lambda 2 ((T1 - T0) / ((D : ℝ) - 1)) (Buf.ofList [exp (2 * Real.pi * I * ((M / 2 + 1 : ℕ) : ℂ) / M), -1]) d with
        | none => rw [hz'] at h; cases h
        | some R =>
          have := hz _ _ _ hz'
          rw [hz'] at h
          simp only [Option.bind_eq_bind, Option.bind_some] at h
          cases h0 : R.2.rd 0 with
          | none => rw [h0] at h; cases h
          | some x0 =>
            cases h1 : R.2.rd 1 with
            | none => rw [h0, h1] at h; cases h
            | some x1 => rw [h0, h1] at h; cases h; exact this
      · cases h; exact hE

/-- The hypotheses of C64 are met: the default discretization, 8 samples on [-1, 1], 16 frequencies. -/
example : ∃ X0 X1 : ℝ, fnft_nsev_inverse_XI 8 (some (-1, 1)) 16 (some (0, 0)) .D2SPLIT2A = some (SUCCESS, some (X0, X1)) ∧ X0 < X1 := by
  obtain ⟨X0, X1, h, h2, -⟩ := C64_grid 8 16 (by norm_num) (by norm_num) (by norm_num) (-1) 1 (by norm_num) .D2SPLIT2A .D2SPLIT2A rfl (by decide) (0, 0)
  exact ⟨X0, X1, h, h2⟩

end FNFT

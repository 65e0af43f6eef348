import Verif.Proofs.Resample
import Mathlib.Algebra.BigOperators.Field
/-!
# Property C36 (band-limited resampling)
-/
namespace FNFT
open Finset Kiss

/-! ## Specification -/

/-- The trigonometric polynomial `Σ_m c_m e^{2πi m t/P}` of period `P` with the `D` frequencies
`m = -⌈D/2⌉, …, ⌊D/2⌋-1`. -/
noncomputable def Spec.trigPoly (D : ℕ) (P : ℝ) (c : ℤ → ℂ) (t : ℝ) : ℂ :=
  ∑ m ∈ Finset.Ico (-((D - D / 2 : ℕ) : ℤ)) ((D / 2 : ℕ) : ℤ),
    c m * Complex.exp (2 * Real.pi * Complex.I * m * t / P)

/-! ## Proofs -/

theorem trigPoly_range (D : ℕ) (P : ℝ) (c : ℤ → ℂ) (t : ℝ) : Spec.trigPoly D P c t =
    ∑ k ∈ range D, c (freqIdx D k) * Complex.exp (2 * Real.pi * Complex.I * (freqIdx D k : ℤ) * t / P) := by
  symm
  refine sum_nbij' (freqIdx D) (fun m => if 0 ≤ m then m.toNat else (m + D).toNat) ?_ ?_ ?_ ?_ ?_
  · intro k hk
    have := mem_range.mp hk
    rw [Finset.mem_Ico, freqIdx]; split_ifs <;> omega
  · intro m hm
    rw [Finset.mem_Ico] at hm
    rw [mem_range]; split_ifs <;> omega
  · intro k hk
    have := mem_range.mp hk
    rw [freqIdx]; split_ifs <;> omega
  · intro m hm
    rw [Finset.mem_Ico] at hm
    rw [freqIdx]; split_ifs <;> omega
  · intro k _; rfl

/-- Frequencies are determined modulo `D` on the grid. -/
theorem exp_freqIdx {D : ℕ} (hD : 0 < D) {eps : ℝ} (he : eps ≠ 0) (k j : ℕ) :
    Complex.exp (2 * Real.pi * Complex.I * (freqIdx D k : ℤ) * ((j * eps : ℝ) : ℂ) / ((D * eps : ℝ) : ℂ)) =
      zeta D true ^ (k * j) := by
  have hD' : (D : ℂ) ≠ 0 := by exact_mod_cast hD.ne'
  have he' : (eps : ℂ) ≠ 0 := by exact_mod_cast he
  rw [zeta_pow]
  simp only [sgn, if_true]
  rw [freqIdx]
  split_ifs with h
  · congr 1; push_cast; field_simp
  · rw [Complex.exp_eq_exp_iff_exists_int]
    refine ⟨-j, ?_⟩
    push_cast; field_simp; ring

theorem resampled_trig {D : ℕ} (hD : 0 < D) {eps : ℝ} (he : eps ≠ 0) (delta : ℝ) (c : ℤ → ℂ) (x : ℕ → ℂ)
    (hx : ∀ j, j < D → x j = Spec.trigPoly D (D * eps) c (j * eps)) (j : ℕ) (_hj : j < D) :
    resampled D eps delta x j = Spec.trigPoly D (D * eps) c (j * eps + delta) := by
  have hD' : (D : ℂ) ≠ 0 := by exact_mod_cast hD.ne'
  have he' : (eps : ℂ) ≠ 0 := by exact_mod_cast he
  have hy : ∀ k, k < D → ∑ i ∈ range D, x i * zeta D false ^ (i * k) = D * c (freqIdx D k) := by
    intro k hk
    rw [← dft_inv true (fun i => c (freqIdx D i)) hk]
    refine sum_congr rfl fun i hi => ?_
    rw [hx i (mem_range.mp hi), trigPoly_range]
    congr 1
    refine sum_congr rfl fun l _ => ?_
    rw [exp_freqIdx hD he]
  rw [resampled, trigPoly_range, sum_div]
  refine sum_congr rfl fun k hk => ?_
  rw [hy k (mem_range.mp hk), ← exp_freqIdx hD he]
  rw [mul_assoc, mul_assoc, mul_comm (D : ℂ), mul_div_assoc, div_self hD', mul_one, ← Complex.exp_add]
  congr 2
  push_cast; field_simp; ring

/-- Every sequence of `D` samples is interpolated by exactly one trigonometric polynomial of the above
kind. -/
theorem C36_interpolant (D : ℕ) (hD : 0 < D) (eps : ℝ) (he : eps ≠ 0) (x : ℕ → ℂ) :
    (∃ c, ∀ j, j < D → x j = Spec.trigPoly D (D * eps) c (j * eps)) ∧
    ∀ c c', (∀ j, j < D → x j = Spec.trigPoly D (D * eps) c (j * eps)) →
      (∀ j, j < D → x j = Spec.trigPoly D (D * eps) c' (j * eps)) →
      ∀ t, Spec.trigPoly D (D * eps) c t = Spec.trigPoly D (D * eps) c' t := by
  have hD' : (D : ℂ) ≠ 0 := by exact_mod_cast hD.ne'
  constructor
  · refine ⟨fun m => (∑ i ∈ range D, x i * zeta D false ^ (i * (if 0 ≤ m then m.toNat else (m + D).toNat))) / D, ?_⟩
    intro j hj
    rw [trigPoly_range]
    have h := dft_inv false x hj
    have : x j = (D * x j) / D := by field_simp
    rw [this, ← h, sum_div]
    refine sum_congr rfl fun k hk => ?_
    rw [exp_freqIdx hD he]
    have e : (if 0 ≤ freqIdx D k then (freqIdx D k).toNat else (freqIdx D k + D).toNat) = k := by
      have := mem_range.mp hk
      rw [freqIdx]; split_ifs <;> omega
    simp only [e, Bool.not_false]
    ring
  · intro c c' h h' t
    have hy : ∀ c : ℤ → ℂ, (∀ j, j < D → x j = Spec.trigPoly D (D * eps) c (j * eps)) → ∀ k, k < D →
        ∑ i ∈ range D, x i * zeta D false ^ (i * k) = D * c (freqIdx D k) := by
      intro c hx k hk
      rw [← dft_inv true (fun i => c (freqIdx D i)) hk]
      refine sum_congr rfl fun i hi => ?_
      rw [hx i (mem_range.mp hi), trigPoly_range]
      congr 1
      refine sum_congr rfl fun l _ => ?_
      rw [exp_freqIdx hD he]
    rw [trigPoly_range, trigPoly_range]
    refine sum_congr rfl fun k hk => ?_
    have h1 := hy c h k (mem_range.mp hk)
    rw [hy c' h' k (mem_range.mp hk)] at h1
    rw [mul_left_cancel₀ hD' h1]

/-- `misc_resample` samples the interpolating trigonometric polynomial at the times `j·eps_t + delta`; it
writes `q_new[0..D)` and nothing else. -/
theorem C36_resample (D : ℕ) (hD : 3 ≤ D) (hlt : D < 2 * 3 ^ 32) (eps_t delta : ℝ) (he : eps_t ≠ 0)
    (q q_new : Buf ℂ) (x : ℕ → ℂ) (c : ℤ → ℂ) (hq : q.Holds 0 D x) (hn : D ≤ q_new.len)
    (hc : ∀ j, j < D → x j = Spec.trigPoly D (D * eps_t) c (j * eps_t)) :
    ∃ r, misc_resample D eps_t (some q) delta (some q_new) = some (SUCCESS, some r) ∧
      r.len = q_new.len ∧
      r.Holds 0 D (fun j => Spec.trigPoly D (D * eps_t) c (j * eps_t + delta)) ∧
      ∀ j, D ≤ j → r.rd j = q_new.rd j := by
  obtain ⟨r, h1, h2, h3, h4⟩ := misc_resample_ok D hD hlt eps_t delta he q q_new x hq hn
  refine ⟨r, h1, h2, fun j hj => ?_, h4⟩
  rw [h3 j hj, resampled_trig (by omega) he delta c x hc j hj]

/-- Shifting by a whole number of samples is the circular shift (`k = 0`: the signal is returned
unchanged; `k = 1`, `delta = eps_t`: shift by one sample). -/
theorem C36_circular_shift (D : ℕ) (hD : 3 ≤ D) (hlt : D < 2 * 3 ^ 32) (eps_t : ℝ) (he : eps_t ≠ 0) (k : ℤ)
    (q q_new : Buf ℂ) (x : ℕ → ℂ) (hq : q.Holds 0 D x) (hn : D ≤ q_new.len) :
    ∃ r, misc_resample D eps_t (some q) (k * eps_t) (some q_new) = some (SUCCESS, some r) ∧
      r.Holds 0 D (fun j => x (((j : ℤ) + k) % (D : ℤ)).toNat) := by
  obtain ⟨⟨c, hc⟩, -⟩ := C36_interpolant D (by omega) eps_t he x
  obtain ⟨r, h1, -, h3, -⟩ := C36_resample D hD hlt eps_t (k * eps_t) he q q_new x c hq hn hc
  refine ⟨r, h1, fun j hj => ?_⟩
  rw [h3 j hj]
  dsimp only
  have hD0 : (0 : ℤ) < D := by omega
  have hm1 := Int.emod_nonneg ((j : ℤ) + k) hD0.ne'
  have hm2 := Int.emod_lt_of_pos ((j : ℤ) + k) hD0
  rw [hc _ (by omega), Spec.trigPoly, Spec.trigPoly]
  congr 1
  refine sum_congr rfl fun m _ => ?_
  congr 1
  rw [Complex.exp_eq_exp_iff_exists_int]
  refine ⟨m * (((j : ℤ) + k) / D), ?_⟩
  have hD' : (D : ℂ) ≠ 0 := by
    have : D ≠ 0 := by omega
    exact_mod_cast this
  have he' : (eps_t : ℂ) ≠ 0 := by exact_mod_cast he
  have e : ((((((j : ℤ) + k) % (D : ℤ)).toNat : ℕ) : ℝ) : ℂ) = (j : ℂ) + k - D * (((j : ℤ) + k) / (D : ℤ) : ℤ) := by
    have h1 : ((((j : ℤ) + k) % (D : ℤ)).toNat : ℤ) = (j : ℤ) + k - D * (((j : ℤ) + k) / D) := by
      rw [Int.toNat_of_nonneg hm1, Int.emod_def]
    have h2 : (((((((j : ℤ) + k) % (D : ℤ)).toNat : ℕ) : ℤ)) : ℂ) =
        (((j : ℤ) + k - D * (((j : ℤ) + k) / D) : ℤ) : ℂ) := by rw [h1]
    push_cast at h2 ⊢
    exact h2
  push_cast at e ⊢
  rw [e]
  field_simp
  ring

/-- Shifts compose additively: resampling the result again by `delta'` equals resampling once by
`delta + delta'`. -/
theorem C36_compose (D : ℕ) (hD : 3 ≤ D) (hlt : D < 2 * 3 ^ 32) (eps_t delta delta' : ℝ) (he : eps_t ≠ 0)
    (q q1 q2 q3 : Buf ℂ) (x : ℕ → ℂ) (hq : q.Holds 0 D x) (h1 : D ≤ q1.len) (h2 : D ≤ q2.len)
    (h3 : D ≤ q3.len) :
    ∃ r1 r2 r3 y, misc_resample D eps_t (some q) delta (some q1) = some (SUCCESS, some r1) ∧
      misc_resample D eps_t (some r1) delta' (some q2) = some (SUCCESS, some r2) ∧
      misc_resample D eps_t (some q) (delta + delta') (some q3) = some (SUCCESS, some r3) ∧
      r2.Holds 0 D y ∧ r3.Holds 0 D y := by
  obtain ⟨⟨c, hc⟩, -⟩ := C36_interpolant D (by omega) eps_t he x
  obtain ⟨r1, a1, -, b1, -⟩ := C36_resample D hD hlt eps_t delta he q q1 x c hq h1 hc
  obtain ⟨r3, a3, -, b3, -⟩ := C36_resample D hD hlt eps_t (delta + delta') he q q3 x c hq h3 hc
  have hc' : ∀ j, j < D → Spec.trigPoly D (D * eps_t) c (j * eps_t + delta) = Spec.trigPoly D (D * eps_t)
      (fun m => c m * Complex.exp (2 * Real.pi * Complex.I * m * delta / ((D * eps_t : ℝ) : ℂ)))
      (j * eps_t) := by
    intro j _
    dsimp only [Spec.trigPoly]
    refine sum_congr rfl fun m _ => ?_
    rw [mul_assoc (c m), ← Complex.exp_add]
    congr 2
    push_cast; ring
  obtain ⟨r2, a2, -, b2, -⟩ := C36_resample D hD hlt eps_t delta' he r1 q2 _ _ b1 h2 hc'
  refine ⟨r1, r2, r3, _, a1, a2, a3, b2, fun j hj => ?_⟩
  rw [b3 j hj]
  dsimp only [Spec.trigPoly]
  congr 1
  refine sum_congr rfl fun m _ => ?_
  rw [mul_assoc (c m), ← Complex.exp_add]
  congr 2
  push_cast; ring

/-- Resampling is linear in the signal. -/
theorem C36_linear (D : ℕ) (hD : 3 ≤ D) (hlt : D < 2 * 3 ^ 32) (eps_t delta : ℝ) (he : eps_t ≠ 0) (a b : ℂ)
    (q q' q'' n n' n'' : Buf ℂ) (x x' : ℕ → ℂ) (hq : q.Holds 0 D x) (hq' : q'.Holds 0 D x')
    (hq'' : q''.Holds 0 D (fun j => a * x j + b * x' j)) (h1 : D ≤ n.len) (h2 : D ≤ n'.len)
    (h3 : D ≤ n''.len) :
    ∃ r r' r'' y y', misc_resample D eps_t (some q) delta (some n) = some (SUCCESS, some r) ∧
      misc_resample D eps_t (some q') delta (some n') = some (SUCCESS, some r') ∧
      misc_resample D eps_t (some q'') delta (some n'') = some (SUCCESS, some r'') ∧
      r.Holds 0 D y ∧ r'.Holds 0 D y' ∧ r''.Holds 0 D (fun j => a * y j + b * y' j) := by
  obtain ⟨r, a1, -, b1, -⟩ := misc_resample_ok D hD hlt eps_t delta he q n x hq h1
  obtain ⟨r', a2, -, b2, -⟩ := misc_resample_ok D hD hlt eps_t delta he q' n' x' hq' h2
  obtain ⟨r'', a3, -, b3, -⟩ := misc_resample_ok D hD hlt eps_t delta he q'' n'' _ hq'' h3
  refine ⟨r, r', r'', _, _, a1, a2, a3, b1, b2, fun j hj => ?_⟩
  rw [b3 j hj]
  congr 1
  simp only [resampled]
  rw [← mul_div_assoc, ← mul_div_assoc, ← add_div, mul_sum, mul_sum, ← sum_add_distrib]
  congr 1
  refine sum_congr rfl fun k _ => ?_
  have : ∑ i ∈ range D, (a * x i + b * x' i) * zeta D false ^ (i * k) =
      a * (∑ i ∈ range D, x i * zeta D false ^ (i * k)) + b * ∑ i ∈ range D, x' i * zeta D false ^ (i * k) := by
    rw [mul_sum, mul_sum, ← sum_add_distrib]
    exact sum_congr rfl fun i _ => by ring
  rw [this]; ring

/-- Invalid arguments are rejected and nothing is written. -/
theorem C36_invalid (D : ℕ) (eps_t delta : ℝ) (q q_new : Option (Buf ℂ))
    (h : q = none ∨ D ≤ 2 ∨ q_new = none ∨ eps_t = 0) :
    misc_resample D eps_t q delta q_new = some (EC_INVALID_ARGUMENT, q_new) := by
  unfold misc_resample
  rcases q with _ | q
  · rfl
  · by_cases hD : D ≤ 2
    · simp [hD]
    · rcases q_new with _ | q_new
      · simp [hD]
      · rcases h with h | h | h | h
        · cases h
        · exact absurd h hD
        · cases h
        · simp [hD, h]

/-- The hypotheses can be met: 5 samples of a non-trivial signal. -/
example : (3 : ℕ) ≤ 5 ∧ 5 < 2 * 3 ^ 32 ∧ (0.1 : ℝ) ≠ 0 ∧
    (Buf.ofFn 5 (fun i => (i : ℂ) * Complex.I)).Holds 0 5 (fun i => (i : ℂ) * Complex.I) ∧
    ∃ c, ∀ j : ℕ, j < 5 → (j : ℂ) * Complex.I = Spec.trigPoly 5 ((5 : ℕ) * 0.1) c (j * 0.1) :=
  ⟨by norm_num, by norm_num, by norm_num, Buf.holds_ofFn _ _,
    (C36_interpolant 5 (by norm_num) 0.1 (by norm_num) (fun i => (i : ℂ) * Complex.I)).1⟩

end FNFT

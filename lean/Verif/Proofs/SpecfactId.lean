import Verif.Proofs.Specfact
/-!
# Identities for the spectral factor
-/
namespace FNFT
open Kiss Complex Finset

variable {N : ℕ} {u : ℕ → ℝ}

/-- The Fourier transform of the logarithm. -/
noncomputable def sfX (N : ℕ) (u : ℕ → ℝ) (k : ℕ) : ℂ := ∑ j ∈ range N, (u j : ℂ) * zeta N false ^ (j * k)

theorem zeta_star (N : ℕ) (b : Bool) : (starRingEnd ℂ) (zeta N b) = zeta N (!b) := by
  unfold zeta
  rw [← exp_conj]
  congr 1
  have := sgn_not b
  simp only [map_mul, map_div₀, conj_I, conj_ofReal, map_natCast, this]
  push_cast
  ring

theorem zeta_refl {N k : ℕ} (hN : 1 ≤ N) (hk : k ≤ N) (b : Bool) (j : ℕ) : zeta N b ^ (j * (N - k)) = zeta N (!b) ^ (j * k) := by
  have h1 : zeta N b ^ (j * (N - k)) * zeta N b ^ (j * k) = 1 := by
    rw [← pow_add, ← Nat.mul_add, Nat.sub_add_cancel hk, mul_comm, pow_mul, zeta_pow_self (by omega), one_pow]
  have h2 : zeta N (!b) ^ (j * k) * zeta N b ^ (j * k) = 1 := by
    rw [zeta_not, ← mul_pow, inv_mul_cancel₀ (zeta_ne_zero N b), one_pow]
  exact mul_right_cancel₀ (pow_ne_zero _ (zeta_ne_zero N b)) (h1.trans h2.symm)

theorem sfX_conj {k : ℕ} (hN : 1 ≤ N) (hk : k ≤ N) : (starRingEnd ℂ) (sfX N u k) = sfX N u (N - k) := by
  unfold sfX
  rw [map_sum]
  refine Finset.sum_congr rfl fun j _ => ?_
  rw [map_mul, conj_ofReal, map_pow, zeta_star, zeta_refl hN hk]

/-- The modes that must vanish. -/
def SfBand (N : ℕ) (u : ℕ → ℝ) : Prop := ∀ k, (k = N / 2 - 1 ∨ k = N / 2 ∨ k = N / 2 + 1) → 0 < k → k < N → sfX N u k = 0

theorem sfH_conj {k : ℕ} (hb : SfBand N u) (h0 : 0 < k) (hk : k < N) :
    (starRingEnd ℂ) (sfX N u k * sfHilbert N k) = sfX N u (N - k) * sfHilbert N (N - k) := by
  rw [map_mul, sfX_conj (by omega) hk.le]
  by_cases hz : sfX N u (N - k) = 0
  · rw [hz]; ring
  have hz' : sfX N u k ≠ 0 := by
    intro h
    have := sfX_conj (u := u) (by omega) hk.le
    rw [h, map_zero] at this
    exact hz this.symm
  have n1 : ¬ (k = N / 2 - 1 ∨ k = N / 2 ∨ k = N / 2 + 1) := fun h => hz' (hb k h h0 hk)
  have n2 : ¬ (N - k = N / 2 - 1 ∨ N - k = N / 2 ∨ N - k = N / 2 + 1) := fun h => hz (hb (N - k) h (by omega) (by omega))
  congr 1
  unfold sfHilbert
  rw [if_neg (by omega), if_neg (show N - k ≠ 0 by omega)]
  by_cases h : k < N / 2 - 1
  · rw [if_pos h, if_neg (by omega), if_neg (by omega), map_div₀, map_neg, conj_I, neg_neg, map_natCast]
  · rw [if_neg h, if_neg (by omega), if_pos (by omega), map_div₀, conj_I, map_natCast]

/-- The Hilbert transform is real. -/
theorem sfY_real (hb : SfBand N u) (hN : 1 ≤ N) (i : ℕ) : (starRingEnd ℂ) (sfY N (fun j => (u j : ℂ)) i) = sfY N (fun j => (u j : ℂ)) i := by
  have e : ∀ i, sfY N (fun j => (u j : ℂ)) i = ∑ k ∈ range N, sfX N u k * sfHilbert N k * zeta N true ^ (k * i) := fun i => rfl
  obtain ⟨n, rfl⟩ : ∃ n, N = n + 1 := ⟨N - 1, by omega⟩
  have h0 : sfHilbert (n + 1) 0 = 0 := by unfold sfHilbert; rw [if_pos rfl]
  rw [e, Finset.sum_range_succ', h0, mul_zero, zero_mul, add_zero, map_sum]
  rw [← Finset.sum_range_reflect]
  refine Finset.sum_congr rfl fun j hj => ?_
  have hj' := mem_range.mp hj
  rw [map_mul, sfH_conj hb (by omega) (by omega), map_pow, zeta_star, show n + 1 - (n - 1 - j + 1) = j + 1 by omega, show n - 1 - j + 1 = n + 1 - (j + 1) by omega,
    mul_comm (n + 1 - (j + 1)) i, zeta_refl (by omega) (by omega), mul_comm i, Bool.not_true, Bool.not_false]

/-- The values of the spectral factor. -/
theorem sfC_eval {x : ℕ → ℂ} {i : ℕ} (hi : i < N) : ∑ k ∈ range N, sfC N x k * zeta N false ^ (k * i) = exp (x i - I * sfY N x i) := by
  have h := dft_inv true (fun i => exp (x i - I * sfY N x i) / N) hi
  simp only [Bool.not_true] at h
  have hN : (N : ℂ) ≠ 0 := by exact_mod_cast (by omega : N ≠ 0)
  unfold sfC
  rw [h]
  field_simp

theorem sfX_inv {i : ℕ} (hi : i < N) : ∑ k ∈ range N, sfX N u k * zeta N true ^ (k * i) = N * u i := by
  have h := dft_inv false (fun j => (u j : ℂ)) hi
  simp only [Bool.not_false] at h
  exact h

/-- The exponent. -/
theorem sfExp {i : ℕ} (hb : SfBand N u) (hi : i < N) :
    (u i : ℂ) + I * sfY N (fun j => (u j : ℂ)) i = (sfX N u 0 + 2 * ∑ m ∈ Finset.Ico 1 (N / 2 - 1), sfX N u m * zeta N true ^ (m * i)) / N := by
  have hN : (N : ℂ) ≠ 0 := by exact_mod_cast (by omega : N ≠ 0)
  have e : (u i : ℂ) + I * sfY N (fun j => (u j : ℂ)) i = ∑ k ∈ range N, sfX N u k * zeta N true ^ (k * i) * (1 / N + I * sfHilbert N k) := by
    have h1 := sfX_inv (u := u) hi
    have h2 : sfY N (fun j => (u j : ℂ)) i = ∑ k ∈ range N, sfX N u k * sfHilbert N k * zeta N true ^ (k * i) := rfl
    rw [show (u i : ℂ) = (∑ k ∈ range N, sfX N u k * zeta N true ^ (k * i)) * (1 / N) by rw [h1]; field_simp, h2, Finset.mul_sum, Finset.sum_mul, ← Finset.sum_add_distrib]
    refine Finset.sum_congr rfl fun k _ => ?_
    ring
  have t : ∀ k ∈ range N, sfX N u k * zeta N true ^ (k * i) * (1 / N + I * sfHilbert N k) =
      if k = 0 then sfX N u 0 / N else if k ∈ Finset.Ico 1 (N / 2 - 1) then 2 / N * (sfX N u k * zeta N true ^ (k * i)) else 0 := by
    intro k hk
    have hk' := mem_range.mp hk
    by_cases h0 : k = 0
    · subst h0
      unfold sfHilbert
      simp
      ring
    rw [if_neg h0]
    simp only [Finset.mem_Ico]
    by_cases h1 : k < N / 2 - 1
    · rw [if_pos ⟨by omega, h1⟩]
      unfold sfHilbert
      rw [if_neg h0, if_pos h1]
      field_simp
      rw [I_sq]
      ring
    rw [if_neg (by omega)]
    by_cases h2 : k = N / 2 - 1
    · rw [hb k (Or.inl h2) (by omega) hk']; ring
    · unfold sfHilbert
      rw [if_neg h0, if_neg h1, if_neg h2]
      field_simp
      rw [I_sq]
      ring
  rw [e, Finset.sum_congr rfl t, Finset.sum_ite, Finset.sum_ite_mem]
  have hf : {x ∈ range N | x = 0} = {0} := by
    ext j; simp only [mem_filter, mem_range, mem_singleton]; omega
  have hf2 : {x ∈ range N | ¬ x = 0} ∩ Finset.Ico 1 (N / 2 - 1) = Finset.Ico 1 (N / 2 - 1) := by
    ext j; simp only [mem_filter, mem_range, mem_inter, Finset.mem_Ico]; omega
  rw [hf, hf2, Finset.sum_singleton, ← Finset.mul_sum]
  ring

end FNFT

import Verif.Spec.NsevBound
/-!
# Proofs: what `Spec.Selected` says about the distance to the nearest selected value
-/
namespace FNFT

/-- A candidate in the box is selected, or a selected value is closer than `n tol`: the removed values can form a chain. -/
theorem selected_near {box : Fin 4 → Dbl} {tol : ℝ} {n : ℕ} {cand : ℕ → ℂ} {out : List ℂ} (ht : 0 < tol) (h : Spec.Selected box tol n cand out) {k : ℕ} (hk : k < n)
    (hb : Spec.InBoxC box (cand k)) : ∃ l ∈ out, l = cand k ∨ ‖l - cand k‖ < n * tol := by
  obtain ⟨S, -, -, -, h4, h5⟩ := h
  have key : ∀ k, k < n → Spec.InBoxC box (cand k) → ∃ j ∈ S, j = k ∨ ‖cand j - cand k‖ < k * tol := by
    intro k
    induction k using Nat.strong_induction_on with
    | _ k ih =>
      intro hk hb
      by_cases hS : k ∈ S
      · exact ⟨k, hS, Or.inl rfl⟩
      · obtain ⟨j, j1, j2, j3⟩ := h4 k hk hb hS
        obtain ⟨i, i1, i2⟩ := ih j j1 (j1.trans hk) j2
        refine ⟨i, i1, Or.inr ?_⟩
        have hjk : (j : ℝ) + 1 ≤ k := by exact_mod_cast j1
        have hj0 : (0 : ℝ) ≤ j := Nat.cast_nonneg j
        rcases i2 with rfl | i2
        · exact j3.trans_le (by nlinarith)
        · have := norm_sub_le_norm_sub_add_norm_sub (cand i) (cand j) (cand k)
          nlinarith
  obtain ⟨j, j1, j2⟩ := key k hk hb
  refine ⟨cand j, by rw [h5]; exact List.mem_map_of_mem j1, ?_⟩
  rcases j2 with rfl | j2
  · exact Or.inl rfl
  · right
    have : (k : ℝ) ≤ n := by exact_mod_cast hk.le
    exact j2.trans_le (by gcongr)

end FNFT

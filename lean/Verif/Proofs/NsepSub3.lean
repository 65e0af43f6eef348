import Verif.Proofs.NsepSub2
/-!
# Proofs: subsample and refine in fnft_nsep.c, number of samples
-/
namespace FNFT
open Complex

theorem nse_pre_one {D : ℕ} {q : Option (Buf ℂ)} {eps : ℝ} {kappa : ℤ} {d : NseDisc} {n : ℕ} {t : Buf ℂ × Buf ℂ}
    {fl : Option (ℕ × ℕ)} (h : nse_preprocess_signal D q eps kappa 2 d = some ⟨SUCCESS, n, some t, fl⟩) :
    nse_preprocess_signal D q eps kappa 1 d = some ⟨SUCCESS, n, some t, fl⟩ := by
  have key : ∀ a Y, akns_preprocess_signal D q (fun _ => nse_r_from_q kappa) eps 2 a = some Y → Y.out ≠ none →
      akns_preprocess_signal D q (fun _ => nse_r_from_q kappa) eps 1 a = some Y := by
    intro a Y hY hr
    unfold akns_preprocess_signal at hY ⊢
    by_cases h1 : D < 2
    · rw [if_pos h1] at hY
      cases hY; exact absurd rfl hr
    · rw [if_neg h1] at hY ⊢
      rcases q with _ | q
      · cases hY; exact absurd rfl hr
      · dsimp only at hY ⊢
        by_cases h2 : eps ≤ 0
        · rw [if_pos h2] at hY
          cases hY; exact absurd rfl hr
        · rw [if_neg h2] at hY ⊢
          by_cases h3 : akns_upsampling_factor a = 0
          · rw [if_pos h3] at hY
            cases hY; exact absurd rfl hr
          · rw [if_neg h3] at hY ⊢
            simp only [show ¬ (2 : ℕ) < 2 by omega, show (1 : ℕ) < 2 by omega, if_true, if_false, Option.bind_eq_bind] at hY ⊢
            rw [Option.bind_eq_some_iff] at hY ⊢
            obtain ⟨z, z1, z2⟩ := hY
            refine ⟨z, z1, ?_⟩
            rcases z with ec | t
            · cases z2; exact absurd rfl hr
            · exact z2
  unfold nse_preprocess_signal at h ⊢
  rcases hd : nse_to_akns d with ec | a
  · rw [hd] at h
    simp at h
  · rw [hd] at h
    simp only [Option.bind_eq_bind, Option.bind_eq_some_iff] at h ⊢
    obtain ⟨Y, y1, y2⟩ := h
    have hne : Y.out ≠ none := by
      intro hn
      simp only [Option.pure_def, Option.some.injEq] at y2
      split_ifs at y2
      · rw [y2] at hn; cases hn
      · simp only [PreRes.mk.injEq, hn] at y2; cases y2.2.2.1
    exact ⟨Y, key a Y y1 hne, y2⟩

theorem sub_count {D k : ℕ} (hk : 1 ≤ k) (hD : D = 2 ^ k) (Dsub : ℕ) : ∃ j, nsepDsub D Dsub = 2 ^ j ∧
    ∀ Ds s, s * Ds = D → (Ds = 2 ^ (if j = 0 then 1 else if j ≤ k then j else k)) → Spec.SubPeriod D Dsub Ds s := by
  have hDr : (D : ℝ) = 2 ^ k := by rw [hD]; push_cast; rfl
  have hlogD : Real.logb 2 D = k := by rw [hDr, Real.logb_pow, Real.logb_self_eq_one (by norm_num), mul_one]
  have hk1 : (1 : ℝ) ≤ k := by exact_mod_cast hk
  have hp2 : ∀ j : ℕ, ((2 ^ j : ℕ) : ℝ) ^ 2 = (2 : ℝ) ^ (2 * (j : ℝ)) := by
    intro j
    push_cast
    rw [← pow_mul, ← Real.rpow_natCast]
    congr 1; push_cast; ring
  unfold nsepDsub
  by_cases h0 : Dsub = 0
  · subst h0
    rw [if_pos rfl]
    obtain ⟨B, hB⟩ : ∃ B : ℝ, B = D * Real.logb 2 D * Real.logb 2 D := ⟨_, rfl⟩
    have hB2 : 2 ≤ B := by
      rw [hB, hlogD, hDr]
      have : (2 : ℝ) ≤ 2 ^ k := by
        calc (2 : ℝ) = 2 ^ 1 := by norm_num
          _ ≤ 2 ^ k := pow_le_pow_right₀ (by norm_num) hk
      nlinarith [mul_self_nonneg ((k : ℝ) - 1), mul_le_mul hk1 hk1 (by norm_num) (by linarith)]
    rw [← hB]
    refine ⟨_, rfl, fun Ds s hs hDs => ?_⟩
    obtain ⟨j, hj⟩ : ∃ j, j = ⌈0.5 * Real.logb 2 B⌉₊ := ⟨_, rfl⟩
    rw [← hj] at hDs
    have hlog1 : 1 ≤ Real.logb 2 B := by
      rw [Real.le_logb_iff_rpow_le (by norm_num) (by linarith)]; simpa using hB2
    have hj1 : 0.5 * Real.logb 2 B ≤ j := by rw [hj]; exact Nat.le_ceil _
    have hj2 : (j : ℝ) < 0.5 * Real.logb 2 B + 1 := by rw [hj]; exact Nat.ceil_lt_add_one (by linarith)
    have hj0 : j ≠ 0 := by rintro rfl; norm_num at hj1; linarith
    rw [if_neg hj0] at hDs
    refine ⟨hs, ?_, ⟨_, hDs⟩, fun h => by omega, fun h => by rw [hD] at h; exact absurd h (by simp), fun h => by omega, fun _ => ?_⟩
    · rw [hDs]
      calc 2 = 2 ^ 1 := rfl
        _ ≤ _ := Nat.pow_le_pow_right (by norm_num) (by split_ifs <;> omega)
    · by_cases hjk : j ≤ k
      · right
        rw [if_pos hjk] at hDs
        rw [hDs, hp2]
        have hBe : (D : ℝ) * Real.logb 2 D ^ 2 = B := by rw [hB]; ring
        rw [hBe]
        constructor
        · calc B = (2 : ℝ) ^ Real.logb 2 B := (Real.rpow_logb (by norm_num) (by norm_num) (by linarith)).symm
            _ ≤ _ := Real.rpow_le_rpow_of_exponent_le (by norm_num) (by linarith)
        · calc (2 : ℝ) ^ (2 * (j : ℝ)) < (2 : ℝ) ^ (Real.logb 2 B + 2) := Real.rpow_lt_rpow_of_exponent_lt (by norm_num) (by linarith)
            _ = 4 * B := by
              rw [Real.rpow_add (by norm_num), Real.rpow_logb (by norm_num) (by norm_num) (by linarith)]
              norm_num; ring
      · left
        rw [if_neg hjk] at hDs
        rw [hDs, hD]
  · rw [if_neg h0]
    refine ⟨_, rfl, fun Ds s hs hDs => ?_⟩
    have hp : (1 : ℝ) ≤ Dsub := by exact_mod_cast Nat.one_le_iff_ne_zero.mpr h0
    obtain ⟨x, hx⟩ : ∃ x : ℝ, x = Real.logb 2 Dsub := ⟨_, rfl⟩
    have hx0 : 0 ≤ x := by rw [hx]; exact Real.logb_nonneg (by norm_num) hp
    have hxe : (2 : ℝ) ^ x = Dsub := by rw [hx]; exact Real.rpow_logb (by norm_num) (by norm_num) (by linarith)
    rw [← hx] at hDs
    obtain ⟨j, hj⟩ : ∃ j, j = ⌊x + 1 / 2⌋₊ := ⟨_, rfl⟩
    rw [← hj] at hDs
    have hj1 : (j : ℝ) ≤ x + 1 / 2 := by rw [hj]; exact Nat.floor_le (by linarith)
    have hj2 : x + 1 / 2 < j + 1 := by rw [hj]; exact Nat.lt_floor_add_one _
    refine ⟨hs, ?_, ⟨_, hDs⟩, fun h1 h2 => ?_, fun h => ?_, fun h => ?_, fun h => absurd h h0⟩
    · rw [hDs]
      calc 2 = 2 ^ 1 := rfl
        _ ≤ _ := Nat.pow_le_pow_right (by norm_num) (by split_ifs <;> omega)
    · have hx1 : 1 ≤ x := by
        rw [hx, Real.le_logb_iff_rpow_le (by norm_num) (by linarith)]; simpa using (by exact_mod_cast h1 : (2 : ℝ) ≤ Dsub)
      have hxk : x ≤ k := by
        rw [hx, ← hlogD]
        exact Real.logb_le_logb_of_le (by norm_num) (by linarith) (by exact_mod_cast h2)
      have hj0 : j ≠ 0 := by rintro rfl; norm_num at hj2; linarith
      have hjk : j ≤ k := by
        have : (j : ℝ) < k + 1 := by linarith
        have : j < k + 1 := by exact_mod_cast this
        omega
      rw [if_neg hj0, if_pos hjk] at hDs
      have e1 : ((Ds : ℕ) : ℝ) ^ 2 = (2 : ℝ) ^ (2 * (j : ℝ)) := by rw [hDs, hp2]
      have e2 : (Dsub : ℝ) ^ 2 = (2 : ℝ) ^ (2 * x) := by
        rw [← hxe, ← Real.rpow_natCast, ← Real.rpow_mul (by norm_num)]; congr 1; push_cast; ring
      have e3 : ∀ y : ℝ, 2 * (2 : ℝ) ^ y = (2 : ℝ) ^ (y + 1) := by
        intro y; rw [Real.rpow_add (by norm_num), Real.rpow_one]; ring
      constructor
      · have : (Ds : ℝ) ^ 2 ≤ 2 * (Dsub : ℝ) ^ 2 := by
          rw [e1, e2, e3]; exact Real.rpow_le_rpow_of_exponent_le (by norm_num) (by linarith)
        exact_mod_cast this
      · have : (Dsub : ℝ) ^ 2 ≤ 2 * (Ds : ℝ) ^ 2 := by
          rw [e1, e2, e3]; exact Real.rpow_le_rpow_of_exponent_le (by norm_num) (by linarith)
        exact_mod_cast this
    · have hxk : (k : ℝ) ≤ x := by
        rw [hx, ← hlogD]
        exact Real.logb_le_logb_of_le (by norm_num) (by rw [hDr]; positivity) (by exact_mod_cast h)
      have hjk : k ≤ j := by
        have : (k : ℝ) < j + 1 := by linarith
        have : k < j + 1 := by exact_mod_cast this
        omega
      rw [hDs, hD, if_neg (by omega)]
      congr 1
      split_ifs <;> omega
    · have hx' : x = 0 := by rw [hx, h]; simp
      have : j = 0 := by
        have : (j : ℝ) < 1 := by rw [hx'] at hj1; linarith
        have : j < 1 := by exact_mod_cast this
        omega
      rw [hDs, if_pos this, pow_one]

/-- Preprocessing with the number of samples that `subsample_and_refine` asks for. -/
theorem nse_pre_sub {d : NseDisc} {a : AknsDisc} (hd : nse_to_akns d = .ok a) {D k : ℕ} (hk1 : 1 ≤ k) (hDk : D = 2 ^ k) (hCF : Spec.isCF a → 3 ≤ D)
    (hlt : D < 2 * 3 ^ 32) {q : Buf ℂ} {x : ℕ → ℂ} (hq : q.Holds 0 D x) {eps : ℝ} (heps : 0 < eps) {kappa : ℤ} (hk : |kappa| = 1)
    (Dsub : ℕ) :
    ∃ Ds s qp rp qf rf, nse_preprocess_signal D (some q) eps kappa (nsepDsub D Dsub) d =
        some ⟨SUCCESS, Ds, some (qp, rp), some (0, (Ds - 1) * s)⟩ ∧
      Spec.SubPeriod D Dsub Ds s ∧ qp.Holds 0 (Ds * akns_upsampling_factor a) qf ∧
      rp.Holds 0 (Ds * akns_upsampling_factor a) rf ∧ Spec.Processed a kappa D eps x Ds s qf rf := by
  have hD : 2 ≤ D := by
    rw [hDk]
    calc 2 = 2 ^ 1 := rfl
      _ ≤ _ := Nat.pow_le_pow_right (by norm_num) hk1
  obtain ⟨j, hj, hcount⟩ := sub_count hk1 hDk Dsub
  rw [hj]
  by_cases hj0 : j = 0
  · subst hj0
    obtain ⟨Ds, s, qp, rp, qf, rf, p1, p2, p3, p4, p5⟩ := nse_pre_ok hd hD hCF hlt hq heps hk 2
    obtain ⟨e1, e2⟩ := p2.2.2.2.2.1 le_rfl (by rw [hDk]; exact dvd_pow_self 2 (by omega))
    exact ⟨Ds, s, qp, rp, qf, rf, by rw [pow_zero]; exact nse_pre_one p1, hcount Ds s e2 (by rw [e1]; simp), p3, p4, p5⟩
  · obtain ⟨Ds, s, qp, rp, qf, rf, p1, p2, p3, p4, p5⟩ := nse_pre_ok hd hD hCF hlt hq heps hk (2 ^ j)
    refine ⟨Ds, s, qp, rp, qf, rf, p1, ?_, p3, p4, p5⟩
    by_cases hjk : j ≤ k
    · obtain ⟨e1, e2⟩ := p2.2.2.2.2.1 (by
        calc 2 = 2 ^ 1 := rfl
          _ ≤ _ := Nat.pow_le_pow_right (by norm_num) (by omega)) (by rw [hDk]; exact pow_dvd_pow 2 hjk)
      exact hcount Ds s e2 (by rw [e1, if_neg hj0, if_pos hjk])
    · obtain ⟨e1, e2⟩ := p2.2.2.2.2.2 (by rw [hDk]; exact Nat.pow_le_pow_right (by norm_num) (by omega))
      exact hcount Ds s (by rw [e1, e2, Nat.one_mul]) (by rw [e1, if_neg hj0, if_neg hjk, hDk])

end FNFT

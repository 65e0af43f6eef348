import Verif.Spec.Manakovv
/-!
# Execution of the preprocessing for the Manakov equation
-/
namespace FNFT
open Complex

theorem manDown_ok {D Dsub s : ℕ} {q1 q2 : Buf ℂ} {x1 x2 : ℕ → ℂ} (hq1 : q1.Holds 0 D x1) (hq2 : q2.Holds 0 D x2)
    (hb : (Dsub - 1) * s < D) :
    ∃ t, forLoop Dsub (manDownBody q1 q2 s) (Buf.malloc Dsub, Buf.malloc Dsub, 0) = some t ∧
      Filled2 Dsub (fun j => x1 (s * j)) (fun j => x2 (s * j)) Dsub (t.1, t.2.1) := by
  obtain ⟨t, h1, h2, -⟩ := forLoop_inv (n := Dsub) (body := manDownBody q1 q2 s) (s := (Buf.malloc Dsub, Buf.malloc Dsub, 0))
    (fun k t => Filled2 Dsub (fun j => x1 (s * j)) (fun j => x2 (s * j)) k (t.1, t.2.1) ∧ t.2.2 = s * k)
    ⟨⟨by simp, by simp, by omega, by omega⟩, by simp⟩ (by
      rintro j t hj ⟨hP, hi⟩
      have hr1 := hq1 (s * j) (mul_lt_of_sub hb hj)
      have hr2 := hq2 (s * j) (mul_lt_of_sub hb hj)
      rw [Nat.zero_add] at hr1 hr2
      refine ⟨(t.1.set j (x1 (s * j)), t.2.1.set j (x2 (s * j)), t.2.2 + s), ?_, hP.step hj, by rw [hi]; ring⟩
      simp only [manDownBody, hi, hr1, hr2, Option.bind_eq_bind, Option.bind_some,
        Buf.wr_eq _ (show j < t.1.len by rw [hP.1]; exact hj), Buf.wr_eq _ (show j < t.2.1.len by rw [hP.2.1]; exact hj)]
      rfl)
  exact ⟨t, h1, h2⟩

theorem trigPoly_scale (N : ℕ) {h : ℝ} (hh : h ≠ 0) (c : ℤ → ℂ) (t : ℝ) :
    Spec.trigPoly N (N * h) c (t * h) = Spec.trigPoly N N c t := by
  unfold Spec.trigPoly
  refine Finset.sum_congr rfl fun m _ => ?_
  have hh' : (h : ℂ) ≠ 0 := by exact_mod_cast hh
  congr 2
  push_cast
  rw [← mul_assoc, mul_div_mul_right _ _ hh']

theorem manResample_ok {N : ℕ} (hN : 3 ≤ N) (hlt : N < 2 * 3 ^ 32) {h : ℝ} (hh : h ≠ 0) (w : ℝ) {q : Buf ℂ} {x : ℕ → ℂ}
    (hq : q.Holds 0 N x) (c : ℤ → ℂ) (hc : ∀ j, j < N → x j = Spec.trigPoly N N c j) :
    ∃ b, manResample N h q (w * h) = some b ∧ b.Holds 0 N (fun j => Spec.trigPoly N N c (j + w)) := by
  obtain ⟨r, h1, -, h3, -⟩ := misc_resample_ok N hN hlt h (w * h) hh q (Buf.malloc N) x hq (by simp)
  refine ⟨r, by unfold manResample; rw [h1]; rfl, fun j hj => ?_⟩
  rw [h3 j hj, resampled_trig (by omega) hh (w * h) c x (fun j hj => by rw [hc j hj, trigPoly_scale N hh]) j hj,
    ← add_mul, trigPoly_scale N hh]

theorem manCF_ok {N : ℕ} {c11 c12 c21 c22 : Buf ℂ} {x1 x2 y1 y2 : ℕ → ℂ} (h1 : c11.Holds 0 N x1) (h2 : c12.Holds 0 N x2)
    (h3 : c21.Holds 0 N y1) (h4 : c22.Holds 0 N y2) :
    ∃ t, forLoop N (manCFBody c11 c12 c21 c22) (Buf.malloc (N * 2), Buf.malloc (N * 2)) = some t ∧
      Filled2 (N * 2)
        (fun i => if i % 2 = 0 then man_a1 * x1 (i / 2) + man_a2 * x2 (i / 2) else man_a2 * x1 (i / 2) + man_a1 * x2 (i / 2))
        (fun i => if i % 2 = 0 then man_a1 * y1 (i / 2) + man_a2 * y2 (i / 2) else man_a2 * y1 (i / 2) + man_a1 * y2 (i / 2))
        (2 * N) t := by
  refine forLoop_inv (fun k t => Filled2 (N * 2) _ _ (2 * k) t) ⟨by simp, by simp, by omega, by omega⟩ ?_
  intro j t hj hP
  have r1 := h1 j hj
  have r2 := h2 j hj
  have r3 := h3 j hj
  have r4 := h4 j hj
  rw [Nat.zero_add] at r1 r2 r3 r4
  have hS := (hP.step (show 2 * j < N * 2 by omega)).step (show 2 * j + 1 < N * 2 by omega)
  have e1 : (2 * j) % 2 = 0 := by omega
  have e2 : (2 * j) / 2 = j := by omega
  have e3 : (2 * j + 1) % 2 = 1 := by omega
  have e4 : (2 * j + 1) / 2 = j := by omega
  simp only [e1, e2, e3, e4, if_true, one_ne_zero, if_false] at hS
  refine ⟨_, ?_, hS⟩
  simp only [manCFBody, r1, r2, r3, r4, Option.bind_eq_bind, Option.bind_some]
  rw [Buf.wr_eq _ (show 2 * j < t.1.len by rw [hP.1]; omega), Option.bind_some,
    Buf.wr_eq _ (show 2 * j < t.2.len by rw [hP.2.1]; omega), Option.bind_some,
    Buf.wr_eq _ (by simp [hP.1]; omega), Option.bind_some, Buf.wr_eq _ (by simp [hP.2.1]; omega), Option.bind_some]
  rfl

/-- Two components at once. -/
theorem man_pre_run {D : ℕ} (hD : 2 ≤ D) {q1 q2 : Buf ℂ} {eps : ℝ} (heps : 0 < eps) (Dsub0 : ℕ) {d : ManDisc}
    (hu : man_upsampling_factor d ≠ 0) :
    ∃ Dsub s, Spec.SubGrid D Dsub0 Dsub s ∧ ∀ r,
      manPreSwitch d (Dsub * man_upsampling_factor d) Dsub s eps q1 q2
        (Buf.malloc (Dsub * man_upsampling_factor d), Buf.malloc (Dsub * man_upsampling_factor d)) = r →
      man_preprocess_signal D (some q1) (some q2) eps Dsub0 d = r.bind fun
        | .error ec => some ⟨ec, Dsub0, none, none⟩
        | .ok t => some ⟨SUCCESS, Dsub, some t, some (0, (Dsub - 1) * s)⟩ := by
  refine ⟨_, _, pre_arith D Dsub0 hD, ?_⟩
  intro t ht
  unfold man_preprocess_signal
  rw [if_neg (by omega)]
  dsimp only
  rw [if_neg (not_le.mpr heps), if_neg hu, ht]
  rfl

theorem up_cases (d : ManDisc) : man_upsampling_factor d = 0 ∨ man_upsampling_factor d = 1 ∨ man_upsampling_factor d = 2 := by
  cases d <;> simp [man_upsampling_factor]

theorem man_pre_ok {D : ℕ} (hD : 2 ≤ D) {q1 q2 : Buf ℂ} {x1 x2 : ℕ → ℂ} (hq1 : q1.Holds 0 D x1) (hq2 : q2.Holds 0 D x2)
    {eps : ℝ} (heps : 0 < eps) (Dsub0 : ℕ) {d : ManDisc} (hu : man_upsampling_factor d ≠ 0) :
    ∃ Dsub s, Spec.SubGrid D Dsub0 Dsub s ∧ ((man_upsampling_factor d = 2 → 3 ≤ Dsub ∧ Dsub < 2 * 3 ^ 32) →
      ∃ b1 b2 p1 p2, man_preprocess_signal D (some q1) (some q2) eps Dsub0 d =
          some ⟨SUCCESS, Dsub, some (b1, b2), some (0, (Dsub - 1) * s)⟩ ∧
        b1.len = Dsub * man_upsampling_factor d ∧ b2.len = Dsub * man_upsampling_factor d ∧
        b1.Holds 0 (Dsub * man_upsampling_factor d) p1 ∧ b2.Holds 0 (Dsub * man_upsampling_factor d) p2 ∧
        Spec.ManProcessed d Dsub (fun j => x1 (s * j)) p1 ∧ Spec.ManProcessed d Dsub (fun j => x2 (s * j)) p2) := by
  obtain ⟨Dsub, s, h1, h2⟩ := man_pre_run hD (q1 := q1) (q2 := q2) heps Dsub0 hu
  refine ⟨Dsub, s, h1, fun hup => ?_⟩
  obtain ⟨t, e, l1, l2, r1, r2⟩ := manDown_ok hq1 hq2 h1.2.2.2.1
  rcases up_cases d with h0 | h0 | h0
  · exact absurd h0 hu
  · have hsw : manPreSwitch d (Dsub * man_upsampling_factor d) Dsub s eps q1 q2
        (Buf.malloc (Dsub * man_upsampling_factor d), Buf.malloc (Dsub * man_upsampling_factor d)) = some (.ok (t.1, t.2.1)) := by
      rw [h0, Nat.mul_one]
      cases d <;> first | (simp only [manPreSwitch, manPrePoint, e]; rfl) | (simp [man_upsampling_factor] at h0)
    refine ⟨t.1, t.2.1, fun j => x1 (s * j), fun j => x2 (s * j), h2 _ hsw, by rw [h0]; simpa using l1, by rw [h0]; simpa using l2,
      ?_, ?_, ?_, ?_⟩
    · rw [h0]; intro j hj; rw [Nat.zero_add]; exact r1 j (by omega)
    · rw [h0]; intro j hj; rw [Nat.zero_add]; exact r2 j (by omega)
    · rw [Spec.ManProcessed, if_pos h0]; intro j _; rfl
    · rw [Spec.ManProcessed, if_pos h0]; intro j _; rfl
  · obtain ⟨hN, hlt⟩ := hup h0
    have hs : (s : ℝ) ≠ 0 := by have := h1.1; positivity
    have hh : eps / s ≠ 0 := div_ne_zero heps.ne' hs
    obtain ⟨⟨c1, hc1⟩, -⟩ := C36_interpolant Dsub (by omega) 1 one_ne_zero (fun j => x1 (s * j))
    obtain ⟨⟨c2, hc2⟩, -⟩ := C36_interpolant Dsub (by omega) 1 one_ne_zero (fun j => x2 (s * j))
    simp only [mul_one] at hc1 hc2
    have hs1 : t.1.Holds 0 Dsub (fun j => x1 (s * j)) := fun j hj => by rw [Nat.zero_add]; exact r1 j hj
    have hs2 : t.2.1.Holds 0 Dsub (fun j => x2 (s * j)) := fun j hj => by rw [Nat.zero_add]; exact r2 j hj
    obtain ⟨b11, a11, g11⟩ := manResample_ok hN hlt hh (0.5 - Real.sqrt 3 / 6) hs1 c1 hc1
    obtain ⟨b12, a12, g12⟩ := manResample_ok hN hlt hh (0.5 + Real.sqrt 3 / 6) hs1 c1 hc1
    obtain ⟨b21, a21, g21⟩ := manResample_ok hN hlt hh (0.5 - Real.sqrt 3 / 6) hs2 c2 hc2
    obtain ⟨b22, a22, g22⟩ := manResample_ok hN hlt hh (0.5 + Real.sqrt 3 / 6) hs2 c2 hc2
    obtain ⟨u, eu, m1, m2, n1, n2⟩ := manCF_ok g11 g12 g21 g22
    have hsw : manPreSwitch d (Dsub * man_upsampling_factor d) Dsub s eps q1 q2
        (Buf.malloc (Dsub * man_upsampling_factor d), Buf.malloc (Dsub * man_upsampling_factor d)) = some (.ok u) := by
      rw [h0]
      have : manPreCF Dsub s eps q1 q2 (Buf.malloc (Dsub * 2), Buf.malloc (Dsub * 2)) = some u := by
        simp only [manPreCF, e, a11, a12, a21, a22, Option.bind_eq_bind, Option.bind_some]
        exact eu
      cases d <;> first | (simp only [manPreSwitch, this]; rfl) | (simp [man_upsampling_factor] at h0)
    refine ⟨u.1, u.2, _, _, h2 _ hsw, by rw [h0]; exact m1, by rw [h0]; exact m2,
      fun j hj => by rw [Nat.zero_add]; exact n1 j (by rw [h0] at hj; omega),
      fun j hj => by rw [Nat.zero_add]; exact n2 j (by rw [h0] at hj; omega), ?_, ?_⟩
    · rw [Spec.ManProcessed, if_neg (by omega)]
      refine ⟨c1, hc1, fun j hj => ?_⟩
      have e1 : (2 * j) % 2 = 0 := by omega
      have e2 : (2 * j) / 2 = j := by omega
      have e3 : (2 * j + 1) % 2 = 1 := by omega
      have e4 : (2 * j + 1) / 2 = j := by omega
      simp only [e1, e2, e3, e4, if_true, one_ne_zero, if_false, man_a1, man_a2]
      norm_num
    · rw [Spec.ManProcessed, if_neg (by omega)]
      refine ⟨c2, hc2, fun j hj => ?_⟩
      have e1 : (2 * j) % 2 = 0 := by omega
      have e2 : (2 * j) / 2 = j := by omega
      have e3 : (2 * j + 1) % 2 = 1 := by omega
      have e4 : (2 * j + 1) / 2 = j := by omega
      simp only [e1, e2, e3, e4, if_true, one_ne_zero, if_false, man_a1, man_a2]
      norm_num

end FNFT

import Verif.Proofs.NsepNewton
/-!
# Proofs: the iterations of Newton's method in fnft_nsep.c
-/
namespace FNFT
open Complex

open Classical in
theorem lineSearch_ok {eval : ℂ → Option (Except ℤ (ℂ × ℂ))} {f f' : ℂ → ℂ} (he : ∀ l, eval l = some (.ok (f l, f' l))) (tol : ℝ) (z d : ℂ) :
    lineSearch eval tol z d = some (.ok ⟨(Spec.multOf f tol z d).2, (Spec.multOf f tol z d).1,
      f (z - (Spec.multOf f tol z d).1 * d), f' (z - (Spec.multOf f tol z d).1 * d)⟩) := by
  unfold lineSearch Spec.multOf
  simp only [he, Option.bind_eq_bind, Option.bind_some, Option.pure_def, one_mul]
  by_cases h1 : ‖f (z - d)‖ < tol
  · simp [h1]
  · simp only [if_neg h1]
    by_cases h2 : ‖f (z - 2 * d)‖ < ‖f (z - d)‖
    · simp [h2]
    · simp [h2]

theorem multOf_pos (f : ℂ → ℂ) (tol : ℝ) (z d : ℂ) : 1 ≤ (Spec.multOf f tol z d).2 := by
  unfold Spec.multOf; split_ifs <;> simp

/-- Sequences that start with a given value. -/
def seqCons {α : Type*} (x : α) (f : ℕ → α) : ℕ → α
  | 0 => x
  | n + 1 => f n

theorem mainLoop_ok {eval : ℂ → Option (Except ℤ (ℂ × ℂ))} {f f' : ℂ → ℂ} (he : ∀ l, eval l = some (.ok (f l, f' l))) (tol : ℝ)
    (box : Fin 4 → Dbl) (max : ℕ) : ∀ (fuel n : ℕ) (z0 : ℂ), 1 ≤ fuel → max + 2 ≤ n + fuel →
    ∃ code out z e k, mainLoop eval tol box max fuel n z0 (f z0) (f' z0) = some (code, out) ∧
      Spec.MainRun f f' tol box max n z0 z e k ∧ Spec.MainEnd f f' tol box max z e k code out := by
  intro fuel
  induction fuel with
  | zero => intro n z0 h; omega
  | succ fuel ih =>
    intro n z0 _ hn
    unfold mainLoop
    by_cases h1 : n ≤ max
    swap
    · simp only [h1, not_false_eq_true, if_true]
      exact ⟨_, _, fun _ => z0, fun _ => n, 0, rfl, ⟨⟨rfl, rfl⟩, fun j hj => absurd hj (by omega), fun j hj => absurd hj (by omega),
        fun j hj => absurd hj (by omega)⟩, .exhausted (by omega) (fun h => absurd h (by omega))⟩
    simp only [h1, not_true_eq_false, if_false]
    by_cases h2 : f' z0 = 0
    · simp only [h2, if_true]
      exact ⟨_, _, fun _ => z0, fun _ => n, 0, rfl, ⟨⟨rfl, rfl⟩, fun j hj => absurd hj (by omega), fun j hj => absurd hj (by omega),
        fun j hj => absurd hj (by omega)⟩, .failed h2⟩
    simp only [h2, if_false, lineSearch_ok he, Option.bind_eq_bind, Option.bind_some, Option.pure_def]
    obtain ⟨mu, hmu⟩ : ∃ mu, mu = Spec.multOf f tol z0 (f z0 / f' z0) := ⟨_, rfl⟩
    obtain ⟨z1, hz1⟩ : ∃ z1, z1 = z0 - mu.1 * (f z0 / f' z0) := ⟨_, rfl⟩
    rw [← hmu, ← hz1]
    have hnorm : ‖(mu.1 : ℂ) * (f z0 / f' z0)‖ = ‖z1 - z0‖ := by rw [hz1, sub_sub_cancel_left, norm_neg]
    rw [hnorm]
    -- one step
    have run1 : ∀ e1, e1 = n + mu.2 → Spec.MainRun f f' tol box max n z0 (seqCons z0 fun _ => z1) (seqCons n fun _ => e1) 1 := by
      intro e1 he1
      refine ⟨⟨rfl, rfl⟩, fun j hj => ?_, fun j hj => ?_, fun j hj => absurd hj (by omega)⟩
      · obtain rfl : j = 0 := by omega
        refine ⟨h2, ?_, ?_⟩
        · show z1 = _
          rw [hz1, hmu]; rfl
        · show e1 = _
          rw [he1, hmu]; rfl
      · obtain rfl : j = 0 := by omega
        exact h1
    by_cases h3 : ‖z1 - z0‖ ≤ tol ∨ ‖f z0‖ ≤ tol
    · simp only [h3, if_true]
      by_cases h4 : f' z1 = 0
      · simp only [h4, if_true]
        exact ⟨_, _, _, _, 1, rfl, run1 _ rfl, .failed h4⟩
      · simp only [h4, if_false]
        exact ⟨_, _, _, _, 1, rfl, run1 _ rfl, .converged (by norm_num) h3 h4⟩
    simp only [h3, if_false]
    have h3' : tol < ‖z1 - z0‖ ∧ tol < ‖f z0‖ := by push Not at h3; exact h3
    by_cases h5 : nsepInBox z1 box
    swap
    · simp only [h5, not_false_eq_true, if_true]
      exact ⟨_, _, _, _, 1, rfl, run1 _ rfl, .left (by norm_num) h3' h5⟩
    simp only [h5, not_true_eq_false, if_false]
    have hm1 : 1 ≤ mu.2 := by rw [hmu]; exact multOf_pos _ _ _ _
    obtain ⟨code, out, z, e, k, r1, r2, r3⟩ := ih (n + mu.2) z1 (by omega) (by omega)
    refine ⟨code, out, seqCons z0 z, seqCons n e, k + 1, r1, ⟨⟨rfl, rfl⟩, ?_, ?_, ?_⟩, ?_⟩
    · intro j hj
      rcases j with _ | j
      · refine ⟨h2, ?_, ?_⟩
        · show z 0 = _
          rw [r2.start.1, hz1, hmu]; rfl
        · show e 0 = _
          rw [r2.start.2, hmu]; rfl
      · exact r2.step j (by omega)
    · intro j hj
      rcases j with _ | j
      · exact h1
      · exact r2.budget j (by omega)
    · intro j hj
      rcases j with _ | j
      · refine ⟨?_, ?_⟩
        · show Spec.InBoxC box (z 0)
          rw [r2.start.1]; exact h5
        · show tol < ‖z 0 - z0‖ ∧ tol < ‖f z0‖
          rw [r2.start.1]; exact h3'
      · exact r2.going j (by omega)
    · have hlast : ∀ P : ℂ → ℂ → Prop, (0 < k → P (z k) (z (k - 1))) → (k = 0 → P z1 z0) → P (seqCons z0 z (k + 1)) (seqCons z0 z (k + 1 - 1)) := by
        intro P p1 p2
        rcases Nat.eq_zero_or_pos k with rfl | hk
        · have := p2 rfl
          rw [← r2.start.1] at this
          exact this
        · obtain ⟨j, rfl⟩ : ∃ j, k = j + 1 := ⟨k - 1, by omega⟩
          exact p1 hk
      cases r3 with
      | converged a1 a2 a3 =>
        refine .converged (by omega) ?_ a3
        exact hlast (fun u v => ‖u - v‖ ≤ tol ∨ ‖f v‖ ≤ tol) (fun _ => a2) (fun h0 => absurd h0 (by omega))
      | left a1 a2 a3 =>
        refine .left (by omega) ?_ a3
        exact hlast (fun u v => tol < ‖u - v‖ ∧ tol < ‖f v‖) (fun _ => a2) (fun h0 => absurd h0 (by omega))
      | exhausted a1 a2 =>
        refine .exhausted a1 fun _ => ?_
        exact hlast (fun u v => Spec.InBoxC box u ∧ tol < ‖u - v‖ ∧ tol < ‖f v‖) a2 (fun _ => ⟨h5, h3'⟩)
      | failed a1 => exact .failed a1

theorem mainPoint_ok {eval : ℂ → Option (Except ℤ (ℂ × ℂ))} {f f' : ℂ → ℂ} (he : ∀ l, eval l = some (.ok (f l, f' l))) (tol : ℝ)
    (box : Fin 4 → Dbl) {max : ℕ} (hm : max ≠ 0) (z0 : ℂ) :
    ∃ code out, mainPoint eval tol box max z0 = some (code, out) ∧ Spec.MainNewton f f' tol box max z0 code out := by
  obtain ⟨code, out, z, e, k, h1, h2, h3⟩ := mainLoop_ok he tol box max (max + 1) 1 z0 (by omega) (by omega)
  refine ⟨code, out, ?_, ?_⟩
  · unfold mainPoint
    simp only [he, Option.bind_eq_bind, Option.bind_some, h1]
  · unfold Spec.MainNewton
    rw [if_neg hm]
    exact ⟨z, e, k, h2, h3⟩

theorem auxPoint_ok {eval : ℂ → Option (Except ℤ (ℂ × ℂ))} {f f' : ℂ → ℂ} {w : ℂ → ℤ}
    (he : ∀ l, eval l = some (.ok ((2 : ℂ) ^ (-w l) * f l, (2 : ℂ) ^ (-w l) * f' l))) (tol : ℝ) (box : Fin 4 → Dbl) :
    ∀ (max : ℕ) (z0 : ℂ), ∃ code out, auxPoint eval tol box max z0 = some (code, out) ∧ Spec.AuxNewton f f' w tol box max z0 code out := by
  intro max
  induction max with
  | zero =>
    intro z0
    exact ⟨SUCCESS, z0, rfl, fun _ => z0, 0, rfl, le_rfl, rfl, fun j hj => absurd hj (by omega), fun j hj => absurd hj (by omega),
      Or.inr ⟨rfl, Or.inl rfl⟩⟩
  | succ max ih =>
    intro z0
    have hw : (2 : ℂ) ^ (-w z0) ≠ 0 := zpow_ne_zero _ two_ne_zero
    unfold auxPoint
    simp only [he, Option.bind_eq_bind, Option.bind_some, Option.pure_def]
    by_cases h2 : f' z0 = 0
    · rw [if_pos (by rw [h2, mul_zero])]
      exact ⟨EC_DIV_BY_ZERO, z0, rfl, fun _ => z0, 0, rfl, by omega, rfl, fun j hj => absurd hj (by omega), fun j hj => absurd hj (by omega),
        Or.inl ⟨rfl, h2, by omega⟩⟩
    rw [if_neg (mul_ne_zero hw h2), mul_div_mul_left _ _ hw]
    obtain ⟨z1, hz1⟩ : ∃ z1, z1 = z0 - f z0 / f' z0 := ⟨_, rfl⟩
    rw [← hz1]
    have hnorm : ‖f z0 / f' z0‖ = ‖z1 - z0‖ := by rw [hz1, sub_sub_cancel_left, norm_neg]
    rw [hnorm]
    by_cases h3 : ‖z1 - z0‖ ≤ tol ∨ ‖(2 : ℂ) ^ (-w z0) * f z0‖ ≤ tol
    · rw [if_pos h3]
      refine ⟨SUCCESS, z1, rfl, seqCons z0 fun _ => z1, 1, rfl, by omega, rfl, fun j hj => ?_, fun j hj => absurd hj (by omega),
        Or.inr ⟨rfl, Or.inr ⟨by norm_num, ?_⟩⟩⟩
      · obtain rfl : j = 0 := by omega
        exact ⟨h2, hz1⟩
      · rcases h3 with h3 | h3
        · exact Or.inl h3
        · exact Or.inr (Or.inl h3)
    rw [if_neg h3]
    have h3' : tol < ‖z1 - z0‖ ∧ tol < ‖(2 : ℂ) ^ (-w z0) * f z0‖ := by push Not at h3; exact h3
    by_cases h5 : nsepInBox z1 box
    swap
    · rw [if_pos h5]
      refine ⟨SUCCESS, z1, rfl, seqCons z0 fun _ => z1, 1, rfl, by omega, rfl, fun j hj => ?_, fun j hj => absurd hj (by omega),
        Or.inr ⟨rfl, Or.inr ⟨by norm_num, Or.inr (Or.inr h5)⟩⟩⟩
      obtain rfl : j = 0 := by omega
      exact ⟨h2, hz1⟩
    rw [if_neg (not_not.mpr h5)]
    obtain ⟨code, out, r1, z, k, r2, r3, r4, r5, r6, r7⟩ := ih z1
    refine ⟨code, out, r1, seqCons z0 z, k + 1, rfl, by omega, r4, ?_, ?_, ?_⟩
    · intro j hj
      rcases j with _ | j
      · refine ⟨h2, ?_⟩
        show z 0 = _
        rw [r2, hz1]; rfl
      · exact r5 j (by omega)
    · intro j hj
      rcases j with _ | j
      · show Spec.InBoxC box (z 0) ∧ tol < ‖z 0 - z0‖ ∧ _
        rw [r2]
        exact ⟨h5, h3'⟩
      · exact r6 j (by omega)
    · rcases r7 with ⟨a1, a2, a3⟩ | ⟨a1, a2⟩
      · exact Or.inl ⟨a1, a2, by omega⟩
      · refine Or.inr ⟨a1, ?_⟩
        rcases a2 with a2 | ⟨a2, a3⟩
        · exact Or.inl (by omega)
        · refine Or.inr ⟨by omega, ?_⟩
          obtain ⟨j, rfl⟩ : ∃ j, k = j + 1 := ⟨k - 1, by omega⟩
          exact a3

/-- The loop over the values. -/
theorem refineLoop_ok {point : ℂ → Option (ℤ × ℂ)} {R : ℂ → ℤ → ℂ → Prop} (hp : ∀ z, ∃ code out, point z = some (code, out) ∧ R z code out)
    {off K : ℕ} {b : Buf ℂ} {init : ℕ → ℂ} (hb : b.Holds off K init) :
    ∃ code b' out, forLoop K (refineBody point off) (SUCCESS, b) = some (code, b') ∧ Spec.Refined (fun _ => R) K init code out ∧
      b'.Holds off K out ∧ b'.len = b.len ∧ ∀ j, (j < off ∨ off + K ≤ j) → b'.rd j = b.rd j := by
  choose pc po hp1 hp2 using hp
  -- what happens before entry n
  have key := forLoop_inv (n := K) (body := refineBody point off) (s := ((SUCCESS : ℤ), b))
    (fun n s => s.2.len = b.len ∧ (∀ j, (j < off ∨ off + n ≤ j) → s.2.rd j = b.rd j) ∧
      ((s.1 = SUCCESS ∧ ∀ i, i < n → pc (init i) = SUCCESS ∧ s.2.rd (off + i) = some (po (init i))) ∨
        (s.1 ≠ SUCCESS ∧ ∃ f, f < n ∧ pc (init f) = s.1 ∧ s.2.rd (off + f) = some (po (init f)) ∧
          (∀ i, i < f → pc (init i) = SUCCESS ∧ s.2.rd (off + i) = some (po (init i))) ∧
          ∀ i, f < i → i < K → s.2.rd (off + i) = some (init i))))
    ⟨rfl, fun j _ => rfl, Or.inl ⟨rfl, fun i hi => absurd hi (by omega)⟩⟩ (by
      rintro i ⟨c, s⟩ hi ⟨h1, h2, h3⟩
      dsimp only at h1 h2 h3
      unfold refineBody
      rcases h3 with ⟨rfl, h3⟩ | ⟨h3, f, f1, f2, f3, f4, f5⟩
      · have hrd : s.rd (off + i) = some (init i) := by rw [h2 _ (Or.inr le_rfl), hb i hi]
        obtain ⟨s', w1, w2, w3, w4⟩ := Buf.wr_spec (b := s) (i := off + i) (po (init i)) (Buf.rd_lt hrd)
        refine ⟨(pc (init i), s'), ?_, by rw [w2, h1], fun j hj => by rw [w4 j (by omega), h2 j (by omega)], ?_⟩
        · simp only [ne_eq, not_true_eq_false, if_false, hrd, Option.bind_eq_bind, Option.bind_some, hp1, w1, Option.pure_def]
        · by_cases hc : pc (init i) = SUCCESS
          · refine Or.inl ⟨hc, fun j hj => ?_⟩
            rcases Nat.lt_succ_iff_lt_or_eq.mp hj with hj | rfl
            · exact ⟨(h3 j hj).1, by rw [w4 _ (by omega)]; exact (h3 j hj).2⟩
            · exact ⟨hc, w3⟩
          · refine Or.inr ⟨hc, i, by omega, rfl, w3, fun j hj => ⟨(h3 j hj).1, by rw [w4 _ (by omega)]; exact (h3 j hj).2⟩,
              fun j hj hjK => ?_⟩
            show s'.rd (off + j) = _
            rw [w4 _ (by omega), h2 _ (by omega), hb j hjK]
      · rw [if_pos h3]
        exact ⟨_, rfl, h1, fun j hj => h2 j (by omega), Or.inr ⟨h3, f, by omega, f2, f3, f4, f5⟩⟩)
  obtain ⟨⟨code, b'⟩, k1, k2, k3, k4⟩ := key
  dsimp only at k2 k3 k4
  rcases k4 with ⟨rfl, k4⟩ | ⟨k4, f, f1, f2, f3, f4, f5⟩
  · refine ⟨SUCCESS, b', fun i => po (init i), k1, ⟨fun _ i hi => ?_, fun h => absurd rfl h⟩, fun i hi => (k4 i hi).2, k2, k3⟩
    have := hp2 (init i)
    rwa [(k4 i hi).1] at this
  · refine ⟨code, b', fun i => if i ≤ f then po (init i) else init i, k1, ⟨fun h => absurd h k4, fun _ => ⟨f, f1, ?_, fun i hi => ?_, fun i hi _ => ?_⟩⟩,
      fun i hi => ?_, k2, k3⟩
    · have := hp2 (init f)
      rw [f2] at this
      simpa using this
    · have := hp2 (init i)
      rw [(f4 i hi).1] at this
      simpa [hi.le] using this
    · rw [if_neg (by omega)]
    · dsimp only
      rcases lt_trichotomy i f with h | rfl | h
      · rw [if_pos h.le]; exact (f4 i h).2
      · rw [if_pos le_rfl]; exact f3
      · rw [if_neg (by omega)]; exact f5 i h hi

end FNFT

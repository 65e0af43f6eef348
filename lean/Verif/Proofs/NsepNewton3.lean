import Verif.Proofs.NsepNewton2
/-!
# Proofs: the Newton routine of fnft_nsep.c
-/
namespace FNFT
open Complex

variable {D : ℕ} {q r : Buf ℂ} {qf rf : ℕ → ℂ} {eps : ℝ} {kappa : ℤ} {d : NseDisc} {a : AknsDisc}

theorem nsepTol_eq (o : NsepOpts) : nsepTol o = Spec.newtonTol o := by
  unfold nsepTol Spec.newtonTol
  by_cases h : o.tol < 0
  · rw [if_pos h, if_neg (not_le.mpr h)]
  · rw [if_neg h, if_pos (not_lt.mp h)]

theorem nsepRhs_eq (o : NsepOpts) (n : ℕ) : nsepRhs o n = Spec.spineVal o.range0 o.range1 o.pps n := by
  unfold nsepRhs Spec.spineVal
  by_cases h : o.pps > 1
  · rw [if_pos h, if_neg (by omega)]
  · rw [if_neg h, if_pos (by omega)]

theorem refine_mainspec_ok (h : MonoArgs D q r qf rf eps kappa d a) (nrm : Bool) (box : Fin 4 → Dbl) (max : ℕ) (rhs tol : ℝ)
    {off K : ℕ} {b : Buf ℂ} {init : ℕ → ℂ} (hb : b.Holds off K init) :
    ∃ code b' out, refine_mainspec D q r eps off K b max rhs tol kappa d box nrm = some (code, b') ∧
      Spec.Refined (fun _ => Spec.MainNewton (fun l => Spec.floquet (Spec.mono expS a D eps qf rf l) + rhs)
        (fun l => Spec.floquet (monoD a D eps qf rf l)) tol box max) K init code out ∧
      b'.Holds off K out ∧ b'.len = b.len ∧ ∀ j, (j < off ∨ off + K ≤ j) → b'.rd j = b.rd j := by
  unfold refine_mainspec
  by_cases hm : max = 0
  · rw [if_pos hm]
    refine ⟨SUCCESS, b, init, rfl, ⟨fun _ i _ => ?_, fun h => absurd rfl h⟩, hb, rfl, fun _ _ => rfl⟩
    unfold Spec.MainNewton
    rw [if_pos hm]; exact ⟨rfl, rfl⟩
  · rw [if_neg hm]
    exact refineLoop_ok (fun z => mainPoint_ok (fun l => mainEval_ok h nrm rhs l) tol box hm z) hb

theorem refine_auxspec_ok (h : MonoArgs D q r qf rf eps kappa d a) (nrm : Bool) (box : Fin 4 → Dbl) (max : ℕ) (tol : ℝ)
    {K : ℕ} {b : Buf ℂ} {init : ℕ → ℂ} (hb : b.Holds 0 K init) :
    ∃ w : ℂ → ℤ, (nrm = false → ∀ l, w l = 0) ∧ ∃ code b' out, refine_auxspec D q r eps K b max tol kappa d box nrm = some (code, b') ∧
      Spec.Refined (fun _ => Spec.AuxNewton (fun l => Spec.mono expS a D eps qf rf l 0 1)
        (fun l => monoD a D eps qf rf l 0 1) w tol box max) K init code out ∧
      b'.Holds 0 K out ∧ b'.len = b.len ∧ ∀ j, K ≤ j → b'.rd j = b.rd j := by
  obtain ⟨w, w1, w2⟩ := auxEval_ok h nrm
  refine ⟨w, w1, ?_⟩
  unfold refine_auxspec
  by_cases hm : max = 0
  · rw [if_pos hm]
    refine ⟨SUCCESS, b, init, rfl, ⟨fun _ i _ => ?_, fun h => absurd rfl h⟩, hb, rfl, fun _ _ => rfl⟩
    subst hm
    exact ⟨fun _ => init i, 0, rfl, le_rfl, rfl, fun j hj => absurd hj (by omega), fun j hj => absurd hj (by omega), Or.inr ⟨rfl, Or.inl rfl⟩⟩
  · rw [if_neg hm]
    obtain ⟨code, b', out, h1, h2, h3, h4, h5⟩ := refineLoop_ok (auxPoint_ok w2 tol box max) hb
    exact ⟨code, b', out, h1, h2, h3, h4, fun j hj => h5 j (Or.inr (by omega))⟩

/-- The loop over the right hand sides. -/
theorem newtonSpines_ok (h : MonoArgs D q r qf rf eps kappa d a) (o : NsepOpts) (ho : o.disc = d) {K : ℕ} {b : Buf ℂ} {init : ℕ → ℂ}
    (hb : b.Holds 0 (K * o.pps) init) {R : ℕ → ℂ → ℤ → ℂ → Prop}
    (hR : R = fun i => Spec.MainNewton (fun l => Spec.floquet (Spec.mono expS a D eps qf rf l) - Spec.spineVal o.range0 o.range1 o.pps (i / K))
        (fun l => Spec.floquet (monoD a D eps qf rf l)) (Spec.newtonTol o) o.box o.max_evals) :
    ∃ code b' out, forLoop o.pps (newtonSpine D q r eps K kappa o) (SUCCESS, b) = some (chk code, b') ∧
      Spec.Refined R (K * o.pps) init code out ∧ b'.Holds 0 (K * o.pps) out ∧ b'.len = b.len ∧ ∀ j, K * o.pps ≤ j → b'.rd j = b.rd j := by
  have key := forLoop_inv (n := o.pps) (body := newtonSpine D q r eps K kappa o) (s := ((SUCCESS : ℤ), b))
    (fun n s => ∃ code out, s.1 = chk code ∧ Spec.Refined R (K * n) init code out ∧ s.2.len = b.len ∧ s.2.Holds 0 (K * n) out ∧
      ∀ j, K * n ≤ j → s.2.rd j = b.rd j)
    ⟨SUCCESS, init, rfl, ⟨fun _ i hi => absurd hi (by omega), fun h => absurd rfl h⟩, rfl, fun i hi => absurd hi (by omega), fun _ _ => rfl⟩ (by
      rintro n ⟨c, s⟩ hn ⟨code, out, h1, h2, h3, h4, h5⟩
      dsimp only at h1 h3 h4 h5
      have hKn : K * n + K ≤ K * o.pps := by
        calc K * n + K = K * (n + 1) := by ring
          _ ≤ _ := Nat.mul_le_mul_left _ hn
      unfold newtonSpine
      by_cases hc : code = SUCCESS
      · subst hc
        rw [show chk SUCCESS = SUCCESS from rfl] at h1
        subst h1
        have hblk : s.Holds (n * K) K (fun i => init (K * n + i)) := by
          intro i hi
          rw [h5 _ (by rw [Nat.mul_comm]; omega)]
          have := hb (K * n + i) (by omega)
          rw [Nat.zero_add] at this
          rw [Nat.mul_comm n K, this]
        obtain ⟨code', b', out', r1, r2, r3, r4, r5⟩ := refine_mainspec_ok h o.nrm o.box o.max_evals (-nsepRhs o n) (nsepTol o) hblk
        refine ⟨(chk code', b'), ?_, code', fun i => if i < K * n then out i else out' (i - K * n), rfl, ?_, by rw [r4, h3], ?_, ?_⟩
        · rw [if_neg (by simp), ho]
          simp only [r1, Option.bind_eq_bind, Option.bind_some, Option.pure_def]
        · have hR' : ∀ i, i < K → ∀ z c y, Spec.MainNewton (fun l => Spec.floquet (Spec.mono expS a D eps qf rf l) + ((-nsepRhs o n : ℝ) : ℂ))
              (fun l => Spec.floquet (monoD a D eps qf rf l)) (nsepTol o) o.box o.max_evals z c y → R (K * n + i) z c y := by
            intro i hi z c y hy
            have : (K * n + i) / K = n := by
              rw [Nat.mul_add_div (by omega), Nat.div_eq_of_lt hi, Nat.add_zero]
            rw [hR]
            dsimp only
            rw [this, ← nsepRhs_eq, ← nsepTol_eq]
            simpa only [ofReal_neg, ← sub_eq_add_neg] using hy
          constructor
          · intro hc i hi
            by_cases hin : i < K * n
            · rw [if_pos hin]; exact h2.ok rfl i hin
            · rw [if_neg hin]
              obtain ⟨j, rfl⟩ : ∃ j, i = K * n + j := ⟨i - K * n, by omega⟩
              have hj : j < K := by rw [Nat.mul_succ] at hi; omega
              rw [show K * n + j - K * n = j by omega]
              exact hR' j hj _ _ _ (r2.ok hc j hj)
          · intro hc
            obtain ⟨f, f1, f2, f3, f4⟩ := r2.failed hc
            refine ⟨K * n + f, by rw [Nat.mul_succ]; omega, ?_, fun i hi => ?_, fun i hi hiK => ?_⟩
            · rw [if_neg (by omega), show K * n + f - K * n = f by omega]
              exact hR' f f1 _ _ _ f2
            · by_cases hin : i < K * n
              · rw [if_pos hin]; exact h2.ok rfl i hin
              · rw [if_neg hin]
                obtain ⟨j, rfl⟩ : ∃ j, i = K * n + j := ⟨i - K * n, by omega⟩
                rw [show K * n + j - K * n = j by omega]
                exact hR' j (by omega) _ _ _ (f3 j (by omega))
            · rw [if_neg (by omega)]
              obtain ⟨j, rfl⟩ : ∃ j, i = K * n + j := ⟨i - K * n, by omega⟩
              rw [show K * n + j - K * n = j by omega]
              exact f4 j (by omega) (by rw [Nat.mul_succ] at hiK; omega)
        · intro i hi
          dsimp only
          rw [Nat.zero_add]
          by_cases hin : i < K * n
          · rw [if_pos hin, r5 _ (Or.inl (by rw [Nat.mul_comm]; exact hin))]
            have := h4 i hin
            rwa [Nat.zero_add] at this
          · rw [if_neg hin]
            have := r3 (i - K * n) (by rw [Nat.mul_succ] at hi; omega)
            rwa [Nat.mul_comm n K, show K * n + (i - K * n) = i by omega] at this
        · intro j hj
          rw [Nat.mul_succ] at hj
          dsimp only
          rw [r5 j (Or.inr (by rw [Nat.mul_comm n K]; omega)), h5 j (by omega)]
      · have hc' : chk code ≠ SUCCESS := by unfold chk; rw [if_neg hc]; exact E_SUBROUTINE_ne hc
        rw [if_pos (by rw [h1]; exact hc')]
        obtain ⟨f, f1, f2, f3, f4⟩ := h2.failed hc
        refine ⟨_, rfl, code, fun i => if i < K * n then out i else init i, h1, ⟨fun h => absurd h hc, fun _ => ⟨f, by rw [Nat.mul_succ]; omega, ?_, ?_, ?_⟩⟩,
          h3, ?_, fun j hj => h5 j (by rw [Nat.mul_succ] at hj; omega)⟩
        · rw [if_pos f1]; exact f2
        · intro i hi; rw [if_pos (by omega)]; exact f3 i hi
        · intro i hi _
          by_cases hin : i < K * n
          · rw [if_pos hin]; exact f4 i hi hin
          · rw [if_neg hin]
        · intro i hi
          dsimp only
          by_cases hin : i < K * n
          · rw [if_pos hin]; exact h4 i hin
          · rw [if_neg hin, Nat.zero_add, h5 _ (by omega)]
            have := hb i (by rw [Nat.mul_succ] at hi; omega)
            rwa [Nat.zero_add] at this)
  obtain ⟨⟨c, b'⟩, k1, code, out, k2, k3, k4, k5, k6⟩ := key
  dsimp only at k2
  subst k2
  exact ⟨code, b', out, k1, k3, k5, k4, k6⟩

end FNFT

import Verif.Proofs.PolyEval
/-!
# Properties C11, C12 (polynomial evaluation)
-/
namespace FNFT
open Finset Polynomial

/-- `poly_eval` replaces each `z[i]` by `p(z[i])`, for every degree and every `z`. -/
theorem C11_poly_eval (deg nz : ℕ) (p z : Buf ℂ) (c x : ℕ → ℂ) (hp : p.Holds 0 (deg + 1) c)
    (hz : z.Holds 0 nz x) :
    ∃ z', poly_eval deg (some p) nz (some z) = some (SUCCESS, some z') ∧ z'.len = z.len ∧
      z'.Holds 0 nz (fun i => (Spec.poly deg c).eval (x i)) ∧ ∀ j, nz ≤ j → z'.rd j = z.rd j := by
  obtain ⟨z', h1, h2, h3, h4⟩ := mapLoop_spec hz (f := fun v => (Spec.poly deg c).eval v)
    (body := fun i z => do
      let zi ← z.rd i
      if ‖zi‖ ≤ 1 then
        let tmp ← hornerFwd deg p zi
        z.wr i tmp
      else
        let tmp ← hornerRev deg p zi
        z.wr i (tmp * zi ^ deg)) (by
    intro i b v hi hr hl
    simp only [hr, Option.bind_eq_bind, Option.bind_some]
    split_ifs with hv
    · rw [hornerFwd_spec hp]; rfl
    · have hv0 : v ≠ 0 := by rintro rfl; simp at hv
      obtain ⟨t, e1, e2⟩ := hornerRev_spec hp v hv0
      rw [e1, Option.bind_some, e2])
  refine ⟨z', ?_, h2, h3, h4⟩
  unfold poly_eval; dsimp only; rw [h1]; rfl

/-- `poly_evalderiv` replaces each `z[i]` by `p(z[i])` and stores `p'(z[i])`, for every degree and `z`.
(For `deg = 0` and `|z|>1` the code raises `z` to the wrapped around power `2^64-1` and multiplies the
result by 0: right in exact arithmetic, NaN in floating point.) -/
theorem C12_poly_evalderiv (deg nz : ℕ) (p z d : Buf ℂ) (c x : ℕ → ℂ) (hp : p.Holds 0 (deg + 1) c)
    (hz : z.Holds 0 nz x) (hd : nz ≤ d.len) :
    ∃ z' d', poly_evalderiv deg (some p) nz (some z) d = some (SUCCESS, some z', d') ∧
      z'.len = z.len ∧ d'.len = d.len ∧
      z'.Holds 0 nz (fun i => (Spec.poly deg c).eval (x i)) ∧
      d'.Holds 0 nz (fun i => (derivative (Spec.poly deg c)).eval (x i)) ∧
      ∀ j, nz ≤ j → z'.rd j = z.rd j ∧ d'.rd j = d.rd j := by
  have := forLoop_inv (n := nz) (body := fun i (s : Buf ℂ × Buf ℂ) => do
      let zi ← s.1.rd i
      if ‖zi‖ ≤ 1 then
        let t ← hornerFwd2 deg p zi
        let z ← s.1.wr i t.1
        let d ← s.2.wr i t.2
        return (z, d)
      else
        let t ← hornerRev2 deg p zi
        let d ← s.2.wr i (zi ^ uintPred deg * (deg * t.1 - t.2 / zi))
        let z ← s.1.wr i (t.1 * zi ^ deg)
        return (z, d)) (s := (z, d))
    (fun k s => s.1.len = z.len ∧ s.2.len = d.len ∧
      (∀ j, j < k → s.1.rd j = some ((Spec.poly deg c).eval (x j)) ∧
        s.2.rd j = some ((derivative (Spec.poly deg c)).eval (x j))) ∧
      ∀ j, k ≤ j → s.1.rd j = z.rd j ∧ s.2.rd j = d.rd j) ?_ ?_
  · obtain ⟨s, h1, h2, h3, h4, h5⟩ := this
    refine ⟨s.1, s.2, ?_, h2, h3, fun i hi => ?_, fun i hi => ?_, h5⟩
    · unfold poly_evalderiv; dsimp only; rw [h1]; rfl
    · rw [Nat.zero_add]; exact (h4 i hi).1
    · rw [Nat.zero_add]; exact (h4 i hi).2
  · exact ⟨rfl, rfl, fun j h => by omega, fun j _ => ⟨rfl, rfl⟩⟩
  · rintro i ⟨s1, s2⟩ hi ⟨h1, h2, h3, h4⟩
    dsimp only at h1 h2 h3 h4
    have hr := hz i hi
    rw [Nat.zero_add] at hr
    have hl := Buf.rd_lt hr
    have hr' : s1.rd i = some (x i) := by rw [(h4 i le_rfl).1, hr]
    have fin : ∀ v w, v = (Spec.poly deg c).eval (x i) →
        w = (derivative (Spec.poly deg c)).eval (x i) →
        (s1.set i v).len = z.len ∧ (s2.set i w).len = d.len ∧
        (∀ j, j < i + 1 → (s1.set i v).rd j = some ((Spec.poly deg c).eval (x j)) ∧
          (s2.set i w).rd j = some ((derivative (Spec.poly deg c)).eval (x j))) ∧
        ∀ j, i + 1 ≤ j → (s1.set i v).rd j = z.rd j ∧ (s2.set i w).rd j = d.rd j := by
      rintro v w rfl rfl
      refine ⟨by simp [h1], by simp [h2], fun j hj => ?_, fun j hj => ?_⟩
      · rw [Buf.rd_set _ (by omega), Buf.rd_set _ (by omega)]
        by_cases h : j = i
        · simp [h]
        · rw [if_neg h, if_neg h]; exact h3 j (by omega)
      · rw [Buf.rd_set _ (by omega), Buf.rd_set _ (by omega), if_neg (by omega), if_neg (by omega)]
        exact h4 j (by omega)
    simp only [hr', Option.bind_eq_bind, Option.bind_some]
    split_ifs with hv
    · rw [hornerFwd2_spec hp, Option.bind_some, Buf.wr_eq _ (by omega), Option.bind_some,
        Buf.wr_eq _ (by omega), Option.bind_some]
      exact ⟨_, rfl, fin _ _ rfl rfl⟩
    · have hv0 : x i ≠ 0 := by intro h; rw [h] at hv; simp at hv
      obtain ⟨t, e1, e2, e3⟩ := hornerRev2_spec hp (x i) hv0
      rw [e1, Option.bind_some, Buf.wr_eq _ (by omega), Option.bind_some,
        Buf.wr_eq _ (by omega), Option.bind_some]
      exact ⟨_, rfl, fin _ _ e2 e3⟩

/-- `NULL` arguments are rejected without touching anything. -/
theorem C11_C12_null (deg nz : ℕ) (p z : Option (Buf ℂ)) (d : Buf ℂ) (h : p = none ∨ z = none) :
    poly_eval deg p nz z = some (EC_INVALID_ARGUMENT, z) ∧
      poly_evalderiv deg p nz z d = some (EC_INVALID_ARGUMENT, z, d) := by
  rcases p with _ | p
  · exact ⟨rfl, rfl⟩
  · rcases z with _ | z
    · exact ⟨rfl, rfl⟩
    · simp at h

example : (Buf.ofFn 4 (fun i => (i : ℂ))).Holds 0 (3 + 1) (fun i => (i : ℂ)) ∧
    (Buf.ofFn 2 (fun i => (3 * i : ℂ))).Holds 0 2 (fun i => (3 * i : ℂ)) :=
  ⟨Buf.holds_ofFn _ _, Buf.holds_ofFn _ _⟩

end FNFT

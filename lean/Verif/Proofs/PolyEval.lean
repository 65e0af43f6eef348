import Verif.Model.PolyEval
import Verif.Spec.Poly
import Mathlib.Tactic.FieldSimp
import Mathlib.Tactic.LinearCombination
/-! Horner loops. -/
namespace FNFT
open Finset Polynomial

theorem Spec.poly_eval (deg : ℕ) (p : ℕ → ℂ) (z : ℂ) :
    (Spec.poly deg p).eval z = ∑ j ∈ range (deg + 1), p j * z ^ (deg - j) := by
  simp [Spec.poly, eval_finsetSum]

theorem Spec.poly_succ (deg : ℕ) (p : ℕ → ℂ) :
    Spec.poly (deg + 1) p = Spec.poly deg p * X + C (p (deg + 1)) := by
  rw [Spec.poly, sum_range_succ, Spec.poly, sum_mul]
  congr 1
  · refine sum_congr rfl fun j hj => ?_
    have : deg + 1 - j = (deg - j) + 1 := by have := mem_range.mp hj; omega
    rw [this, pow_succ, mul_assoc]
  · simp

theorem Spec.poly_zero (p : ℕ → ℂ) : Spec.poly 0 p = C (p 0) := by simp [Spec.poly]

theorem hornerFwd2_spec {deg : ℕ} {b : Buf ℂ} {p : ℕ → ℂ} (hb : b.Holds 0 (deg + 1) p) (z : ℂ) :
    hornerFwd2 deg b z = some ((Spec.poly deg p).eval z, (derivative (Spec.poly deg p)).eval z) := by
  have h0 := hb 0 (by omega)
  rw [Nat.zero_add] at h0
  rw [hornerFwd2, h0, Option.bind_eq_bind, Option.bind_some]
  obtain ⟨t, h1, h2⟩ := forLoop_inv (n := deg) (body := fun j' (s : ℂ × ℂ) => do
    let c ← b.rd (j' + 1)
    return (c + s.1 * z, s.1 + s.2 * z)) (s := (p 0, 0))
    (fun k s => s = ((Spec.poly k p).eval z, (derivative (Spec.poly k p)).eval z))
    (by simp [Spec.poly_zero]) (by
      rintro i s hi rfl
      have hr := hb (i + 1) (by omega)
      rw [Nat.zero_add] at hr
      simp only [hr, Option.bind_eq_bind, Option.bind_some]
      refine ⟨_, rfl, ?_⟩
      rw [Spec.poly_succ]
      simp
      constructor <;> ring)
  rw [← h2]; exact h1

theorem hornerFwd_spec {deg : ℕ} {b : Buf ℂ} {p : ℕ → ℂ} (hb : b.Holds 0 (deg + 1) p) (z : ℂ) :
    hornerFwd deg b z = some ((Spec.poly deg p).eval z) := by
  have h0 := hb 0 (by omega)
  rw [Nat.zero_add] at h0
  rw [hornerFwd, h0, Option.bind_eq_bind, Option.bind_some]
  obtain ⟨t, h1, h2⟩ := forLoop_inv (n := deg) (body := fun j' (s : ℂ) => do
    let c ← b.rd (j' + 1)
    return (c + s * z)) (s := p 0)
    (fun k s => s = (Spec.poly k p).eval z)
    (by simp [Spec.poly_zero]) (by
      rintro i s hi rfl
      have hr := hb (i + 1) (by omega)
      rw [Nat.zero_add] at hr
      simp only [hr, Option.bind_eq_bind, Option.bind_some]
      refine ⟨_, rfl, ?_⟩
      rw [Spec.poly_succ]
      simp
      ring)
  rw [← h2]; exact h1

/-- The reversed sub-polynomial processed after `k` iterations. -/
noncomputable def tailPoly (deg : ℕ) (p : ℕ → ℂ) (k : ℕ) : Polynomial ℂ :=
  Spec.poly k (fun j => p (deg - k + j))

theorem tailPoly_succ {deg k : ℕ} (p : ℕ → ℂ) (h : k + 1 ≤ deg) :
    tailPoly deg p (k + 1) = C (p (deg - (k + 1))) * X ^ (k + 1) + tailPoly deg p k := by
  rw [tailPoly, Spec.poly, sum_range_succ', add_comm, tailPoly, Spec.poly]
  congr 1
  refine sum_congr rfl fun j hj => ?_
  have h1 : deg - (k + 1) + (j + 1) = deg - k + j := by omega
  have h2 : k + 1 - (j + 1) = k - j := by omega
  rw [h1, h2]

theorem hornerRev2_spec {deg : ℕ} {b : Buf ℂ} {p : ℕ → ℂ} (hb : b.Holds 0 (deg + 1) p) (z : ℂ)
    (hz : z ≠ 0) :
    ∃ t, hornerRev2 deg b z = some t ∧ t.1 * z ^ deg = (Spec.poly deg p).eval z ∧
      z ^ uintPred deg * (deg * t.1 - t.2 / z) = (derivative (Spec.poly deg p)).eval z := by
  have h0 := hb deg (by omega)
  rw [Nat.zero_add] at h0
  rw [hornerRev2, h0, Option.bind_eq_bind, Option.bind_some]
  obtain ⟨t, h1, h2, h3⟩ := forLoop_inv (n := deg) (body := fun j' (s : ℂ × ℂ) => do
    let c ← b.rd (deg - (j' + 1))
    return (c + s.1 / z, s.1 + s.2 / z)) (s := (p deg, 0))
    (fun k s => s.1 * z ^ k = (tailPoly deg p k).eval z ∧
      z ^ k * (k * s.1 - s.2 / z) = z * (derivative (tailPoly deg p k)).eval z)
    (by simp [tailPoly, Spec.poly_zero]) (by
      rintro i s hi ⟨e1, e2⟩
      have hr := hb (deg - (i + 1)) (by omega)
      rw [Nat.zero_add] at hr
      simp only [hr, Option.bind_eq_bind, Option.bind_some]
      refine ⟨_, rfl, ?_, ?_⟩
      · rw [tailPoly_succ p hi]
        simp only [eval_add, eval_mul, eval_C, eval_pow, eval_X]
        rw [← e1]; field_simp; ring
      · rw [tailPoly_succ p hi]
        simp only [derivative_add, derivative_C_mul, derivative_X_pow, eval_add, eval_mul, eval_C,
          eval_pow, eval_X, mul_add]
        rw [← e2]
        simp only [Nat.add_sub_cancel, Nat.cast_add, Nat.cast_one]
        field_simp
        ring)
  refine ⟨t, h1, ?_, ?_⟩
  · rw [h2]; simp [tailPoly]
  · have e : tailPoly deg p deg = Spec.poly deg p := by simp [tailPoly]
    rw [e] at h3
    by_cases hd : deg = 0
    · subst hd
      have ht : t = (p 0, 0) := by
        simp only [forLoop_zero] at h1; exact (Option.some.inj h1).symm
      simp [Spec.poly_zero, ht]
    · rw [uintPred, if_neg hd]
      obtain ⟨d, rfl⟩ : ∃ d, deg = d + 1 := ⟨deg - 1, by omega⟩
      apply mul_left_cancel₀ hz
      rw [← h3, Nat.add_sub_cancel, pow_succ]; ring

theorem hornerRev_spec {deg : ℕ} {b : Buf ℂ} {p : ℕ → ℂ} (hb : b.Holds 0 (deg + 1) p) (z : ℂ)
    (hz : z ≠ 0) :
    ∃ t, hornerRev deg b z = some t ∧ t * z ^ deg = (Spec.poly deg p).eval z := by
  have h0 := hb deg (by omega)
  rw [Nat.zero_add] at h0
  rw [hornerRev, h0, Option.bind_eq_bind, Option.bind_some]
  obtain ⟨t, h1, h2⟩ := forLoop_inv (n := deg) (body := fun j' (s : ℂ) => do
    let c ← b.rd (deg - (j' + 1))
    return (c + s / z)) (s := p deg)
    (fun k s => s * z ^ k = (tailPoly deg p k).eval z)
    (by simp [tailPoly, Spec.poly_zero]) (by
      rintro i s hi e1
      have hr := hb (deg - (i + 1)) (by omega)
      rw [Nat.zero_add] at hr
      simp only [hr, Option.bind_eq_bind, Option.bind_some]
      refine ⟨_, rfl, ?_⟩
      rw [tailPoly_succ p hi]
      simp only [eval_add, eval_mul, eval_C, eval_pow, eval_X]
      rw [← e1]; field_simp; ring)
  refine ⟨t, h1, ?_⟩
  rw [h2]; simp [tailPoly]

/-- A loop that replaces each of the first `n` entries by a function of it. -/
theorem mapLoop_spec {α : Type*} {n : ℕ} {z : Buf α} {x : ℕ → α} (hz : z.Holds 0 n x)
    {f : α → α} {body : ℕ → Buf α → Option (Buf α)}
    (hbody : ∀ (i : ℕ) (b : Buf α) (v : α), i < n → b.rd i = some v → b.len = z.len →
      body i b = b.wr i (f v)) :
    ∃ z', forLoop n body z = some z' ∧ z'.len = z.len ∧ z'.Holds 0 n (fun i => f (x i)) ∧
      ∀ j, n ≤ j → z'.rd j = z.rd j := by
  have := forLoop_inv (n := n) (body := body) (s := z)
    (fun k (v' : Buf α) => v'.len = z.len ∧ (∀ j, j < k → v'.rd j = some (f (x j))) ∧
      ∀ j, k ≤ j → v'.rd j = z.rd j) ?_ ?_
  · obtain ⟨v', h1, h2, h3, h4⟩ := this
    exact ⟨v', h1, h2, fun i hi => by rw [Nat.zero_add]; exact h3 i hi, h4⟩
  · exact ⟨rfl, fun j h => by omega, fun j _ => rfl⟩
  · rintro i v' hi ⟨h1, h2, h3⟩
    have hr := hz i hi
    rw [Nat.zero_add] at hr
    have hl := Buf.rd_lt hr
    have hr' : v'.rd i = some (x i) := by rw [h3 i le_rfl, hr]
    rw [hbody i v' (x i) hi hr' h1]
    refine ⟨_, Buf.wr_eq _ (by omega), by simp [h1], ?_, ?_⟩
    · intro j hj
      rw [Buf.rd_set _ (by omega)]
      split_ifs with h
      · rw [h]
      · exact h2 j (by omega)
    · intro j hj
      rw [Buf.rd_set _ (by omega), if_neg (by omega)]; exact h3 j (by omega)

end FNFT

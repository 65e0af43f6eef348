import Verif.Model.KdvFinv
import Verif.Proofs.FinvLink
import Verif.Proofs.FinvDescend
import Verif.Proofs.KdvFast
/-! The fast inverse scattering for the KdV equation: exchange of the roles of the two potentials. -/
namespace FNFT
open Polynomial Matrix Kiss

/-- The transfer matrix after the exchange: the block of `T21` contains `T12`, shifted. -/
def transposed (deg : ℕ) (x : ℕ → ℂ) (j : ℕ) : ℂ :=
  if j = 2 * (deg + 1) then 0 else if 2 * (deg + 1) < j ∧ j < 3 * (deg + 1) then x (j - (deg + 2)) else x j

theorem kdvTranspose_ok {deg : ℕ} {tm : Buf ℂ} {x : ℕ → ℂ} (hx : tm.Holds 0 (4 * (deg + 1)) x) (hlen : 4 * (deg + 1) ≤ tm.len) :
    ∃ tm', finvTranspose true deg tm = some tm' ∧ tm'.len = tm.len ∧ tm'.Holds 0 (4 * (deg + 1)) (transposed deg x) ∧
      ∀ j, (j < 2 * (deg + 1) ∨ 3 * (deg + 1) ≤ j) → tm'.rd j = tm.rd j := by
  obtain ⟨t1, e1, l1, r1, o1⟩ := Buf.wr_spec (b := tm) (i := 2 * (deg + 1)) (0 : ℂ) (by omega)
  obtain ⟨t2, e2, l2, r2⟩ := fill_spec (off := 2 * (deg + 1) + 1) (cnt := deg) (f := fun k => t1.rd (k - (2 * (deg + 1) + 1) + (deg + 1))) (b := t1)
    (fun j => x (j - (deg + 2))) (fun i h1 h2 => by
      rw [o1 _ (by omega)]
      have := hx (i - (2 * (deg + 1) + 1) + (deg + 1)) (by omega)
      rw [Nat.zero_add] at this
      rw [this]; congr 2; omega) (Or.inl (by omega))
  refine ⟨t2, ?_, by omega, fun j hj => ?_, fun j hj => ?_⟩
  · rw [finvTranspose, if_pos rfl, e1]; exact e2
  · rw [Nat.zero_add, r2, transposed]
    have := hx j hj
    rw [Nat.zero_add] at this
    by_cases h1 : j = 2 * (deg + 1)
    · rw [if_neg (by omega), if_pos h1, h1, r1]
    · rw [if_neg h1]
      by_cases h2 : 2 * (deg + 1) < j ∧ j < 3 * (deg + 1)
      · rw [if_pos (by omega), if_pos h2]
      · rw [if_neg (by omega), if_neg h2, o1 _ h1, this]
  · rw [r2, if_neg (by omega), o1 _ (by omega)]

theorem kdvReverse_ok {D : ℕ} {q : Buf ℂ} (y : ℕ → ℂ) (hl : q.len = D) (hy : ∀ n, n < D → q.rd n = some (y n)) :
    ∃ q', finvReverse true D q = some q' ∧ q'.len = D ∧ ∀ n, n < D → q'.rd n = some (y (D - 1 - n)) := by
  have key := forLoop_inv (n := D / 2) (s := q) (body := fun i q => do
      let tmp ← q.rd i
      let x ← q.rd (D - 1 - i)
      let q ← q.wr i x
      q.wr (D - 1 - i) tmp) (fun i (b : Buf ℂ) => b.len = D ∧ ∀ n, n < D → b.rd n = some (if n < i ∨ D - 1 - i < n then y (D - 1 - n) else y n))
    ⟨hl, fun n hn => by rw [if_neg (by omega), hy n hn]⟩ ?_
  · obtain ⟨q', e, h1, h2⟩ := key
    refine ⟨q', by rw [finvReverse, if_pos rfl]; exact e, h1, fun n hn => ?_⟩
    rw [h2 n hn]
    by_cases h : n < D / 2 ∨ D - 1 - D / 2 < n
    · rw [if_pos h]
    · rw [if_neg h]; congr 2; omega
  · rintro i b hi ⟨h1, h2⟩
    have ha := h2 i (by omega)
    have hb := h2 (D - 1 - i) (by omega)
    rw [if_neg (by omega)] at ha hb
    obtain ⟨b1, e1, l1, r1, o1⟩ := Buf.wr_spec (b := b) (i := i) (y (D - 1 - i)) (by omega)
    obtain ⟨b2, e2, l2, r2, o2⟩ := Buf.wr_spec (b := b1) (i := D - 1 - i) (y i) (by omega)
    refine ⟨b2, ?_, by omega, fun n hn => ?_⟩
    · simp only [ha, hb, Option.bind_eq_bind, Option.bind_some, e1, e2]
    · by_cases c1 : n = D - 1 - i
      · rw [c1, r2, if_pos (by omega)]; congr 2; omega
      · rw [o2 _ c1]
        by_cases c2 : n = i
        · rw [c2, r1, if_pos (by omega)]
        · rw [o1 _ c2, h2 n hn]
          congr 1
          by_cases c3 : n < i ∨ D - 1 - i < n
          · rw [if_pos c3, if_pos (by omega)]
          · rw [if_neg c3, if_neg (by omega)]

theorem lay_swap (Q R : ℂ) : !![1, 0; 0, X] * lay R Q = (lay Q R).transpose * (!![1, 0; 0, X] : PMat 2) := by
  ext i j : 2
  fin_cases i <;> fin_cases j <;> simp [lay, Matrix.mul_apply, Fin.sum_univ_two] <;> ring

/-- Exchange of `Q` and `R` and reversal of the order of the layers. -/
theorem layers_swap : ∀ (D : ℕ) (Q R : ℕ → ℂ), !![1, 0; 0, X] * layers (fun n => R (D - 1 - n)) (fun n => Q (D - 1 - n)) D =
    (layers Q R D).transpose * (!![1, 0; 0, X] : PMat 2) := by
  intro D
  induction D with
  | zero => intro Q R; simp [layers]
  | succ D ih =>
    intro Q R
    have h1 : layers Q R (D + 1) = layers (fun i => Q (i + 1)) (fun i => R (i + 1)) D * lay (Q 0) (R 0) := by
      rw [Nat.add_comm D 1, layers_add]
      simp [layers, Nat.add_comm]
    have h2 : ∀ d ≤ D, layers (fun n => R (D + 1 - 1 - n)) (fun n => Q (D + 1 - 1 - n)) d =
        layers (fun n => R (D - 1 - n + 1)) (fun n => Q (D - 1 - n + 1)) d := by
      intro d hd
      induction d with
      | zero => rfl
      | succ d ihd =>
        rw [layers, layers, ihd (by omega), show D + 1 - 1 - d = D - 1 - d + 1 by omega]
    rw [h1, layers, h2 D le_rfl, show D + 1 - 1 - D = 0 by omega, ← Matrix.mul_assoc, lay_swap, Matrix.mul_assoc,
      ih (fun n => Q (n + 1)) (fun n => R (n + 1)), ← Matrix.mul_assoc, ← Matrix.transpose_mul]

theorem layers_swap_col (D : ℕ) (Q R : ℕ → ℂ) :
    layers (fun n => R (D - 1 - n)) (fun n => Q (D - 1 - n)) D 0 0 = layers Q R D 0 0 ∧
      X * layers (fun n => R (D - 1 - n)) (fun n => Q (D - 1 - n)) D 1 0 = layers Q R D 0 1 := by
  have h := layers_swap D Q R
  have h0 := congrFun (congrFun h 0) 0
  have h1 := congrFun (congrFun h 1) 0
  simp [Matrix.mul_apply, Fin.sum_univ_two, Matrix.transpose_apply] at h0 h1
  exact ⟨h0, h1⟩

theorem transposed_00 (deg : ℕ) (x : ℕ → ℂ) (m : ℕ) :
    (Spec.pmat 2 deg (deg + 1) 0 (transposed deg x) 0 0).coeff m = (Spec.pmat 2 deg (deg + 1) 0 x 0 0).coeff m := by
  simp only [Spec.pmat, Matrix.of_apply, Spec.poly_coeff]
  by_cases h : m ≤ deg
  · rw [if_pos h, if_pos h]
    simp only [transposed]
    rw [if_neg (by simp; omega), if_neg (by simp; omega)]
  · rw [if_neg h, if_neg h]

theorem transposed_10 (deg : ℕ) (x : ℕ → ℂ) (m : ℕ) (h : m < deg) :
    (Spec.pmat 2 deg (deg + 1) 0 (transposed deg x) 1 0).coeff m = (Spec.pmat 2 deg (deg + 1) 0 x 0 1).coeff (m + 1) := by
  simp only [Spec.pmat, Matrix.of_apply, Spec.poly_coeff]
  rw [if_pos (by omega), if_pos (by omega)]
  simp only [transposed, Fin.val_zero, Fin.val_one, mul_zero, mul_one, add_zero, zero_add, one_mul]
  rw [if_neg (by omega), if_pos (by omega)]
  congr 1
  omega

end FNFT

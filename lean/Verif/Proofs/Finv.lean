import Verif.Model.Finv
import Verif.Spec.Finv
import Verif.Proofs.PolyFmultM
import Verif.Proofs.PolyRev
import Verif.Proofs.AknsFscatter
/-! The recursion of the fast inverse scattering. -/
namespace FNFT
open Polynomial Matrix Kiss

/-- The four entries of the polynomial matrix `A` (degree `≤ d`) are stored with the highest coefficient first. -/
def RevHolds (b : Buf ℂ) (off stride d : ℕ) (A : PMat 2) : Prop :=
  ∀ e, e < 4 → ∀ j, j ≤ d → b.rd (off + e * stride + j) = some ((ent A e).coeff (d - j))

/-- Truncation to degree `d`. -/
noncomputable def loM (d : ℕ) (A : PMat 2) : PMat 2 := fun i j => loPoly d (A i j).coeff

theorem loM_deg (d : ℕ) (A : PMat 2) : DegLE d (loM d A) := fun _ _ => loPoly_natDegree _ _

theorem ent_coeff_congr {A B : PMat 2} {m m' : ℕ} (h : ∀ i j, (A i j).coeff m = (B i j).coeff m') (e : ℕ) :
    (ent A e).coeff m = (ent B e).coeff m' := by
  unfold ent
  split_ifs
  · exact h _ _
  · simp

theorem RevHolds.lo {b : Buf ℂ} {off stride d : ℕ} {A : PMat 2} (h : RevHolds b off stride d A) :
    RevHolds b off stride d (loM d A) := by
  intro e he j hj
  rw [h e he j hj]
  congr 1
  refine ent_coeff_congr (fun i k => ?_) e
  rw [loM, loPoly_coeff, if_pos (by omega)]

/-- Plans of one level. -/
structure FinvPlanOK (pl : FinvPlan) (d len : ℕ) : Prop where
  hlen : twoPolysLen d = some len
  fwd : PlanOK pl.fwd len false
  inv : PlanOK pl.inv len true
  space : pl.space = false

structure BufsOK (B : Bufs) (L : ℕ) : Prop where
  b0 : B.b0.len = L
  b1 : B.b1.len = L
  b2 : B.b2.len = L

theorem finvMul_ok {P : FinvPar} {j d len L : ℕ} {pl : FinvPlan} (hpl : P.pl j = some pl) (hok : FinvPlanOK pl d len) (hL : len ≤ L)
    {p1 p2 res : FLoc × ℕ} {s1 s2 rs : ℕ} {s : FinvSt} {A B : PMat 2} (hA : DegLE d A) (hB : DegLE d B)
    (h1 : RevHolds (s.mem p1.1) p1.2 s1 d A) (h2 : RevHolds (s.mem p2.1) p2.2 s2 d B)
    (hr1 : res.1 ≠ p1.1) (hr2 : res.1 ≠ p2.1) (hB' : BufsOK s.B L) (hrs : res.2 + (2 * d + 1) ≤ rs) (hlen : 4 * rs ≤ (s.mem res.1).len) :
    ∃ b B', finvMul P j d p1 s1 p2 s2 res rs s = some { s with mem := Function.update s.mem res.1 b, B := B', ret := some SUCCESS } ∧
      b.len = (s.mem res.1).len ∧ BufsOK B' L ∧ RevHolds b res.2 rs (2 * d) (A * B) ∧
      ∀ e t, e < 4 → t < res.2 → b.rd (e * rs + t) = (s.mem res.1).rd (e * rs + t) := by
  set M : Bool × ℕ → ℂ[X] := fun q => if q.1 then reflect d (ent B q.2) else reflect d (ent A q.2) with hM
  obtain ⟨ret, cells, habs, hcells⟩ := kind2_ok.prod false M
  have hrefl : ∀ Q : ℂ[X], Q.natDegree ≤ d → (reflect d Q).natDegree ≤ d := by
    intro Q hQ
    rw [natDegree_le_iff_coeff_eq_zero]
    intro m hm
    rw [coeff_reflect, revAt_eq_self_of_lt (by omega)]
    exact coeff_eq_zero_of_natDegree_lt (by omega)
  obtain ⟨⟨r, D'⟩, e1, R⟩ := runPhases_spec (K := 4) (deg := d) (len := len) (ro := res.2) (rs := rs)
    (M := M) (res0 := s.mem res.1) (L0 := L) (L1 := L) (L2 := L) (pf := pl.fwd) (pi := pl.inv)
    (pt := fun e => if e.1 then (s.mem p2.1, p2.2 + e.2 * s2) else (s.mem p1.1, p1.2 + e.2 * s1)) hok.hlen hok.fwd hok.inv hL hL hL
    (by rintro ⟨b, e⟩; cases b <;> simp only [hM]
        · exact hrefl _ (hA.ent e)
        · exact hrefl _ (hB.ent e))
    (by
      rintro ⟨b, e⟩ he i hi
      have hc : ∀ Q : ℂ[X], (reflect d Q).coeff i = Q.coeff (d - i) := fun Q => by
        rw [coeff_reflect, revAt_le (by omega)]
      cases b
      · simp only [hM, Bool.false_eq_true, if_false, hc]
        exact h1 e he i (by omega)
      · simp only [hM, if_true, hc]
        exact h2 e he i (by omega))
    hlen hrs (modes2x2 false) calls2x2
    (by
      intro m hm
      have : ext d len m = 2 * d + 1 := by
        rcases kind2_ok.nospace m hm with rfl | rfl <;> rfl
      omega)
    kind2_ok.calls (s := (s.mem res.1, s.B)) (a := (none, fun _ => .empty)) (a' := (ret, cells))
    ⟨rfl, hB'.b0, hB'.b1, hB'.b2, fun _ _ h => by simp at h, fun _ _ => trivial, fun _ _ h => by simp at h, fun _ _ _ _ => rfl⟩ habs
  refine ⟨r, D', ?_, R.rl, ⟨R.l0, R.l1, R.l2⟩, ?_, fun e t he ht => R.frame e t he ht⟩
  · unfold finvMul
    rw [if_pos ⟨hr1, hr2⟩, hpl]
    simp only [Option.bind_eq_bind, Option.bind_some, hok.space, e1]
    rfl
  · intro e he k hk
    obtain ⟨a, b, rfl⟩ := idx_ex (m := 2) he
    have := R.cells _ he
    simp only [show (2 : ℕ) = kind2.m from rfl, hcells a b a.2 b.2] at this
    rw [ent_idx, Matrix.mul_apply]
    have hk' := this k (by omega)
    rw [show (kind2.m : ℕ) = 2 from rfl] at hk'
    rw [hk']
    congr 1
    have hs : ∑ l ∈ Finset.range 2, M (false, 2 * a + l) * M (true, 2 * l + b) = reflect (2 * d) (∑ l, A a l * B l b) := by
      rw [← Fin.sum_univ_eq_sum_range (fun l => M (false, 2 * a + l) * M (true, 2 * l + b))]
      rw [Fin.sum_univ_two, Fin.sum_univ_two, two_mul d, reflect_add, reflect_mul _ _ (hA _ _) (hB _ _), reflect_mul _ _ (hA _ _) (hB _ _)]
      simp only [hM, Bool.false_eq_true, if_false, if_true]
      have f1 := ent_idx (m := 2) A
      have f2 := ent_idx (m := 2) B
      rw [f1 a 0, f2 0 b, f1 a 1, f2 1 b]
    have hk2 : (∑ l ∈ Finset.range 2, M (false, 2 * a + l) * M (true, 2 * l + b)).coeff k =
        (∑ l, A a l * B l b).coeff (2 * d - k) := by
      rw [hs, coeff_reflect, revAt_le hk]
    exact hk2

/-! ### Layers -/

theorem layers_add (Q R : ℕ → ℂ) (m n : ℕ) :
    layers Q R (m + n) = layers (fun i => Q (m + i)) (fun i => R (m + i)) n * layers Q R m := by
  induction n with
  | zero => simp [layers]
  | succ n ih => rw [Nat.add_succ, layers, ih, layers, Matrix.mul_assoc]

theorem layers_vec_zero (Q R : ℕ → ℂ) (n : ℕ) (V : Fin 2 → ℂ[X]) : ((layers Q R n).mulVec V 0).coeff 0 = (V 0).coeff 0 := by
  induction n with
  | zero => simp [layers]
  | succ n ih =>
    rw [layers, ← Matrix.mulVec_mulVec]
    simp only [lay, Matrix.mulVec, dotProduct, Fin.sum_univ_two]
    simp only [Matrix.of_apply, Matrix.cons_val_zero, Matrix.cons_val_one, Matrix.cons_val', Matrix.cons_val_fin_one]
    rw [one_mul, coeff_add, mul_coeff_zero (C (Q n) * X), mul_coeff_zero (C (Q n))]
    simp only [coeff_X_zero, mul_zero, zero_mul, add_zero]
    have := ih
    simp only [Matrix.mulVec, dotProduct, Fin.sum_univ_two] at this
    exact this

/-- The stored first column agrees with the layers applied to `V`, up to the first `d` coefficients. -/
def ColOK (A : PMat 2) (L : PMat 2) (V : Fin 2 → ℂ[X]) (d : ℕ) : Prop :=
  ∀ m, m < d → ∀ i, (A i 0).coeff m = (L.mulVec V i).coeff m

/-- The result of a level. -/
structure IsInv (G L : PMat 2) (d : ℕ) : Prop where
  deg : DegLE d G
  mul : ∃ γ : ℂ, γ ≠ 0 ∧ G * L = (C γ * X ^ d) • (1 : PMat 2)

end FNFT

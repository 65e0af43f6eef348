import Verif.Props.NsevInvB
/-!
# `fnft_nsev_inverse`: the iteration of `AB_FROM_ITER`
-/
namespace FNFT
open Complex Finset Kiss
open Spec

theorem finvReverse_ok {D : ℕ} {b : Buf ℂ} {f : ℕ → ℂ} (hb : b.Holds 0 D f) :
    ∃ b', finvReverse true D b = some b' ∧ b'.len = b.len ∧ b'.Holds 0 D (fun j => f (D - 1 - j)) := by
  by_cases hD : D = 0
  · subst hD
    exact ⟨b, rfl, rfl, fun j hj => absurd hj (by omega)⟩
  have hlen : D ≤ b.len := by have := Buf.rd_lt (hb (D - 1) (by omega)); omega
  obtain ⟨b', h1, h2, h3⟩ := forLoop_inv (n := D / 2) (s := b) (body := fun i (q : Buf ℂ) => do
      let tmp ← q.rd i
      let x ← q.rd (D - 1 - i)
      let q ← q.wr i x
      q.wr (D - 1 - i) tmp)
    (fun i (q : Buf ℂ) => q.len = b.len ∧ ∀ j, j < D → q.rd j = some (if j < i ∨ D - 1 - i < j then f (D - 1 - j) else f j))
    ⟨rfl, fun j hj => by have := hb j hj; rw [Nat.zero_add] at this; rw [if_neg (by omega), this]⟩ (by
      rintro i q hi ⟨g1, g2⟩
      have r1 := g2 i (by omega)
      have r2 := g2 (D - 1 - i) (by omega)
      rw [if_neg (by omega)] at r1 r2
      simp only [r1, r2, Option.bind_eq_bind, Option.bind_some]
      obtain ⟨c, w1, w2, w3, w4⟩ := Buf.wr_spec (b := q) (f (D - 1 - i)) (show i < q.len by omega)
      obtain ⟨d, x1, x2, x3, x4⟩ := Buf.wr_spec (b := c) (f i) (show D - 1 - i < c.len by omega)
      simp only [w1, Option.bind_some]
      refine ⟨d, x1, by omega, fun j hj => ?_⟩
      by_cases k1 : j = D - 1 - i
      · rw [k1, x3, if_pos (by omega), show D - 1 - (D - 1 - i) = i by omega]
      rw [x4 j k1]
      by_cases k2 : j = i
      · rw [k2, w3, if_pos (by omega)]
      rw [w4 j k2, g2 j hj]
      by_cases h : j < i ∨ D - 1 - i < j
      · rw [if_pos h, if_pos (by omega)]
      · rw [if_neg h, if_neg (by omega)])
  refine ⟨b', ?_, h2, fun j hj => ?_⟩
  · unfold finvReverse
    rw [if_pos rfl]
    exact h1
  · rw [Nat.zero_add, h3 j hj]
    dsimp only
    by_cases h : j < D / 2 ∨ D - 1 - D / 2 < j
    · rw [if_pos h]
    · rw [if_neg h]
      congr 2
      omega

/-- The root of unity. -/
noncomputable def wD (D : ℕ) : ℂ := exp (2 * Real.pi * I / D)

theorem wD_zeta (D : ℕ) : zeta D true = wD D := by
  have := zeta_not D false
  rw [Bool.not_false, zetaF, inv_inv] at this
  exact this

/-- The lengths of the arrays of the iteration. -/
structure IterLen (D : ℕ) (s : IterSt) : Prop where
  ro : D ≤ s.ro.len
  a : s.a.len = D
  b : s.b.len = D
  fin : s.fin.len = D
  fout : s.fout.len = D

theorem iterStep_ok {D : ℕ} (hD : 2 ≤ D) (hev : D % 2 = 0) {cs : Buf ℂ} {v : ℕ → ℂ} (hcs : cs.Holds 0 D v) {pf pi : Plan} (hpf : PlanOK pf D false) (hpi : PlanOK pi D true)
    {s : IterSt} (hl : IterLen D s) {r : ℕ → ℂ} (hr : s.ro.Holds 0 D r) (hr1 : ∀ i, i < D → ‖r i‖ < 1) {A B : Polynomial ℂ} (hBd : B.degree < D)
    (hB : ∀ i, i < D → B.eval (wD D ^ i) = r i / Real.sqrt (1 - ‖r i‖ ^ 2)) (hAd : A.natDegree ≤ D - 1)
    (hA2 : ∀ pb rb : Buf ℂ, pb.Holds 0 (D - 1 + 1) (fun j => B.coeff (D - 1 - j)) → D - 1 + 1 ≤ rb.len →
      ∃ r, poly_specfact (D - 1) (some pb) (some rb) 32 (-1) = some (SUCCESS, some r) ∧ r.len = rb.len ∧
        ∀ j, r.rd j = if j ≤ D - 1 then some (A.coeff (D - 1 - j)) else rb.rd j) :
    ∃ s' cur, iterStep D cs pf pi (-1) s = some (.ok (s', cur)) ∧ IterLen D s' ∧ s'.prev = s.prev ∧ s'.prevd = s.prevd ∧
      s'.a.Holds 0 D (fun j => A.coeff (D - 1 - j)) ∧ s'.b.Holds 0 D (fun j => B.coeff (D - 1 - j)) ∧
      s'.ro.Holds 0 D (fun i => v ((i + (D / 2 - 1)) % D) * exp (I * (arg (A.eval (wD D ^ i)) : ℝ))) ∧
      cur = ∑ i ∈ range D, |arg (A.eval (wD D ^ i))| / D := by
  have hDc : (D : ℂ) ≠ 0 := by exact_mod_cast (by omega : D ≠ 0)
  have rd0 : ∀ {b : Buf ℂ} {f : ℕ → ℂ}, b.Holds 0 D f → ∀ j, j < D → b.rd j = some (f j) := fun h j hj => by have := h j hj; rwa [Nat.zero_add] at this
  obtain ⟨f1, a1, a2, a3⟩ := fill_spec (off := 0) (cnt := D) (b := s.fin) (f := fun i => do
    let q ← s.ro.rd i
    iterVal (-1) D q) (fun i => r i / Real.sqrt (1 - ‖r i‖ ^ 2) / D) (fun i _ hi => by
    have h1 := hr1 i (by omega)
    have h2 := norm_nonneg (r i)
    rw [rd0 hr i (by omega)]
    simp only [Option.bind_eq_bind, Option.bind_some]
    unfold iterVal
    have e : 1 + ((-1 : ℤ) : ℝ) * ‖r i‖ * ‖r i‖ = 1 - ‖r i‖ ^ 2 := by push_cast; ring
    rw [e, if_neg (by nlinarith)]) (Or.inl (by rw [hl.fin]; omega))
  obtain ⟨b1, c1, c2, c3, -⟩ := fft_spec hpf f1 s.b _ (fun j hj => by rw [a3, if_pos (by omega)]) (by rw [hl.b])
  have hb1 : b1.Holds 0 D (fun k => B.coeff k) := by
    intro k hk
    dsimp only
    rw [Nat.zero_add, c3 k hk]
    have e : ∑ j ∈ range D, r j / Real.sqrt (1 - ‖r j‖ ^ 2) / D * zeta D false ^ (j * k) = (∑ j ∈ range D, B.eval (wD D ^ j) * zeta D false ^ (j * k)) / D := by
      rw [Finset.sum_div]
      refine Finset.sum_congr rfl fun j hj => ?_
      rw [hB j (mem_range.mp hj)]
      ring
    rw [e]
    unfold wD
    rw [interp_coeff hBd hk, mul_div_cancel_left₀ _ hDc]
  obtain ⟨b2, d1, d2, d3⟩ := finvReverse_ok hb1
  obtain ⟨a', e1, e2, e3⟩ := hA2 b2 s.a (by rw [Nat.sub_add_cancel (by omega)]; exact d3) (by rw [hl.a]; omega)
  obtain ⟨f2, g1, g2, g3⟩ := fill_spec (off := 0) (cnt := D) (b := f1) (f := fun i => a'.rd (D - 1 - i)) (fun i => A.coeff i) (fun i _ hi => by
    rw [e3, if_pos (by omega), show D - 1 - (D - 1 - i) = i by omega]) (Or.inl (by rw [a2, hl.fin]; omega))
  obtain ⟨o1, h1, h2, h3, -⟩ := fft_spec hpi f2 s.fout _ (fun j hj => by rw [g3, if_pos (by omega)]) (by rw [hl.fout])
  have ho1 : ∀ i, i < D → o1.rd i = some (A.eval (wD D ^ i)) := by
    intro i hi
    rw [h3 i hi, eval_lt (M := D) (by
      rw [Polynomial.degree_lt_iff_coeff_zero]
      intro m hm
      exact Polynomial.coeff_eq_zero_of_natDegree_lt (by omega))]
    congr 1
    refine Finset.sum_congr rfl fun m _ => ?_
    rw [wD_zeta, ← pow_mul, mul_comm i m]
  have hol : o1.len = D := by rw [h2, hl.fout]
  obtain ⟨o2, i1, i2, i3⟩ := forLoop_inv (n := D) (s := o1) (body := fun i (f : Buf ℂ) => do
      let v ← f.rd i
      f.wr i ((arg v : ℝ) : ℂ))
    (fun i (b : Buf ℂ) => b.len = D ∧ ∀ j, j < D → b.rd j = some (if j < i then ((arg (A.eval (wD D ^ j)) : ℝ) : ℂ) else A.eval (wD D ^ j)))
    ⟨hol, fun j hj => by rw [if_neg (by omega), ho1 j hj]⟩ (by
      rintro i b hi ⟨q1, q2⟩
      have r := q2 i hi
      rw [if_neg (lt_irrefl _)] at r
      simp only [r, Option.bind_eq_bind, Option.bind_some]
      obtain ⟨c, w1, w2, w3, w4⟩ := Buf.wr_spec (b := b) ((arg (A.eval (wD D ^ i)) : ℝ) : ℂ) (show i < b.len by omega)
      refine ⟨c, w1, by omega, fun j hj => ?_⟩
      by_cases hji : j = i
      · rw [hji, w3, if_pos (by omega)]
      · rw [w4 j hji, q2 j hj]
        by_cases h : j < i
        · rw [if_pos h, if_pos (by omega)]
        · rw [if_neg h, if_neg (by omega)])
  have ho2 : ∀ i, i < D → o2.rd i = some ((arg (A.eval (wD D ^ i)) : ℝ) : ℂ) := fun i hi => by rw [i3 i hi, if_pos hi]
  obtain ⟨cur, j1, j2⟩ := forLoop_inv (n := D) (s := (0 : ℝ)) (body := fun i (c : ℝ) => do
      let v ← o2.rd i
      return c + ‖v‖ / D)
    (fun i (c : ℝ) => c = ∑ m ∈ range i, |arg (A.eval (wD D ^ m))| / D) (by simp) (by
      rintro i c hi rfl
      simp only [ho2 i hi, Option.bind_eq_bind, Option.bind_some]
      refine ⟨_, rfl, ?_⟩
      rw [Finset.sum_range_succ, norm_real, Real.norm_eq_abs])
  obtain ⟨q1, k1, k2, k3⟩ := fill_spec (off := 0) (cnt := D / 2 + 1) (b := s.ro) (f := fun i => do
      let c ← cs.rd (i + (D / 2 - 1))
      let f ← o2.rd i
      return c * exp (I * f)) (fun i => v ((i + (D / 2 - 1)) % D) * exp (I * (arg (A.eval (wD D ^ i)) : ℝ))) (fun i _ hi => by
    rw [rd0 hcs _ (by omega : i + (D / 2 - 1) < D), ho2 i (by omega), Nat.mod_eq_of_lt (by omega)]
    rfl) (Or.inl (by have := hl.ro; omega))
  obtain ⟨q2, l1, l2, l3⟩ := fill_spec (off := D / 2 + 1) (cnt := D - (D / 2 + 1)) (b := q1) (f := fun i => do
      let c ← cs.rd (i - (D / 2 + 1))
      let f ← o2.rd i
      return c * exp (I * f)) (fun i => v ((i + (D / 2 - 1)) % D) * exp (I * (arg (A.eval (wD D ^ i)) : ℝ))) (fun i h1 hi => by
    rw [rd0 hcs _ (by omega : i - (D / 2 + 1) < D), ho2 i (by omega), show i + (D / 2 - 1) = i - (D / 2 + 1) + D by omega, Nat.add_mod_right, Nat.mod_eq_of_lt (by omega)]
    rfl) (Or.inl (by have := hl.ro; omega))
  refine ⟨⟨q2, a', b2, f2, o2, s.prev, s.prevd⟩, cur, ?_, ⟨by rw [l2, k2]; exact hl.ro, by rw [e2, hl.a], by rw [d2, c2, hl.b], by rw [g2, a2, hl.fin], i2⟩, rfl, rfl, ?_, d3, ?_, j2⟩
  · unfold iterStep
    simp only [Option.bind_eq_bind] at a1 i1 j1 k1 l1
    simp only [a1, c1, d1, e1, Option.bind_eq_bind, Option.bind_some]
    rw [if_neg (by simp)]
    simp only [g1, h1, i1, j1, k1, l1, Option.bind_some]
    rfl
  · intro j hj
    dsimp only
    rw [Nat.zero_add, e3, if_pos (by omega)]
  · intro i hi
    dsimp only
    rw [Nat.zero_add, l3]
    by_cases h : D / 2 + 1 ≤ i
    · rw [if_pos (by omega)]
    · rw [if_neg (by omega), k3, if_pos (by omega)]

end FNFT

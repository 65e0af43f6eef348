import Verif.Proofs.InvIter
/-!
# C72: `fnft_nsev_inverse` with the inversion method `TFMATRIX_CONTAINS_AB_FROM_ITER`
-/
namespace FNFT
open Complex Finset Kiss
open Spec

/-- The iteration for the values `v_j` of the reflection coefficient at the points `z_j` of the unit circle, `j < D` (`|v_j| < 1`): the polynomial `B_n` of degree less than `D`
interpolates the values `v_j/sqrt(1-|v_j|²)`, multiplied with the phases `exp(i θ_j)` of the step; `A_n` is the spectral factor of `B_n` that `poly_specfact` returns with the
oversampling factor 32 (see C66); the phases are zero in the first step, and those of `A_n(z_j)` in the next step. -/
def Spec.IterSeq (D : ℕ) (z v : ℕ → ℂ) (B A : ℕ → Polynomial ℂ) : Prop :=
  ∀ n, (B n).degree < D ∧ SpecFactor (D - 1) 32 (-1) (B n) (A n) ∧
    ∀ j, j < D → (B n).eval (z j) = v j / Real.sqrt (1 - ‖v j‖ ^ 2) * if n = 0 then 1 else exp (I * (arg ((A (n - 1)).eval (z j)) : ℝ))

/-- The mean absolute phase of `A_n` at the points `z_j`. -/
noncomputable def Spec.meanPhase (D : ℕ) (z : ℕ → ℂ) (A : ℕ → Polynomial ℂ) (n : ℕ) : ℝ := ∑ j ∈ range D, |arg ((A n).eval (z j))| / D

/-- The stopping criterion: the mean phase does not change any more, or its change does not decrease by ten percent. -/
def Spec.IterStop (D : ℕ) (z : ℕ → ℂ) (A : ℕ → Polynomial ℂ) (n : ℕ) : Prop :=
  (1 ≤ n ∧ |meanPhase D z A n - meanPhase D z A (n - 1)| < 10 * EPSILON) ∨
  (2 ≤ n ∧ |meanPhase D z A n - meanPhase D z A (n - 1)| > 0.9 * |meanPhase D z A (n - 1) - meanPhase D z A (n - 2)|)

/-- The data of one step exist. -/
theorem iter_exists {D : ℕ} (hD : 2 ≤ D) (hsz : D * 32 ≤ 3 ^ 32) (f : ℕ → ℂ) : ∃ B A : Polynomial ℂ, B.degree < D ∧ (∀ i, i < D → B.eval (wD D ^ i) = f i) ∧
    SpecFactor (D - 1) 32 (-1) B A ∧ ∀ pb rb : Buf ℂ, pb.Holds 0 (D - 1 + 1) (fun j => B.coeff (D - 1 - j)) → D - 1 + 1 ≤ rb.len →
      ∃ r, poly_specfact (D - 1) (some pb) (some rb) 32 (-1) = some (SUCCESS, some r) ∧ r.len = rb.len ∧
        ∀ j, r.rd j = if j ≤ D - 1 then some (A.coeff (D - 1 - j)) else rb.rd j := by
  have hprim : IsPrimitiveRoot (wD D) D := isPrimitiveRoot_exp _ (by omega)
  have hinj : Set.InjOn (fun i => wD D ^ i) (range D : Set ℕ) := by
    intro i hi j hj hij
    exact hprim.pow_inj (mem_range.mp hi) (mem_range.mp hj) hij
  set B := Lagrange.interpolate (range D) (fun i => wD D ^ i) f with hB
  have hBd : B.degree < D := by
    have := Lagrange.degree_interpolate_lt f hinj
    rwa [card_range] at this
  obtain ⟨A, hA, hA2⟩ := specFactor_exists (deg := D - 1) (over := 32) (kappa := -1) (B := B) (by omega) (by norm_num) (by rw [Nat.sub_add_cancel (by omega)]; exact hsz) (Or.inr rfl)
    (by
      rw [Polynomial.natDegree_le_iff_coeff_eq_zero]
      intro m hm
      exact Polynomial.coeff_eq_zero_of_degree_lt (lt_of_lt_of_le hBd (by exact_mod_cast (by omega : D ≤ m)))) (by
    intro z _
    push_cast
    have : 0 ≤ ‖B.eval z‖ ^ 2 := by positivity
    linarith)
  exact ⟨B, A, hBd, fun i hi => Lagrange.eval_interpolate_at_node f hinj (mem_range.mpr hi), hA, hA2⟩

/-- The reordered values of the step with the factors `f`. -/
noncomputable def iterAB (D : ℕ) (f : ℕ → ℂ) : Polynomial ℂ × Polynomial ℂ := by
  classical
  exact if h : 2 ≤ D ∧ D * 32 ≤ 3 ^ 32 then ((iter_exists h.1 h.2 f).choose, (iter_exists h.1 h.2 f).choose_spec.choose) else (0, 0)

noncomputable def iterR (D : ℕ) (v : ℕ → ℂ) : ℕ → ℕ → ℂ
  | 0 => fun i => v ((i + (D / 2 - 1)) % D)
  | n + 1 => fun i => v ((i + (D / 2 - 1)) % D) *
      exp (I * (arg ((iterAB D (fun i => iterR D v n i / Real.sqrt (1 - ‖iterR D v n i‖ ^ 2))).2.eval (wD D ^ i)) : ℝ))

noncomputable def iterB (D : ℕ) (v : ℕ → ℂ) (n : ℕ) : Polynomial ℂ := (iterAB D (fun i => iterR D v n i / Real.sqrt (1 - ‖iterR D v n i‖ ^ 2))).1
noncomputable def iterA (D : ℕ) (v : ℕ → ℂ) (n : ℕ) : Polynomial ℂ := (iterAB D (fun i => iterR D v n i / Real.sqrt (1 - ‖iterR D v n i‖ ^ 2))).2

theorem iterAB_ok {D : ℕ} (hD : 2 ≤ D) (hsz : D * 32 ≤ 3 ^ 32) (v : ℕ → ℂ) (n : ℕ) : (iterB D v n).degree < D ∧
    (∀ i, i < D → (iterB D v n).eval (wD D ^ i) = iterR D v n i / Real.sqrt (1 - ‖iterR D v n i‖ ^ 2)) ∧
    SpecFactor (D - 1) 32 (-1) (iterB D v n) (iterA D v n) ∧ ∀ pb rb : Buf ℂ, pb.Holds 0 (D - 1 + 1) (fun j => (iterB D v n).coeff (D - 1 - j)) → D - 1 + 1 ≤ rb.len →
      ∃ r, poly_specfact (D - 1) (some pb) (some rb) 32 (-1) = some (SUCCESS, some r) ∧ r.len = rb.len ∧
        ∀ j, r.rd j = if j ≤ D - 1 then some ((iterA D v n).coeff (D - 1 - j)) else rb.rd j := by
  unfold iterB iterA iterAB
  rw [dif_pos ⟨hD, hsz⟩]
  exact (iter_exists hD hsz _).choose_spec.choose_spec

theorem iterR_norm (D : ℕ) (v : ℕ → ℂ) (n i : ℕ) : ‖iterR D v n i‖ = ‖v ((i + (D / 2 - 1)) % D)‖ := by
  cases n with
  | zero => rfl
  | succ n =>
    show ‖v ((i + (D / 2 - 1)) % D) * exp (I * (_ : ℝ))‖ = _
    rw [norm_mul, mul_comm I, norm_exp_ofReal_mul_I, mul_one]

/-- The mean phase in the order of the roots of unity. -/
noncomputable def iterC (D : ℕ) (v : ℕ → ℂ) (n : ℕ) : ℝ := ∑ i ∈ range D, |arg ((iterA D v n).eval (wD D ^ i))| / D

def iterStopC (D : ℕ) (v : ℕ → ℂ) (n : ℕ) : Prop :=
  (1 ≤ n ∧ |iterC D v n - iterC D v (n - 1)| < 10 * EPSILON) ∨ (2 ≤ n ∧ |iterC D v n - iterC D v (n - 1)| > 0.9 * |iterC D v (n - 1) - iterC D v (n - 2)|)

theorem iterLoop_ok {D : ℕ} (hD : 2 ≤ D) (hsz : D * 32 ≤ 3 ^ 32) (hev : D % 2 = 0) {cs : Buf ℂ} {v : ℕ → ℂ} (hcs : cs.Holds 0 D v) (hv : ∀ j, j < D → ‖v j‖ < 1)
    {pf pi : Plan} (hpf : PlanOK pf D false) (hpi : PlanOK pi D true) : ∀ (fuel m : ℕ) (s : IterSt), IterLen D s → s.ro.Holds 0 D (iterR D v m) →
      s.prev = (if m = 0 then none else some (iterC D v (m - 1))) → s.prevd = (if m ≤ 1 then none else some |iterC D v (m - 1) - iterC D v (m - 2)|) →
      (∀ i, i < m → ¬ iterStopC D v i) → ∃ n s', m ≤ n ∧ n < m + (fuel + 1) ∧ iterLoop D cs pf pi (-1) (fuel + 1) s = some (.ok s') ∧
        s'.a.Holds 0 D (fun j => (iterA D v n).coeff (D - 1 - j)) ∧ s'.b.Holds 0 D (fun j => (iterB D v n).coeff (D - 1 - j)) ∧
        (∀ i, i < n → ¬ iterStopC D v i) ∧ (iterStopC D v n ∨ n + 1 = m + (fuel + 1)) := by
  intro fuel
  induction fuel with
  | zero =>
    intro m s hl hr hp hpd hns
    obtain ⟨b1, b2, b3, b4⟩ := iterAB_ok hD hsz v m
    obtain ⟨s', cur, c1, c2, c3, c4, c5, c6, c7, c8⟩ := iterStep_ok hD hev hcs hpf hpi hl hr (fun i hi => by rw [iterR_norm]; exact hv _ (Nat.mod_lt _ (by omega))) b1 b2 b3.1 b4
    refine ⟨m, (iterTest s' cur).2, le_rfl, by omega, ?_, ?_, ?_, hns, Or.inr rfl⟩
    · unfold iterLoop
      simp only [c1, Option.bind_eq_bind, Option.bind_some]
      split
      · rfl
      · rfl
    · have : (iterTest s' cur).2.a = s'.a := by
        unfold iterTest; split
        · rfl
        · dsimp only; split_ifs
          · rfl
          · split
            · rfl
            · split_ifs <;> rfl
      rw [this]; exact c5
    · have : (iterTest s' cur).2.b = s'.b := by
        unfold iterTest; split
        · rfl
        · dsimp only; split_ifs
          · rfl
          · split
            · rfl
            · split_ifs <;> rfl
      rw [this]; exact c6
  | succ fuel ih =>
    intro m s hl hr hp hpd hns
    obtain ⟨b1, b2, b3, b4⟩ := iterAB_ok hD hsz v m
    obtain ⟨s', cur, c1, c2, c3, c4, c5, c6, c7, c8⟩ := iterStep_ok hD hev hcs hpf hpi hl hr (fun i hi => by rw [iterR_norm]; exact hv _ (Nat.mod_lt _ (by omega))) b1 b2 b3.1 b4
    have hcur : cur = iterC D v m := c8
    -- the test
    have htest : ((iterTest s' cur).1 = true ↔ iterStopC D v m) ∧ (iterTest s' cur).2.a = s'.a ∧ (iterTest s' cur).2.b = s'.b ∧ (iterTest s' cur).2.ro = s'.ro ∧
        IterLen D (iterTest s' cur).2 ∧ ((iterTest s' cur).1 = false → (iterTest s' cur).2.prev = some (iterC D v m) ∧
          (iterTest s' cur).2.prevd = (if m = 0 then none else some |iterC D v m - iterC D v (m - 1)|)) := by
      rw [hcur]
      unfold iterTest iterStopC
      rw [c3, hp]
      by_cases h0 : m = 0
      · rw [if_pos h0]
        dsimp only
        rw [if_pos h0]
        exact ⟨⟨fun h => absurd h (by simp), fun h => by omega⟩, rfl, rfl, rfl, ⟨c2.ro, c2.a, c2.b, c2.fin, c2.fout⟩, fun _ => ⟨rfl, rfl⟩⟩
      · rw [if_neg h0]
        dsimp only
        by_cases h1 : |iterC D v m - iterC D v (m - 1)| < 10 * EPSILON
        · rw [if_pos h1]
          exact ⟨⟨fun _ => Or.inl ⟨by omega, h1⟩, fun _ => rfl⟩, rfl, rfl, rfl, c2, fun h => absurd h (by simp)⟩
        · rw [if_neg h1, c4, hpd]
          by_cases h2 : m ≤ 1
          · rw [if_pos h2]
            dsimp only
            refine ⟨⟨fun h => absurd h (by simp), fun h => ?_⟩, rfl, rfl, rfl, ⟨c2.ro, c2.a, c2.b, c2.fin, c2.fout⟩, fun _ => ⟨rfl, by rw [if_neg h0]⟩⟩
            rcases h with h | h
            · exact absurd h.2 h1
            · omega
          · rw [if_neg h2]
            dsimp only
            by_cases h3 : |iterC D v m - iterC D v (m - 1)| > 0.9 * |iterC D v (m - 1) - iterC D v (m - 2)|
            · rw [if_pos h3]
              exact ⟨⟨fun _ => Or.inr ⟨by omega, h3⟩, fun _ => rfl⟩, rfl, rfl, rfl, ⟨c2.ro, c2.a, c2.b, c2.fin, c2.fout⟩, fun h => absurd h (by simp)⟩
            · rw [if_neg h3]
              refine ⟨⟨fun h => absurd h (by simp), fun h => ?_⟩, rfl, rfl, rfl, ⟨c2.ro, c2.a, c2.b, c2.fin, c2.fout⟩, fun _ => ⟨rfl, by rw [if_neg h0]⟩⟩
              rcases h with h | h
              · exact absurd h.2 h1
              · exact absurd h.2 h3
    obtain ⟨t1, t2, t3, t4, t5, t6⟩ := htest
    by_cases hstop : (iterTest s' cur).1 = true
    · refine ⟨m, (iterTest s' cur).2, le_rfl, by omega, ?_, by rw [t2]; exact c5, by rw [t3]; exact c6, hns, Or.inl (t1.mp hstop)⟩
      rw [iterLoop]
      simp only [c1, Option.bind_eq_bind, Option.bind_some]
      rw [if_pos hstop]
      rfl
    · have hf : (iterTest s' cur).1 = false := by simpa using hstop
      obtain ⟨u1, u2⟩ := t6 hf
      obtain ⟨n, s2, n1, n2, n3, n4, n5, n6, n7⟩ := ih (m + 1) (iterTest s' cur).2 t5 (by rw [t4]; exact c7) (by rw [u1, if_neg (by omega)]; rfl) (by
        rw [u2]
        by_cases h0 : m = 0
        · rw [if_pos h0, if_pos (by omega)]
        · rw [if_neg h0, if_neg (by omega), Nat.add_sub_cancel, show m + 1 - 2 = m - 1 by omega]) (by
        intro i hi
        by_cases h : i = m
        · rw [h]; exact fun h => hstop (t1.mpr h)
        · exact hns i (by omega))
      refine ⟨n, s2, by omega, by omega, ?_, n4, n5, n6, by rcases n7 with h | h <;> [exact Or.inl h; exact Or.inr (by omega)]⟩
      rw [iterLoop]
      simp only [c1, Option.bind_eq_bind, Option.bind_some]
      rw [if_neg hstop]
      exact n3

/-- The order of the values. -/
theorem iter_index {D j : ℕ} (hD : 2 ≤ D) (hev : D % 2 = 0) (hj : j < D) : ((j + (D / 2 + 1)) % D + (D / 2 - 1)) % D = j := by
  rw [Nat.mod_add_mod, show j + (D / 2 + 1) + (D / 2 - 1) = j + D by omega, Nat.add_mod_right, Nat.mod_eq_of_lt hj]

theorem iter_index' {D i : ℕ} (hD : 2 ≤ D) (hev : D % 2 = 0) (hi : i < D) : ((i + (D / 2 - 1)) % D + (D / 2 + 1)) % D = i := by
  rw [Nat.mod_add_mod, show i + (D / 2 - 1) + (D / 2 + 1) = i + D by omega, Nat.add_mod_right, Nat.mod_eq_of_lt hi]

variable {k : ℕ} {cs q : Buf ℂ} {cf : ℕ → ℂ} {T0 T1 eps : ℝ} {o : InvOpts}

/-- C72: the method `TFMATRIX_CONTAINS_AB_FROM_ITER` (defocusing case, `M = D`). For every reflection coefficient with values of modulus less than one, with `z_j = exp(2 i ξ_j ε)` and
`v_j = ρ(ξ_j) exp(2 i ξ_j T1)`, there is exactly one sequence of polynomials of the iteration, and the routine stops after the step `n` that is the first one with the stopping criterion, or
the last one that `max_iter` allows. If `A_n(0) ≠ 0` and there is a layered medium without singular layers that has the ratio `B_n/A_n` up to terms of order `z^D`, then the call returns
the signal of this medium. The array with the continuous spectrum is overwritten. -/
theorem C72_iteration (h : InvCall k (2 ^ k) cs q cf T0 T1 eps o) (hc : o.cs = .REFLECTION_COEFFICIENT) (hm : o.meth = .AB_FROM_ITER) (hmax : 1 ≤ o.max_iter)
    (hsz : 2 ^ k * 32 ≤ 3 ^ 32) (XI : ℝ × ℝ) (hXI : ∃ Y, fnft_nsev_inverse_XI (2 ^ k) (some (T0, T1)) (2 ^ k) (some Y) o.disc = some (SUCCESS, some XI))
    (z v : ℕ → ℂ) (hz : ∀ j : ℕ, z j = exp (2 * I * ((XI.1 + j * ((XI.2 - XI.1) / (((2 ^ k : ℕ) : ℝ) - 1)) : ℝ) : ℂ) * eps))
    (hv : ∀ j : ℕ, v j = cf j * exp (2 * I * ((XI.1 + j * ((XI.2 - XI.1) / (((2 ^ k : ℕ) : ℝ) - 1)) : ℝ) : ℂ) * T1)) (hrho : ∀ j, j < 2 ^ k → ‖cf j‖ < 1) :
    ∃ (B A : ℕ → Polynomial ℂ) (n : ℕ), IterSeq (2 ^ k) z v B A ∧ n < o.max_iter ∧ (∀ i, i < n → ¬ IterStop (2 ^ k) z A i) ∧ (IterStop (2 ^ k) z A n ∨ n + 1 = o.max_iter) ∧
      ((A n).coeff 0 ≠ 0 → InvFrom k (2 ^ k) cs q (some XI) T0 T1 eps (-1) o (A n) (B n) fun cs' => cs'.len = cs.len ∧ cs'.Holds 0 (2 ^ k) v) := by
  obtain ⟨h2, -⟩ := InvCall_two h
  have hg := InvCall_grid h hXI
  have hand := two_pow_and k
  set D := 2 ^ k with hD
  have hval : invVal XI.1 XI.2 D (-2 * T1) cf = v := by
    funext j
    rw [hv]
    unfold invVal invXi
    congr 2
    push_cast
    ring
  have hvn : ∀ j, j < D → ‖v j‖ < 1 := by
    intro j hj
    rw [hv, norm_mul, show 2 * I * ((XI.1 + j * ((XI.2 - XI.1) / ((D : ℝ) - 1)) : ℝ) : ℂ) * T1 = ((2 * (XI.1 + j * ((XI.2 - XI.1) / ((D : ℝ) - 1))) * T1 : ℝ) : ℂ) * I by push_cast; ring,
      norm_exp_ofReal_mul_I, mul_one]
    exact hrho j hj
  have hzw : ∀ i, z ((i + (D / 2 - 1)) % D) = wD D ^ i := by
    intro i
    have := grid_eval h2 h.hev hg (P := Polynomial.X) (v := z) (fun j hj => by rw [Polynomial.eval_X, hz]; unfold invXi; push_cast; rfl) i
    rw [this, Polynomial.eval_X]; rfl
  have hzj : ∀ j, j < D → z j = wD D ^ ((j + (D / 2 + 1)) % D) := by
    intro j hj
    rw [← hzw, iter_index h2 h.hev hj]
  -- plans and the first values
  obtain ⟨cs', ro, a1, a2, a3, a4⟩ := invReorder_ok (XI0 := XI.1) (XI1 := XI.2) (phase := -2 * T1) h.hcs h2 h.hev
  rw [hval] at a3 a4
  obtain ⟨pf, p1, p2⟩ := mkPlan_fwd D (by omega) (by omega)
  obtain ⟨pi, q1, q2⟩ := mkPlan_inv D (by omega) (by omega)
  have hrl : D ≤ ro.len := by have := Buf.rd_lt (a4 (D - 1) (by omega)); omega
  obtain ⟨n, s', n1, n2, n3, n4, n5, n6, n7⟩ := iterLoop_ok h2 hsz h.hev a3 hvn p2 q2 (o.max_iter - 1) 0 ⟨ro, Buf.malloc D, Buf.malloc D, Buf.malloc D, Buf.malloc D, none, none⟩
    ⟨hrl, by simp, by simp, by simp, by simp⟩ a4 rfl rfl (fun i hi => absurd hi (by omega))
  rw [Nat.sub_add_cancel hmax] at n2 n3 n7
  have hmean : ∀ i, meanPhase D z (iterA D v) i = iterC D v i := by
    intro i
    unfold meanPhase iterC
    refine Finset.sum_nbij' (fun j => (j + (D / 2 + 1)) % D) (fun i => (i + (D / 2 - 1)) % D) ?_ ?_ ?_ ?_ ?_
    · exact fun j _ => mem_range.mpr (Nat.mod_lt _ (by omega))
    · exact fun j _ => mem_range.mpr (Nat.mod_lt _ (by omega))
    · exact fun j hj => iter_index h2 h.hev (mem_range.mp hj)
    · exact fun j hj => iter_index' h2 h.hev (mem_range.mp hj)
    · intro j hj
      rw [hzj j (mem_range.mp hj)]
  have hstop : ∀ i, IterStop D z (iterA D v) i ↔ iterStopC D v i := by
    intro i; unfold IterStop iterStopC; simp only [hmean]
  refine ⟨iterB D v, iterA D v, n, ?_, by omega, fun i hi => by rw [hstop]; exact n6 i hi, ?_, fun hA0 => ?_⟩
  · intro m
    obtain ⟨b1, b2, b3, -⟩ := iterAB_ok h2 hsz v m
    refine ⟨b1, b3, fun j hj => ?_⟩
    rw [hzj j hj, b2 _ (Nat.mod_lt _ (by omega)), iterR_norm, iter_index h2 h.hev hj]
    cases m with
    | zero =>
      rw [if_pos rfl, mul_one]
      show v _ / _ = _
      rw [iter_index h2 h.hev hj]
    | succ m =>
      rw [if_neg (by omega), Nat.add_sub_cancel]
      show v _ * _ / _ = _
      rw [iter_index h2 h.hev hj, mul_div_right_comm]
      rfl
  · rw [hstop]
    rcases n7 with h | h
    · exact Or.inl h
    · exact Or.inr (by omega)
  · obtain ⟨b1, b2, b3, -⟩ := iterAB_ok h2 hsz v n
    obtain ⟨tm, x, t1, t2, t3, t4⟩ := invFillAB_ok (kappa := -1) (tm := Buf.malloc (4 * (D + 1))) h2 n4 n5 (Polynomial.coeff_eq_zero_of_natDegree_lt (lt_of_le_of_lt b3.1 (by omega)))
      (Polynomial.coeff_eq_zero_of_degree_lt b1) (by simp)
    have hit : invTfIter D cs XI.1 XI.2 D T0 T1 D (Buf.malloc (4 * (D + 1))) (-1) o = some ⟨SUCCESS, cs', tm⟩ := by
      unfold invTfIter
      rw [if_neg (by rw [hand]; omega), if_neg (by simp), if_neg (by simp), if_neg (by simp)]
      unfold invRemove
      rw [← h.he, invPhase_ok (by
        have he : eps = (T1 - T0) / ((D : ℝ) - 1) := h.he
        rw [he]
        have : (D : ℝ) - 1 ≠ 0 := by
          have : (2 : ℝ) ≤ D := by exact_mod_cast h2
          linarith
        field_simp) h.hd (Or.inl hc)]
      simp only [Option.bind_eq_bind, Option.bind_some, p1, q1, a1, Option.pure_def, n3, t1]
    have htr : invTransfer D cs XI 0 (Buf.malloc 0) D T0 T1 D (-1) o = some ⟨SUCCESS, cs', tm⟩ := by
      unfold invTransfer
      rw [hc]
      have hp : invPrecomp D cs XI.1 XI.2 0 (Buf.malloc 0) = some cs := by unfold invPrecomp; rw [if_pos rfl]
      simp only [hp, Option.bind_eq_bind, Option.bind_some]
      unfold invTfRho
      rw [hm]
      simp only [hit, Option.bind_eq_bind, Option.bind_some]
      rfl
    exact inv_from (XI := some XI) h (Or.inl (by simp)) (Or.inr rfl) htr t2 hA0 t3 t4 ⟨a2, a3⟩

/-- C72: in every step the modulus of `B_n` is that of a reflection coefficient of modulus `|v_j|`. -/
theorem C72_modulus {D : ℕ} {z v : ℕ → ℂ} {B A : ℕ → Polynomial ℂ} (h : IterSeq D z v B A) (n j : ℕ) (hj : j < D) (hv : ‖v j‖ < 1) :
    ‖(B n).eval (z j)‖ ^ 2 = ‖v j‖ ^ 2 * (1 + ‖(B n).eval (z j)‖ ^ 2) := by
  have h0 : 0 < 1 - ‖v j‖ ^ 2 := by nlinarith [norm_nonneg (v j)]
  have : ‖(B n).eval (z j)‖ ^ 2 = ‖v j‖ ^ 2 / (1 - ‖v j‖ ^ 2) := by
    rw [(h n).2.2 j hj, norm_mul, norm_div, norm_real, Real.norm_eq_abs, abs_of_nonneg (Real.sqrt_nonneg _), mul_pow, div_pow, Real.sq_sqrt h0.le]
    have : ‖(if n = 0 then (1 : ℂ) else exp (I * (arg ((A (n - 1)).eval (z j)) : ℝ)))‖ = 1 := by
      split_ifs
      · simp
      · rw [mul_comm I, norm_exp_ofReal_mul_I]
    rw [this, one_pow, mul_one]
  rw [this]
  field_simp
  ring

/-- C72: fixed points are exact. If the phases of `A` at the points `z_j` do not change from one step to the next one, and the spectral factorization is exact there, then `B_n/A_n` has the
given values of the reflection coefficient at the points. -/
theorem C72_fixed_point {D : ℕ} {z v : ℕ → ℂ} {B A : ℕ → Polynomial ℂ} (h : IterSeq D z v B A) (n j : ℕ) (hj : j < D) (hv : ‖v j‖ < 1)
    (hfix : arg ((A (n + 1)).eval (z j)) = arg ((A n).eval (z j))) (hfac : ‖(A (n + 1)).eval (z j)‖ ^ 2 = 1 + ‖(B (n + 1)).eval (z j)‖ ^ 2) :
    (B (n + 1)).eval (z j) = v j * (A (n + 1)).eval (z j) ∧ (A (n + 1)).eval (z j) ≠ 0 := by
  have h0 : 0 < 1 - ‖v j‖ ^ 2 := by nlinarith [norm_nonneg (v j)]
  have hmod := C72_modulus h (n + 1) j hj hv
  have hb : ‖(B (n + 1)).eval (z j)‖ ^ 2 = ‖v j‖ ^ 2 / (1 - ‖v j‖ ^ 2) := by
    rw [eq_div_iff h0.ne']; linarith
  have ha : ‖(A (n + 1)).eval (z j)‖ ^ 2 = 1 / (1 - ‖v j‖ ^ 2) := by
    rw [hfac, hb]; field_simp; ring
  have ha' : ‖(A (n + 1)).eval (z j)‖ = 1 / Real.sqrt (1 - ‖v j‖ ^ 2) := by
    rw [← Real.sqrt_sq (norm_nonneg _), ha, Real.sqrt_div zero_le_one, Real.sqrt_one]
  constructor
  · rw [(h (n + 1)).2.2 j hj, if_neg (by omega), Nat.add_sub_cancel, ← hfix]
    conv_rhs => rw [← norm_mul_exp_arg_mul_I ((A (n + 1)).eval (z j)), ha']
    push_cast
    rw [mul_comm I]
    ring
  · intro hz
    rw [hz, norm_zero] at ha'
    have : 0 < 1 / Real.sqrt (1 - ‖v j‖ ^ 2) := by positivity
    linarith

/-- C72: in the focusing case, and for `M ≠ D`, the method is rejected and nothing is changed. -/
theorem C72_rejects {M : ℕ} (hk : 1 ≤ k) (hDM : 2 ^ k ≤ M) (hev : M % 2 = 0) (hT : T0 < T1) (hd : o.disc = .D2SPLIT2A ∨ o.disc = .D2SPLIT2_MODAL)
    (hc : o.cs = .REFLECTION_COEFFICIENT) (hm : o.meth = .AB_FROM_ITER) (XI : ℝ × ℝ) (kappa : ℤ) (hkap : kappa = 1 ∨ kappa = -1) (hbad : kappa = 1 ∨ M ≠ 2 ^ k) (g : Garbage) :
    fnft_nsev_inverse M (some cs) (some XI) 0 none none (2 ^ k) (some q) (some (T0, T1)) kappa o g =
      some ⟨E_SUBROUTINE EC_INVALID_ARGUMENT, some cs, some q⟩ := by
  have h2 : 2 ≤ 2 ^ k := calc 2 = 2 ^ 1 := rfl
    _ ≤ 2 ^ k := Nat.pow_le_pow_right (by norm_num) hk
  have hdeg : nse_degree o.disc = 1 := by rcases hd with h | h <;> rw [h] <;> decide
  have ht : invTfIter M cs XI.1 XI.2 (2 ^ k) T0 T1 (2 ^ k) (Buf.malloc (4 * (2 ^ k + 1))) kappa o = some ⟨EC_INVALID_ARGUMENT, cs, Buf.malloc (4 * (2 ^ k + 1))⟩ := by
    unfold invTfIter
    rw [if_neg (by rw [two_pow_and]; simp; omega)]
    by_cases hM : M = 2 ^ k
    · rw [if_neg (by simp [hM]), if_neg (by simp), if_pos (by rcases hbad with h | h <;> [omega; exact absurd hM h])]
    · rw [if_pos hM]
  have hcont : invCont M cs XI 0 (Buf.malloc 0) (2 ^ k) q T0 T1 kappa o = some (E_SUBROUTINE EC_INVALID_ARGUMENT, cs, q) := by
    unfold invCont
    rw [hdeg, Nat.mul_one]
    dsimp only
    rw [if_neg (by omega)]
    unfold invTransfer
    rw [hc]
    have hp : invPrecomp M cs XI.1 XI.2 0 (Buf.malloc 0) = some cs := by unfold invPrecomp; rw [if_pos rfl]
    have hchk : chk EC_INVALID_ARGUMENT = E_SUBROUTINE EC_INVALID_ARGUMENT := by unfold chk; rw [if_neg (by decide)]
    unfold invTfRho
    rw [hm]
    simp only [hp, ht, Option.bind_eq_bind, Option.bind_some, hchk]
    dsimp only [Option.pure_def, Option.bind_some]
    rw [show chk (E_SUBROUTINE EC_INVALID_ARGUMENT) = E_SUBROUTINE EC_INVALID_ARGUMENT by decide, if_pos (E_SUBROUTINE_ne (by decide))]
  rw [inverse_cont hev hDM hkap (fun h => absurd h (lt_irrefl 0)) (fun h => absurd h (lt_irrefl 0)) (fun h => absurd h (lt_irrefl 0)) rfl ⟨k, hk, rfl⟩ hT hd (Or.inl (by simp))]
  simp only [Option.getD_some, Option.getD_none, hcont, Option.bind_eq_bind, Option.bind_some]
  rw [if_pos (E_SUBROUTINE_ne (by decide))]
  rfl

/-- C72: the sequence of the iteration is unique. -/
theorem C72_unique {D : ℕ} (hD : 2 ≤ D) {z v : ℕ → ℂ} (hz : ∀ i j, i < D → j < D → z i = z j → i = j) {B A B' A' : ℕ → Polynomial ℂ} (h : IterSeq D z v B A)
    (h' : IterSeq D z v B' A') (n : ℕ) : B n = B' n ∧ A n = A' n := by
  have hinj : Set.InjOn z (range D : Set ℕ) := fun i hi j hj hij => hz i j (mem_range.mp hi) (mem_range.mp hj) hij
  have step : ∀ n, B n = B' n → A n = A' n := by
    intro n hB
    obtain ⟨a1, a2⟩ := (h n).2.1
    obtain ⟨b1, b2⟩ := (h' n).2.1
    obtain ⟨b, f1, f2, f3⟩ := fill_spec (off := 0) (cnt := D) (b := (Buf.malloc D : Buf ℂ)) (f := fun j => some ((B n).coeff (D - 1 - j)))
      (fun j => (B n).coeff (D - 1 - j)) (fun _ _ _ => rfl) (Or.inl (by simp))
    have hb : b.Holds 0 (D - 1 + 1) (fun j => (B n).coeff (D - 1 - j)) := fun j hj => by rw [Nat.zero_add, f3, if_pos (by omega)]
    have hl : D - 1 + 1 ≤ b.len := by rw [f2]; simp; omega
    obtain ⟨r, r1, r2⟩ := a2 b b hb hl
    obtain ⟨r', r3, r4⟩ := b2 b b (by rw [← hB]; exact hb) hl
    rw [r1] at r3
    injection r3 with r3
    injection r3 with _ r3
    injection r3 with r3
    subst r3
    ext m
    by_cases hm : m ≤ D - 1
    · have e1 := r2 (D - 1 - m) (by omega)
      rw [r4 (D - 1 - m) (by omega)] at e1
      injection e1 with e1
      dsimp only at e1
      rw [show D - 1 - (D - 1 - m) = m by omega] at e1
      exact e1.symm
    · rw [Polynomial.coeff_eq_zero_of_natDegree_lt (lt_of_le_of_lt a1 (by omega)), Polynomial.coeff_eq_zero_of_natDegree_lt (lt_of_le_of_lt b1 (by omega))]
  have hBn : ∀ n, (∀ m, m < n → A m = A' m) → B n = B' n := by
    intro n hm
    refine Polynomial.eq_of_degrees_lt_of_eval_index_eq (range D) hinj (by rw [card_range]; exact (h n).1) (by rw [card_range]; exact (h' n).1) fun j hj => ?_
    rw [(h n).2.2 j (mem_range.mp hj), (h' n).2.2 j (mem_range.mp hj)]
    by_cases h0 : n = 0
    · rw [if_pos h0, if_pos h0]
    · rw [if_neg h0, if_neg h0, hm (n - 1) (by omega)]
  induction n using Nat.strong_induction_on with
  | _ n ih =>
    have := hBn n fun m hm => (ih m hm).2
    exact ⟨this, step n this⟩

/-- The points `z_j` of C72 are different. -/
theorem iter_points (h : InvCall k (2 ^ k) cs q cf T0 T1 eps o) {XI : ℝ × ℝ} (hXI : ∃ Y, fnft_nsev_inverse_XI (2 ^ k) (some (T0, T1)) (2 ^ k) (some Y) o.disc = some (SUCCESS, some XI))
    {z : ℕ → ℂ} (hz : ∀ j : ℕ, z j = exp (2 * I * ((XI.1 + j * ((XI.2 - XI.1) / (((2 ^ k : ℕ) : ℝ) - 1)) : ℝ) : ℂ) * eps)) :
    (∀ i j, i < 2 ^ k → j < 2 ^ k → z i = z j → i = j) ∧ ∀ j, j < 2 ^ k → ‖z j‖ = 1 := by
  obtain ⟨h2, -⟩ := InvCall_two h
  have hg := InvCall_grid h hXI
  have hev := h.hev
  set D := 2 ^ k with hD
  have hzw : ∀ i, z ((i + (D / 2 - 1)) % D) = wD D ^ i := by
    intro i
    have := grid_eval h2 hev hg (P := Polynomial.X) (v := z) (fun j hj => by rw [Polynomial.eval_X, hz]; unfold invXi; push_cast; rfl) i
    rw [this, Polynomial.eval_X]; rfl
  have hzj : ∀ j, j < D → z j = wD D ^ ((j + (D / 2 + 1)) % D) := by
    intro j hj
    rw [← hzw, iter_index h2 hev hj]
  have hprim : IsPrimitiveRoot (wD D) D := isPrimitiveRoot_exp _ (by omega)
  constructor
  · intro i j hi hj hij
    rw [hzj i hi, hzj j hj] at hij
    have := hprim.pow_inj (Nat.mod_lt _ (by omega)) (Nat.mod_lt _ (by omega)) hij
    rw [← iter_index h2 hev hi, this, iter_index h2 hev hj]
  · intro j hj
    rw [hzj j hj, norm_pow, hprim.norm'_eq_one (by omega), one_pow]

/-- C72: for a reflection coefficient with `v_j = c z_j^m` everything is exact: the iteration is constant, and the call returns the signal with the reflection `c` of the layer `D-1-m` and no
reflection of the others. -/
theorem C72_single (h : InvCall k (2 ^ k) cs q cf T0 T1 eps o) (hc : o.cs = .REFLECTION_COEFFICIENT) (hm : o.meth = .AB_FROM_ITER) (hmax : 1 ≤ o.max_iter)
    (hsz : 2 ^ k * 32 ≤ 3 ^ 32) (XI : ℝ × ℝ) (hXI : ∃ Y, fnft_nsev_inverse_XI (2 ^ k) (some (T0, T1)) (2 ^ k) (some Y) o.disc = some (SUCCESS, some XI))
    (m : ℕ) (hmD : m < 2 ^ k) (c : ℂ) (hcn : ‖c‖ < 1)
    (hcf : ∀ j : ℕ, cf j = c * exp (2 * I * ((XI.1 + j * ((XI.2 - XI.1) / (((2 ^ k : ℕ) : ℝ) - 1)) : ℝ) : ℂ) * (m * eps - T1))) (g : Garbage) :
    ∃ cs' q', fnft_nsev_inverse (2 ^ k) (some cs) (some XI) 0 none none (2 ^ k) (some q) (some (T0, T1)) (-1) o g = some ⟨SUCCESS, some cs', some q'⟩ ∧ q'.len = 2 ^ k ∧
      ∀ n, n < 2 ^ k → q'.rd n = some (Spec.recovered o.disc eps (if n = 2 ^ k - 1 - m then (starRingEnd ℂ) c else 0)) := by
  obtain ⟨h2, -⟩ := InvCall_two h
  set z : ℕ → ℂ := fun j => exp (2 * I * ((XI.1 + j * ((XI.2 - XI.1) / (((2 ^ k : ℕ) : ℝ) - 1)) : ℝ) : ℂ) * eps) with hz
  set v : ℕ → ℂ := fun j => cf j * exp (2 * I * ((XI.1 + j * ((XI.2 - XI.1) / (((2 ^ k : ℕ) : ℝ) - 1)) : ℝ) : ℂ) * T1) with hv
  obtain ⟨hinj, hz1⟩ := iter_points h hXI (z := z) (fun j => rfl)
  have hvz : ∀ j, v j = c * z j ^ m := by
    intro j
    simp only [hv, hz]
    rw [hcf, mul_assoc, ← exp_add, ← exp_nat_mul]
    congr 2
    ring
  have hvn : ∀ j, j < 2 ^ k → ‖v j‖ = ‖c‖ := fun j hj => by rw [hvz, norm_mul, norm_pow, hz1 j hj, one_pow, mul_one]
  have hrho : ∀ j, j < 2 ^ k → ‖cf j‖ < 1 := by
    intro j hj
    rw [hcf, norm_mul, show 2 * I * ((XI.1 + j * ((XI.2 - XI.1) / (((2 ^ k : ℕ) : ℝ) - 1)) : ℝ) : ℂ) * (m * eps - T1) =
      ((2 * (XI.1 + j * ((XI.2 - XI.1) / (((2 ^ k : ℕ) : ℝ) - 1))) * (m * eps - T1) : ℝ) : ℂ) * I by push_cast; ring, norm_exp_ofReal_mul_I, mul_one]
    exact hcn
  obtain ⟨B, A, n, hseq, -, -, -, hI⟩ := C72_iteration h hc hm hmax hsz XI hXI z v (fun _ => rfl) (fun _ => rfl) hrho
  have hc0 : 0 < 1 - ‖c‖ ^ 2 := by nlinarith [norm_nonneg c]
  set t : ℝ := Real.sqrt (1 - ‖c‖ ^ 2) with ht
  have htp : 0 < t := Real.sqrt_pos.mpr hc0
  have ht2 : t ^ 2 = 1 - ‖c‖ ^ 2 := Real.sq_sqrt hc0.le
  set β : ℂ := c / t with hβ
  have hβ2 : 1 - ((-1 : ℤ) : ℝ) * ‖β‖ ^ 2 = (1 / t) ^ 2 := by
    rw [hβ, norm_div, norm_real, Real.norm_eq_abs, abs_of_pos htp, div_pow, div_pow, ht2]
    push_cast
    field_simp
    ring
  have hpos : 0 < 1 - ((-1 : ℤ) : ℝ) * ‖β‖ ^ 2 := by rw [hβ2]; positivity
  have hs : Real.sqrt (1 - ((-1 : ℤ) : ℝ) * ‖β‖ ^ 2) = 1 / t := by rw [hβ2, Real.sqrt_sq (by positivity)]
  have hstep : ∀ n, (∀ i, i < n → A i = Polynomial.C (((1 / t : ℝ)) : ℂ)) → B n = Polynomial.C β * Polynomial.X ^ m := by
    intro n hn
    have hinj' : Set.InjOn z (range (2 ^ k) : Set ℕ) := fun i hi j hj hij => hinj i j (mem_range.mp hi) (mem_range.mp hj) hij
    refine Polynomial.eq_of_degrees_lt_of_eval_index_eq (range (2 ^ k)) hinj' (by rw [card_range]; exact (hseq n).1) ?_ fun j hj => ?_
    · rw [card_range]
      exact lt_of_le_of_lt (Polynomial.degree_C_mul_X_pow_le _ _) (by exact_mod_cast hmD)
    · have hj' := mem_range.mp hj
      rw [(hseq n).2.2 j hj', Polynomial.eval_mul, Polynomial.eval_C, Polynomial.eval_pow, Polynomial.eval_X, hvn j hj', hvz, ← ht]
      have : (if n = 0 then (1 : ℂ) else exp (I * (arg ((A (n - 1)).eval (z j)) : ℝ))) = 1 := by
        by_cases h0 : n = 0
        · rw [if_pos h0]
        · rw [if_neg h0, hn (n - 1) (by omega), Polynomial.eval_C, arg_ofReal_of_nonneg (by positivity)]
          simp
      rw [this, mul_one, hβ]
      ring
  have hA : ∀ n, A n = Polynomial.C (((1 / t : ℝ)) : ℂ) := by
    intro n
    induction n using Nat.strong_induction_on with
    | _ n ih =>
      have hB := hstep n ih
      have := (hseq n).2.1
      rw [hB] at this
      rw [specFactor_monomial (by omega) (by norm_num) (by rw [Nat.sub_add_cancel (by omega)]; exact hsz) (Or.inr rfl) (by omega) hpos this, hs]
  have hB : B n = Polynomial.C β * Polynomial.X ^ m := hstep n fun i _ => hA i
  have hsc := scatters_single (kappa := -1) (d := 2 ^ k) (n0 := 2 ^ k - 1 - m) (by omega) (β := β) (s := 1 / t) (by positivity)
  rw [show 2 ^ k - 1 - (2 ^ k - 1 - m) = m by omega, ← hB, ← hA n] at hsc
  have hreg := regular_single (kappa := -1) (n0 := 2 ^ k - 1 - m) hpos
  rw [hs] at hreg
  obtain ⟨cs', q', c1, c2, c3, c4⟩ := (hI (by rw [hA]; simpa using htp.ne')).2 g _ hsc (fun n _ => hreg n)
  refine ⟨cs', q', c1, c3, fun n hn => ?_⟩
  rw [c4 n hn]
  have hβc : β / ((1 / t : ℝ) : ℂ) = c := by
    have : (t : ℂ) ≠ 0 := by exact_mod_cast htp.ne'
    rw [hβ]; push_cast; field_simp
  by_cases h1 : n = 2 ^ k - 1 - m
  · rw [if_pos h1, if_pos h1, hβc]; simp
  · rw [if_neg h1, if_neg h1, map_zero, mul_zero]

/-- The hypotheses of C72 are met: two samples on `[0, 1]`, `v_j = z_j/2`. -/
example : ∃ (XI : ℝ × ℝ) (cs : Buf ℂ) (cf : ℕ → ℂ), InvCall 1 2 cs (Buf.malloc 2) cf 0 1 1 { inv_default_opts with meth := .AB_FROM_ITER } ∧
    (∃ Y, fnft_nsev_inverse_XI 2 (some (0, 1)) 2 (some Y) inv_default_opts.disc = some (SUCCESS, some XI)) ∧
    ∀ j : ℕ, cf j = 1 / 2 * exp (2 * I * ((XI.1 + j * ((XI.2 - XI.1) / (((2 ^ 1 : ℕ) : ℝ) - 1)) : ℝ) : ℂ) * (1 * (1 : ℝ) - (1 : ℝ))) := by
  obtain ⟨X0, X1, h, -⟩ := C64_grid 2 2 (by norm_num) (by norm_num) (by norm_num) 0 1 (by norm_num) .D2SPLIT2A .D2SPLIT2A rfl (by decide) (0, 0)
  refine ⟨(X0, X1), Buf.ofList [1 / 2, 1 / 2], fun _ => 1 / 2, ⟨le_rfl, le_rfl, rfl, by norm_num, by norm_num, by norm_num, Or.inl rfl, ?_, by simp⟩, ⟨(0, 0), h⟩, fun j => by simp⟩
  intro i hi
  interval_cases i <;> simp [Buf.ofList, Buf.rd]

end FNFT

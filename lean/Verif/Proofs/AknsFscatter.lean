import Verif.Proofs.AknsExec
import Verif.Props.PolyFmult
/-!
# `akns_fscatter` multiplies the sample matrices
-/
namespace FNFT
open Finset Polynomial AknsDisc

theorem aknsTab_wf {d : AknsDisc} {tab : Tab} (h : aknsTab d = some tab) : tab.wf (akns_degree d) = true := by
  cases d <;> simp only [aknsTab, Option.some.injEq, reduceCtorEq] at h <;> subst h <;> decide +kernel

theorem aknsTab_degree {d : AknsDisc} {tab : Tab} (h : aknsTab d = some tab) : akns_degree d ≠ 0 ∧ akns_degree d ≤ 105 := by
  cases d <;> simp only [aknsTab, Option.some.injEq, reduceCtorEq] at h <;> decide

/-- Polynomial matrix of a sample. -/
noncomputable def sampleP (tab : Tab) (deg : ℕ) (env : ℕ → ℕ → ℂ) : Matrix (Fin 2) (Fin 2) ℂ[X] :=
  Matrix.of fun a b => Spec.poly deg (look (runVals env tab.asg []) (2 * a + b))

theorem poly_eval_sum (d : ℕ) (x : ℕ → ℂ) (z : ℂ) :
    (Spec.poly d x).eval z = ∑ k ∈ range (d + 1), x k * z ^ (d - k) := by
  simp [Spec.poly, eval_finsetSum]

theorem sampleP_eval {tab : Tab} {deg : ℕ} (hw : tab.wf deg = true) (env : ℕ → ℕ → ℂ) (z : ℂ) :
    (sampleP tab deg env).map (eval z) = tabMat tab deg env z := by
  simp only [Tab.wfN, Bool.and_eq_true] at hw
  obtain ⟨hn, hk⟩ := runVals_nodup 4 deg env tab.asg [] hw.1 (by simp [keys]) (by simp [keys])
  have h : ∀ t, (Spec.poly deg (look (runVals env tab.asg []) t)).eval z =
      sumT t (fun k => z ^ (deg - k)) (runVals env tab.asg []) := fun t => by
    rw [poly_eval_sum, sum_look _ _ _ _ hk hn]
  ext i j
  fin_cases i <;> fin_cases j <;> simp [sampleP, tabMat, h]

theorem addr_inj {D n s s' t t' k k' : ℕ} (hs : s < D) (hs' : s' < D) (hk : k < n) (hk' : k' < n)
    (h : (t * D + s) * n + k = (t' * D + s') * n + k') : t = t' ∧ s = s' ∧ k = k' := by
  have e1 : t * D + s = t' * D + s' := by
    have h1 : ((t * D + s) * n + k) / n = t * D + s := by
      rw [mul_comm, Nat.mul_add_div (by omega), Nat.div_eq_of_lt hk, Nat.add_zero]
    have h2 : ((t' * D + s') * n + k') / n = t' * D + s' := by
      rw [mul_comm, Nat.mul_add_div (by omega), Nat.div_eq_of_lt hk', Nat.add_zero]
    rw [← h1, ← h2, h]
  have e2 : t = t' := by
    have h1 : (t * D + s) / D = t := by
      rw [mul_comm, Nat.mul_add_div (by omega), Nat.div_eq_of_lt hs, Nat.add_zero]
    have h2 : (t' * D + s') / D = t' := by
      rw [mul_comm, Nat.mul_add_div (by omega), Nat.div_eq_of_lt hs', Nat.add_zero]
    rw [← h1, ← h2, e1]
  subst e2
  have e3 : s = s' := by omega
  subst e3
  exact ⟨rfl, rfl, by omega⟩

theorem addr_lt {D n s t k : ℕ} (hs : s < D) (ht : t < 4) (hk : k < n) : (t * D + s) * n + k < 4 * (D * n) := by
  have h1 : t * D + s + 1 ≤ 4 * D := by
    calc t * D + s + 1 ≤ t * D + D := by omega
      _ = (t + 1) * D := by ring
      _ ≤ 4 * D := Nat.mul_le_mul_right _ (by omega)
  calc (t * D + s) * n + k < (t * D + s) * n + n := by omega
    _ = (t * D + s + 1) * n := by ring
    _ ≤ 4 * D * n := Nat.mul_le_mul_right _ h1
    _ = 4 * (D * n) := by ring

/-- The sample loop when no sample leads to a division by zero. -/
theorem aknsLoop_ok (d : AknsDisc) (tab : Tab) (deg : ℕ) (hw : tab.wf deg = true) (eps : ℝ) (D : ℕ)
    (q r : Buf ℂ) (qf rf : ℕ → ℂ) (hq : q.Holds 0 D qf) (hr : r.Holds 0 D rf) (env : ℕ → ℕ → ℕ → ℂ)
    (henv : ∀ i, i < D → aknsEnv d tab deg eps (qf i) (rf i) = some (env i))
    (p : Buf ℂ) (hlen : 4 * (D * (deg + 1)) ≤ p.len) (hz : tab.zero = true → ∀ j, j < p.len → p.rd j = some 0) :
    ∃ p', forLoop D (aknsSample d tab deg eps D q r) (false, p) = some (false, p') ∧ p'.len = p.len ∧
      ∀ t s k, t < 4 → s < D → k ≤ deg →
        p'.rd ((t * D + s) * (deg + 1) + k) = some (look (runVals (env (D - 1 - s)) tab.asg []) t k) := by
  obtain ⟨⟨b, p'⟩, h1, h2, h3, h4, -⟩ := forLoop_inv (n := D) (body := aknsSample d tab deg eps D q r) (s := (false, p))
    (fun n st => st.1 = false ∧ st.2.len = p.len ∧
      (∀ t s k, t < 4 → s < n → k ≤ deg →
        st.2.rd ((t * D + s) * (deg + 1) + k) = some (look (runVals (env (D - 1 - s)) tab.asg []) t k)) ∧
      (tab.zero = true → ∀ t s k, t < 4 → n ≤ s → s < D → k ≤ deg → st.2.rd ((t * D + s) * (deg + 1) + k) = some 0))
    ⟨rfl, rfl, fun t s k _ hs => absurd hs (Nat.not_lt_zero s), fun h t s k ht _ hs hk =>
      hz h _ (by have := addr_lt hs ht (show k < deg + 1 by omega); omega)⟩
    (by
      rintro n ⟨b, p1⟩ hn ⟨hb, hl, hdone, hrest⟩
      simp only at hb hl hdone hrest
      subst hb
      have e1 := hq (D - 1 - n) (by omega)
      have e2 := hr (D - 1 - n) (by omega)
      rw [Nat.zero_add] at e1 e2
      obtain ⟨p2, g1, g2, g3, g4⟩ := Tab.exec hw (fun t => (t * D + n) * (deg + 1)) (env (D - 1 - n)) p1
        (fun t k t' k' _ hk _ hk' he => by
          have := addr_inj hn hn (show k < deg + 1 by omega) (show k' < deg + 1 by omega) he
          exact ⟨this.1, this.2.2⟩)
        (fun t k ht hk => by have := addr_lt hn ht (show k < deg + 1 by omega); omega)
        (fun h t k ht hk => hrest h t n k ht le_rfl hn hk)
      refine ⟨(false, p2), ?_, rfl, by simp only; omega, ?_, ?_⟩
      · simp only [aknsSample, Bool.false_eq_true, if_false, e1, e2, Option.bind_eq_bind, Option.bind_some,
          henv (D - 1 - n) (by omega), g1]
        rfl
      · intro t s k ht hs hk
        rcases Nat.lt_succ_iff_lt_or_eq.mp hs with h | h
        · rw [← hdone t s k ht h hk]
          refine g4 _ fun t' k' _ hk' he => ?_
          have := addr_inj (show s < D by omega) hn (show k < deg + 1 by omega) (show k' < deg + 1 by omega) he
          omega
        · subst h; exact g3 t k ht hk
      · intro h t s k ht hs hsD hk
        rw [← hrest h t s k ht (by omega) hsD hk]
        refine g4 _ fun t' k' _ hk' he => ?_
        have := addr_inj hsD hn (show k < deg + 1 by omega) (show k' < deg + 1 by omega) he
        omega)
  simp only at h2 h3 h4
  subst h2
  exact ⟨p', h1, h3, h4⟩

/-- The sample loop when some sample leads to a division by zero. -/
theorem aknsLoop_div (d : AknsDisc) (tab : Tab) (deg : ℕ) (hw : tab.wf deg = true) (eps : ℝ) (D : ℕ)
    (q r : Buf ℂ) (qf rf : ℕ → ℂ) (hq : q.Holds 0 D qf) (hr : r.Holds 0 D rf)
    (hdiv : ∃ i, i < D ∧ aknsEnv d tab deg eps (qf i) (rf i) = none)
    (p : Buf ℂ) (hlen : 4 * (D * (deg + 1)) ≤ p.len) (hz : tab.zero = true → ∀ j, j < p.len → p.rd j = some 0) :
    ∃ p', forLoop D (aknsSample d tab deg eps D q r) (false, p) = some (true, p') := by
  obtain ⟨⟨b, p'⟩, h1, h2, h3⟩ := forLoop_inv (n := D) (body := aknsSample d tab deg eps D q r) (s := (false, p))
    (fun n st => ((∃ s, s < n ∧ aknsEnv d tab deg eps (qf (D - 1 - s)) (rf (D - 1 - s)) = none) → st.1 = true) ∧
      (st.1 = false → st.2.len = p.len ∧
      (tab.zero = true → ∀ t s k, t < 4 → n ≤ s → s < D → k ≤ deg → st.2.rd ((t * D + s) * (deg + 1) + k) = some 0)))
    ⟨fun ⟨s, hs, _⟩ => absurd hs (Nat.not_lt_zero s), fun _ => ⟨rfl, fun h t s k ht _ hs hk =>
      hz h _ (by have := addr_lt hs ht (show k < deg + 1 by omega); omega)⟩⟩
    (by
      rintro n ⟨b, p1⟩ hn ⟨hb, hrest⟩
      simp only at hb hrest
      cases b with
      | true => exact ⟨(true, p1), by simp [aknsSample], fun _ => rfl, fun h => absurd h (by simp)⟩
      | false =>
        obtain ⟨hl, hrest⟩ := hrest rfl
        have e1 := hq (D - 1 - n) (by omega)
        have e2 := hr (D - 1 - n) (by omega)
        rw [Nat.zero_add] at e1 e2
        cases he : aknsEnv d tab deg eps (qf (D - 1 - n)) (rf (D - 1 - n)) with
        | none =>
          refine ⟨(true, p1), ?_, fun _ => rfl, fun h => absurd h (by simp)⟩
          simp only [aknsSample, Bool.false_eq_true, if_false, e1, e2, Option.bind_eq_bind, Option.bind_some, he]
          rfl
        | some env =>
          obtain ⟨p2, g1, g2, g3, g4⟩ := Tab.exec hw (fun t => (t * D + n) * (deg + 1)) env p1
            (fun t k t' k' _ hk _ hk' he => by
              have := addr_inj hn hn (show k < deg + 1 by omega) (show k' < deg + 1 by omega) he
              exact ⟨this.1, this.2.2⟩)
            (fun t k ht hk => by have := addr_lt hn ht (show k < deg + 1 by omega); omega)
            (fun h t k ht hk => hrest h t n k ht le_rfl hn hk)
          refine ⟨(false, p2), ?_, ?_, fun _ => ⟨by simp only; omega, ?_⟩⟩
          · simp only [aknsSample, Bool.false_eq_true, if_false, e1, e2, Option.bind_eq_bind, Option.bind_some, he, g1]
            rfl
          · rintro ⟨s, hs, hs'⟩
            exfalso
            rcases Nat.lt_succ_iff_lt_or_eq.mp hs with h | h
            · exact absurd (hb ⟨s, h, hs'⟩) (by simp)
            · subst h; rw [he] at hs'; cases hs'
          · intro h t s k ht hs hsD hk
            rw [← hrest h t s k ht (by omega) hsD hk]
            refine g4 _ fun t' k' _ hk' he => ?_
            have := addr_inj hsD hn (show k < deg + 1 by omega) (show k' < deg + 1 by omega) he
            omega)
  obtain ⟨i, hi, hi'⟩ := hdiv
  have := h2 ⟨D - 1 - i, by omega, by rw [show D - 1 - (D - 1 - i) = i by omega]; exact hi'⟩
  simp only at this
  subst this
  exact ⟨p', h1⟩

theorem aknsInit_spec (zero : Bool) (len : ℕ) :
    ∃ p, aknsInit zero len = some p ∧ p.len = len ∧ (zero = true → ∀ j, j < p.len → p.rd j = some 0) := by
  cases zero with
  | false => exact ⟨Buf.malloc len, rfl, rfl, fun h => by cases h⟩
  | true =>
    obtain ⟨p, h1, h2, h3⟩ := fill_spec (off := 0) (cnt := len) (f := fun _ => some (0 : ℂ)) (b := Buf.malloc len)
      (fun _ => 0) (fun _ _ _ => rfl) (Or.inl (by simp))
    refine ⟨p, by simpa [aknsInit] using h1, by simpa using h2, fun _ j hj => ?_⟩
    rw [h3 j, if_pos (by rw [h2] at hj; simp at hj; omega)]

/-- `akns_fscatter` on valid arguments, no division by zero. -/
theorem akns_fscatter_ok (d : AknsDisc) (tab : Tab) (htab : aknsTab d = some tab) (D : ℕ) (hD : 2 ≤ D)
    (hD' : D ≤ 2147483647) (q r : Buf ℂ) (qf rf : ℕ → ℂ) (hq : q.Holds 0 D qf) (hr : r.Holds 0 D rf)
    (eps : ℝ) (heps : 0 < eps) (env : ℕ → ℕ → ℕ → ℂ)
    (henv : ∀ i, i < D → aknsEnv d tab (akns_degree d) (aknsEps d eps) (qf i) (rf i) = some (env i))
    (result : Buf ℂ) (L : ℕ) (hL : akns_fscatter_numel D d = some L) (hlen : L ≤ result.len)
    (dg : ℕ) (Wp : Option ℤ) :
    ∃ R, akns_fscatter D (some q) (some r) eps (some result) (some dg) Wp d = some R ∧
      R.ret = some SUCCESS ∧ R.deg = D * akns_degree d ∧ R.result.len = result.len ∧ (Wp = none → R.W = 0) ∧
      ∃ y, R.result.Holds 0 (4 * (D * akns_degree d + 1)) y ∧
        C ((2 : ℂ) ^ R.W) • Spec.pmat 2 (D * akns_degree d) (D * akns_degree d + 1) 0 y =
          ((List.range D).map fun s => sampleP tab (akns_degree d) (env (D - 1 - s))).prod ∧
        (Wp.isSome = true → (∃ i, i < 4 * (D * akns_degree d + 1) ∧ y i ≠ 0) →
          (∃ i, i < 4 * (D * akns_degree d + 1) ∧ 1 ≤ ‖y i‖) ∧ ∀ i, i < 4 * (D * akns_degree d + 1) → ‖y i‖ < 2) := by
  obtain ⟨hd0, hd1⟩ := aknsTab_degree htab
  have hw := aknsTab_wf htab
  set deg := akns_degree d with hdeg
  have hL' : poly_fmult_numel 4 deg D = some L := by
    rw [akns_fscatter_numel, ← hdeg, if_neg hd0] at hL; exact hL
  obtain ⟨k, hk, hk1, hk2⟩ := nextpow2_spec D (by omega) (by omega)
  have hLD : 4 * (D * (deg + 1)) ≤ L := by
    rw [poly_fmult_numel, hk, Option.map_some, Option.some_inj] at hL'
    rw [← hL']
    calc 4 * (D * (deg + 1)) ≤ 4 * (2 ^ k * (deg + 1)) := Nat.mul_le_mul_left _ (Nat.mul_le_mul_right _ hk1)
      _ = _ := by ring
  have hL0 : L ≠ 0 := by
    have : 0 < D * (deg + 1) := Nat.mul_pos (by omega) (by omega)
    omega
  obtain ⟨p0, i1, i2, i3⟩ := aknsInit_spec tab.zero L
  obtain ⟨p1, l1, l2, l3⟩ := aknsLoop_ok d tab deg hw (aknsEps d eps) D q r qf rf hq hr env henv p0 (by omega) i3
  set x : ℕ → ℂ := fun j => (p1.rd j).getD 0 with hx
  have hcell : ∀ t s k, t < 4 → s < D → k ≤ deg →
      x ((t * D + s) * (deg + 1) + k) = look (runVals (env (D - 1 - s)) tab.asg []) t k := by
    intro t s k ht hs hk
    simp only [hx, l3 t s k ht hs hk, Option.getD_some]
  have hxh : p1.Holds 0 (4 * (D * (deg + 1))) x := by
    intro j hj
    rw [Nat.zero_add]
    have hk : j % (deg + 1) < deg + 1 := Nat.mod_lt _ (by omega)
    have h1 : j / (deg + 1) < 4 * D := by
      rw [Nat.div_lt_iff_lt_mul (by omega)]; rw [mul_assoc]; exact hj
    have hs : j / (deg + 1) % D < D := Nat.mod_lt _ (by omega)
    have ht : j / (deg + 1) / D < 4 := by rw [Nat.div_lt_iff_lt_mul (by omega)]; exact h1
    have e : (j / (deg + 1) / D * D + j / (deg + 1) % D) * (deg + 1) + j % (deg + 1) = j := by
      rw [mul_comm (j / (deg + 1) / D), Nat.div_add_mod, mul_comm, Nat.div_add_mod]
    have := l3 _ _ _ ht hs (Nat.le_of_lt_succ hk)
    rw [e] at this
    simp only [hx, this, Option.getD_some]
  obtain ⟨f, f1, f2, f3, f4, y, f5, f6, f7, f8⟩ := C15_fmult2x2 deg D hD (by omega)
    (by calc 2 * deg * D ≤ 2 * 105 * 2147483647 := Nat.mul_le_mul (by omega) hD'
          _ < 3 ^ 32 := by norm_num) p1 result L hL' (by omega) hlen x hxh Wp.isSome
  refine ⟨⟨some SUCCESS, f.deg, if Wp.isSome then f.W else Wp.getD 0, f.result⟩, ?_, rfl, f3, f4, ?_, y, f5, ?_, f8⟩
  · rw [akns_fscatter, if_neg (by omega)]
    simp only [if_neg (not_le.mpr heps)]
    rw [akns_fscatter_main, hL]
    simp only [Option.bind_eq_bind, Option.bind_some, if_neg hL0, htab, i1, ← hdeg, l1, f1, f2]
    simp
  · rintro rfl; simp
  · have hWW : (if Wp.isSome then f.W else Wp.getD 0) = f.W := by
      cases Wp with
      | none => simpa using (f7 rfl).symm
      | some w => simp
    simp only [hWW]
    rw [f6]
    congr 1
    refine List.map_congr_left fun s hs => ?_
    have hs' : s < D := List.mem_range.mp hs
    ext1 a b
    simp only [Spec.pmat, sampleP, Matrix.of_apply]
    refine Spec.poly_congr fun k hk => ?_
    rw [← hcell (2 * a + b) s k (by have := a.2; have := b.2; omega) hs' hk]
    congr 1
    ring

/-- `akns_fscatter` when a sample leads to a division by zero. -/
theorem akns_fscatter_div (d : AknsDisc) (tab : Tab) (htab : aknsTab d = some tab) (D : ℕ) (hD : 1 ≤ D)
    (hD' : D ≤ 2147483647) (q r : Buf ℂ) (qf rf : ℕ → ℂ) (hq : q.Holds 0 D qf) (hr : r.Holds 0 D rf)
    (eps : ℝ) (heps : 0 < eps)
    (hdiv : ∃ i, i < D ∧ aknsEnv d tab (akns_degree d) (aknsEps d eps) (qf i) (rf i) = none)
    (result : Buf ℂ) (dg : ℕ) (Wp : Option ℤ) :
    ∃ R, akns_fscatter D (some q) (some r) eps (some result) (some dg) Wp d = some R ∧
      R.ret = some EC_DIV_BY_ZERO ∧ R.result = result := by
  obtain ⟨hd0, hd1⟩ := aknsTab_degree htab
  have hw := aknsTab_wf htab
  set deg := akns_degree d with hdeg
  obtain ⟨k, hk, hk1, hk2⟩ := nextpow2_spec D (by omega) (by omega)
  obtain ⟨L, hL'⟩ : ∃ L, poly_fmult_numel 4 deg D = some L := by
    rw [poly_fmult_numel, hk]; exact ⟨_, rfl⟩
  have hL : akns_fscatter_numel D d = some L := by
    rw [akns_fscatter_numel, ← hdeg, if_neg hd0]; exact hL'
  have hLD : 4 * (D * (deg + 1)) ≤ L := by
    rw [poly_fmult_numel, hk, Option.map_some, Option.some_inj] at hL'
    rw [← hL']
    calc 4 * (D * (deg + 1)) ≤ 4 * (2 ^ k * (deg + 1)) := Nat.mul_le_mul_left _ (Nat.mul_le_mul_right _ hk1)
      _ = _ := by ring
  have hL0 : L ≠ 0 := by
    have : 0 < D * (deg + 1) := Nat.mul_pos (by omega) (by omega)
    omega
  obtain ⟨p0, i1, i2, i3⟩ := aknsInit_spec tab.zero L
  obtain ⟨p1, l1⟩ := aknsLoop_div d tab deg hw (aknsEps d eps) D q r qf rf hq hr hdiv p0 (by omega) i3
  refine ⟨⟨some EC_DIV_BY_ZERO, deg, Wp.getD 0, result⟩, ?_, rfl, rfl⟩
  rw [akns_fscatter, if_neg (by omega)]
  simp only [if_neg (not_le.mpr heps)]
  rw [akns_fscatter_main, hL]
  simp only [Option.bind_eq_bind, Option.bind_some, if_neg hL0, htab, i1, ← hdeg, l1]
  simp

end FNFT

import Verif.Proofs.ExpS
import Verif.Props.AknsDisc
/-!
# Loops of `akns_scatter_matrix`
-/
namespace FNFT
open Complex Matrix AknsDisc

theorem chain_zero {m : Type*} [Fintype m] [DecidableEq m] (U : ℕ → Matrix m m ℂ) : Spec.chain U 0 = 1 := by
  simp [Spec.chain]

theorem chain_succ {m : Type*} [Fintype m] [DecidableEq m] (U : ℕ → Matrix m m ℂ) (N : ℕ) :
    Spec.chain U (N + 1) = U N * Spec.chain U N := by
  unfold Spec.chain
  rw [List.range_succ_eq_map, List.map_cons, List.prod_cons, List.map_map]
  congr 3
  funext s
  simp only [Function.comp_apply]
  congr 1
  omega

/-- `H[current]` holds `M`; both halves of `H` have full size. -/
structure StOK (s : ℕ) (st : ScatSt) (M : Matrix (Fin s) (Fin s) ℂ) : Prop where
  hS : Spec.Stores st.cur M
  l1 : st.cur.len = s * s
  l2 : st.oth.len = s * s

theorem scatMul_ok {s : ℕ} {U : List ℂ} {A M : Matrix (Fin s) (Fin s) ℂ} {st : ScatSt}
    (hU : Spec.Stores (Buf.ofList U) A) (h : StOK s st M) :
    ∃ st', scatMul s U st = some st' ∧ StOK s st' (A * M) ∧ st'.Wi = st.Wi := by
  obtain ⟨o, h1, h2, h3, -⟩ := C19_matrix_mult A M (Buf.ofList U) st.cur st.oth hU h.hS (by rw [h.l2])
  refine ⟨⟨o, st.cur, st.Wi⟩, ?_, ⟨h2, by rw [h3]; exact h.l2, h.l1⟩, rfl⟩
  simp only [scatMul, h1, Option.bind_eq_bind, Option.bind_some]; rfl

theorem holds_stores {s : ℕ} {b : Buf ℂ} {M : Matrix (Fin s) (Fin s) ℂ} (hs : 0 < s) :
    Spec.Stores b M ↔ b.Holds 0 (s * s) (fun l => M ⟨l / s % s, Nat.mod_lt _ hs⟩ ⟨l % s, Nat.mod_lt _ hs⟩) := by
  constructor
  · intro h l hl
    have h1 : l / s < s := Nat.div_lt_of_lt_mul hl
    have := h ⟨l / s, h1⟩ ⟨l % s, Nat.mod_lt _ hs⟩
    simp only [Nat.div_add_mod'] at this
    rw [Nat.zero_add, this]
    simp only [Nat.mod_eq_of_lt h1]
  · intro h i j
    have hlt : i.1 * s + j.1 < s * s := by
      calc i.1 * s + j.1 < (i.1 + 1) * s := by rw [add_mul]; omega
        _ ≤ s * s := Nat.mul_le_mul_right _ i.2
    have := h _ hlt
    rw [Nat.zero_add] at this
    have e1 : (i.1 * s + j.1) / s = i.1 := by
      rw [mul_comm, Nat.mul_add_div hs, Nat.div_eq_of_lt j.2, Nat.add_zero]
    have e2 : (i.1 * s + j.1) % s = j.1 := by
      rw [mul_comm, Nat.mul_add_mod, Nat.mod_eq_of_lt j.2]
    rw [this]
    simp only [e1, e2, Nat.mod_eq_of_lt i.2]

theorem scatNorm_ok {s : ℕ} (hs : 0 < s) (haveW : Bool) {M : Matrix (Fin s) (Fin s) ℂ} {st : ScatSt} (h : StOK s st M) :
    ∃ st' a, scatNorm haveW s st = some st' ∧ StOK s st' ((2 : ℂ) ^ (-a) • M) ∧ st'.Wi = st.Wi + a ∧
      (haveW = false → a = 0) := by
  cases haveW with
  | false => exact ⟨st, 0, rfl, by simpa using h, by simp, fun _ => rfl⟩
  | true =>
    obtain ⟨a, v, h1, h2, h3, -⟩ := C18_normalize_vector (s * s) st.cur _ ((holds_stores hs).mp h.hS)
    refine ⟨⟨v, st.oth, st.Wi + a⟩, a, ?_, ⟨?_, by rw [h2]; exact h.l1, h.l2⟩, rfl, fun h => by cases h⟩
    · simp only [scatNorm, if_true, h1, Option.bind_eq_bind, Option.bind_some]; rfl
    · rw [holds_stores hs]; exact h3

/-- A loop over samples whose body multiplies by `A n` and may normalise. -/
theorem scat_loop {s : ℕ} (haveW : Bool) (N : ℕ) (body : ℕ → ScatSt → Option ScatSt)
    (A : ℕ → Matrix (Fin s) (Fin s) ℂ)
    (hstep : ∀ n, n < N → ∀ st M, StOK s st M → ∃ st' a, body n st = some st' ∧
      StOK s st' ((2 : ℂ) ^ (-a) • (A n * M)) ∧ st'.Wi = st.Wi + a ∧ (haveW = false → a = 0))
    (st : ScatSt) (h0 : StOK s st 1) (hW : st.Wi = 0) :
    ∃ st', forLoop N body st = some st' ∧ StOK s st' ((2 : ℂ) ^ (-st'.Wi) • Spec.chain A N) ∧
      (haveW = false → st'.Wi = 0) := by
  apply forLoop_inv (fun n st' => StOK s st' ((2 : ℂ) ^ (-st'.Wi) • Spec.chain A n) ∧ (haveW = false → st'.Wi = 0))
  · rw [hW, chain_zero]; simpa [hW] using h0
  · rintro n t hn ⟨h1, h2⟩
    obtain ⟨t', a, e1, e2, e3, e4⟩ := hstep n hn t _ h1
    refine ⟨t', e1, ?_, fun h => by rw [e3, h2 h, e4 h, add_zero]⟩
    rw [chain_succ, e3, neg_add, zpow_add₀ (by norm_num : (2 : ℂ) ≠ 0), mul_comm, mul_smul]
    rw [Matrix.mul_smul] at e2
    exact e2

theorem scatInit_ok2 : StOK 2 (scatInit false) 1 := by
  refine ⟨?_, rfl, rfl⟩
  intro i j
  fin_cases i <;> fin_cases j <;> simp [scatInit, Buf.rd_ofList]

theorem scatInit_ok4 : StOK 4 (scatInit true) 1 := by
  refine ⟨?_, rfl, rfl⟩
  intro i j
  fin_cases i <;> fin_cases j <;> simp [scatInit, Buf.rd_ofList]

theorem rd_view {α : Type*} (b : Buf α) (off i : ℕ) : (b.view off).rd i = b.rd (off + i) := by
  unfold Buf.view Buf.rd
  by_cases h : i < b.len - off
  · rw [if_pos h, if_pos (by omega)]
  · rw [if_neg h, if_neg (by omega)]

theorem rd_splice {α : Type*} (b v : Buf α) (off i : ℕ) (hv : v.len = b.len - off) :
    (b.splice off v).rd i = if i < off then b.rd i else v.rd (i - off) := by
  unfold Buf.splice Buf.rd
  by_cases h : i < off
  · simp [h]
  · simp only [h, if_false]
    by_cases h2 : i < b.len
    · rw [if_pos h2, if_pos (by omega)]
    · rw [if_neg h2, if_neg (by omega)]

theorem scatMulDiag_ok {U : List ℂ} {A : Spec.M2} {M : Matrix (Fin 4) (Fin 4) ℂ} {st : ScatSt}
    (hU : Spec.Stores (Buf.ofList U) A) (h : StOK 4 st M) :
    ∃ st', scatMulDiag U st = some st' ∧ StOK 4 st' (Spec.dual A 0 * M) ∧ st'.Wi = st.Wi := by
  set Mu : Matrix (Fin 2) (Fin 4) ℂ := Matrix.of fun i j => M (Fin.castLE (by norm_num) i) j with hMu
  set Ml : Matrix (Fin 2) (Fin 4) ℂ := Matrix.of fun i j => M (Fin.natAdd 2 i) j with hMl
  have hu : Spec.Stores st.cur Mu := by
    intro i j
    have := h.hS (Fin.castLE (by norm_num) i) j
    exact this
  have hl : Spec.Stores (st.cur.view 8) Ml := by
    intro i j
    have := h.hS (Fin.natAdd 2 i) j
    rw [rd_view, show 8 + (i.1 * 4 + j.1) = (Fin.natAdd 2 i : Fin 4).1 * 4 + j.1 by simp [Fin.natAdd]; ring]
    exact this
  obtain ⟨o, h1, h2, h3, h4⟩ := C19_matrix_mult A Mu (Buf.ofList U) st.cur st.oth hU hu (by rw [h.l2]; norm_num)
  have hol : o.len = 16 := by rw [h3, h.l2]
  obtain ⟨v, g1, g2, g3, g4⟩ := C19_matrix_mult A Ml (Buf.ofList U) (st.cur.view 8) (o.view 8) hU hl
    (by simp [Buf.view, hol])
  have hvl : v.len = o.len - 8 := by rw [g3]; rfl
  refine ⟨⟨o.splice 8 v, st.cur, st.Wi⟩, ?_, ⟨?_, ?_, h.l1⟩, rfl⟩
  · simp only [scatMulDiag, h1, g1, Option.bind_eq_bind, Option.bind_some]; rfl
  · intro i j
    show (o.splice 8 v).rd _ = _
    rw [rd_splice _ _ _ _ hvl]
    by_cases hi : i.1 < 2
    · rw [if_pos (by have := j.2; omega)]
      have := h2 ⟨i.1, hi⟩ j
      rw [show i.1 * 4 + j.1 = (⟨i.1, hi⟩ : Fin 2).1 * 4 + j.1 from rfl, this]
      congr 1
      fin_cases i <;> simp at hi <;>
        simp [Matrix.mul_apply, Fin.sum_univ_two, Fin.sum_univ_four, Spec.dual, hMu] <;> rfl
    · rw [if_neg (by omega)]
      have := g2 ⟨i.1 - 2, by have := i.2; omega⟩ j
      rw [show i.1 * 4 + j.1 - 8 = (⟨i.1 - 2, by have := i.2; omega⟩ : Fin 2).1 * 4 + j.1 by simp only; omega, this]
      congr 1
      fin_cases i <;> simp at hi <;>
        simp [Matrix.mul_apply, Fin.sum_univ_two, Fin.sum_univ_four, Spec.dual, hMl, Fin.natAdd] <;> rfl
  · exact hol

/-! ## Precomputations of ES4 and TES4 -/

theorem wr3 (b : Buf ℂ) (o : ℕ) (x y z : ℂ) (h : o + 2 < b.len) :
    ∃ b', (b.wr o x).bind (fun b => (b.wr (o + 1) y).bind fun b => b.wr (o + 2) z) = some b' ∧ b'.len = b.len ∧
      b'.rd o = some x ∧ b'.rd (o + 1) = some y ∧ b'.rd (o + 2) = some z ∧
      ∀ i, (i < o ∨ o + 2 < i) → b'.rd i = b.rd i := by
  refine ⟨((b.set o x).set (o + 1) y).set (o + 2) z, ?_, by simp, ?_, ?_, ?_, ?_⟩
  · rw [Buf.wr_eq _ (by omega), Option.bind_some, Buf.wr_eq _ (by simp; omega), Option.bind_some,
      Buf.wr_eq _ (by simp; omega)]
  · rw [Buf.rd_set _ (by simp; omega), if_neg (by omega), Buf.rd_set _ (by simp; omega), if_neg (by omega),
      Buf.rd_set _ (by omega), if_pos rfl]
  · rw [Buf.rd_set _ (by simp; omega), if_neg (by omega), Buf.rd_set _ (by simp; omega), if_pos rfl]
  · rw [Buf.rd_set _ (by simp; omega), if_pos rfl]
  · intro i hi
    rw [Buf.rd_set _ (by simp; omega), if_neg (by omega), Buf.rd_set _ (by simp; omega), if_neg (by omega),
      Buf.rd_set _ (by omega), if_neg (by omega)]

/-- A loop that writes three cells per iteration. -/
theorem loop3 (N off : ℕ) (body : ℕ → Buf ℂ → Option (Buf ℂ)) (x y z : ℕ → ℂ) (b : Buf ℂ)
    (hb : off + 3 * N ≤ b.len)
    (hbody : ∀ j t, j < N → body j t = (t.wr (off + 3 * j) (x j)).bind
      (fun b => (b.wr (off + 3 * j + 1) (y j)).bind fun b => b.wr (off + 3 * j + 2) (z j))) :
    ∃ b', forLoop N body b = some b' ∧ b'.len = b.len ∧
      (∀ j, j < N → b'.rd (off + 3 * j) = some (x j) ∧ b'.rd (off + 3 * j + 1) = some (y j) ∧
        b'.rd (off + 3 * j + 2) = some (z j)) ∧
      ∀ i, i < off → b'.rd i = b.rd i := by
  apply forLoop_inv (fun k (b' : Buf ℂ) => b'.len = b.len ∧
      (∀ j, j < k → b'.rd (off + 3 * j) = some (x j) ∧ b'.rd (off + 3 * j + 1) = some (y j) ∧
        b'.rd (off + 3 * j + 2) = some (z j)) ∧
      ∀ i, i < off → b'.rd i = b.rd i)
  · exact ⟨rfl, fun j h => by omega, fun _ _ => rfl⟩
  · rintro k t hk ⟨h1, h2, h3⟩
    obtain ⟨t', e1, e2, e3, e4, e5, e6⟩ := wr3 t (off + 3 * k) (x k) (y k) (z k) (by omega)
    refine ⟨t', by rw [hbody k t hk]; exact e1, by omega, ?_, ?_⟩
    · intro j hj
      rcases Nat.lt_succ_iff_lt_or_eq.mp hj with h | rfl
      · obtain ⟨f1, f2, f3⟩ := h2 j h
        rw [e6 _ (by omega), e6 _ (by omega), e6 _ (by omega)]
        exact ⟨f1, f2, f3⟩
      · exact ⟨e3, e4, e5⟩
    · intro i hi
      rw [e6 _ (by omega), h3 i hi]

theorem rdH {b : Buf ℂ} {n : ℕ} {f : ℕ → ℂ} (h : b.Holds 0 n f) {i : ℕ} (hi : i < n) : b.rd i = some (f i) := by
  simpa using h i hi

/-- Values of the precomputed arrays of `ES4`. -/
noncomputable def es4x (eps : ℝ) (q r : ℕ → ℂ) (j : ℕ) : ℂ :=
  ((eps * eps * eps : ℝ) : ℂ) * (q (3 * j + 2) + r (3 * j + 2)) / 48 + (eps * (q (3 * j) + r (3 * j))) * 0.5
noncomputable def es4y (eps : ℝ) (q r : ℕ → ℂ) (j : ℕ) : ℂ :=
  (eps * (q (3 * j) - r (3 * j)) * I) * 0.5 + (((eps * eps * eps : ℝ) : ℂ) * (q (3 * j + 2) - r (3 * j + 2)) * I) / 48
noncomputable def es4z (eps : ℝ) (q r : ℕ → ℂ) (j : ℕ) : ℂ :=
  -((eps * eps * eps : ℝ) : ℂ) * (q (3 * j) * r (3 * j + 1) - q (3 * j + 1) * r (3 * j)) / 12
noncomputable def es4dx (eps : ℝ) (q r : ℕ → ℂ) (j : ℕ) : ℂ :=
  I * ((eps * eps * eps : ℝ) : ℂ) * (q (3 * j + 1) - r (3 * j + 1)) / 12
noncomputable def es4dy (eps : ℝ) (q r : ℕ → ℂ) (j : ℕ) : ℂ :=
  -((eps * eps * eps : ℝ) : ℂ) * (q (3 * j + 1) + r (3 * j + 1)) / 12

theorem es4Pre_ok (deriv : Bool) {N : ℕ} {q r : Buf ℂ} {qf rf : ℕ → ℂ} (hq : q.Holds 0 (3 * N) qf)
    (hr : r.Holds 0 (3 * N) rf) (eps : ℝ) :
    ∃ tmp, es4Pre deriv (3 * N) eps q r = some tmp ∧ ∀ j, j < N →
      tmp.rd (3 * j) = some (es4x eps qf rf j) ∧ tmp.rd (3 * j + 1) = some (es4y eps qf rf j) ∧
      tmp.rd (3 * j + 2) = some (es4z eps qf rf j) ∧
      (deriv = true → tmp.rd (3 * N + 3 * j) = some (es4dx eps qf rf j) ∧
        tmp.rd (3 * N + 3 * j + 1) = some (es4dy eps qf rf j) ∧ tmp.rd (3 * N + 3 * j + 2) = some (-I * eps)) := by
  have hN : (3 * N + 2) / 3 = N := by omega
  have hb1 : ∀ (j : ℕ) (t : Buf ℂ), j < N → es4Pre1 eps q r j t = (t.wr (0 + 3 * j) (es4x eps qf rf j)).bind
      (fun b => (b.wr (0 + 3 * j + 1) (es4y eps qf rf j)).bind fun b => b.wr (0 + 3 * j + 2) (es4z eps qf rf j)) := by
    intro j t hj
    unfold es4Pre1
    simp only [rdH hq (show 3 * j < 3 * N by omega), rdH hq (show 3 * j + 1 < 3 * N by omega),
      rdH hq (show 3 * j + 2 < 3 * N by omega), rdH hr (show 3 * j < 3 * N by omega),
      rdH hr (show 3 * j + 1 < 3 * N by omega), rdH hr (show 3 * j + 2 < 3 * N by omega),
      Option.bind_eq_bind, Option.bind_some, zero_add]
    rfl
  have hb2 : ∀ (j : ℕ) (t : Buf ℂ), j < N → es4Pre2 (3 * N) eps q r j t = (t.wr (3 * N + 3 * j) (es4dx eps qf rf j)).bind
      (fun b => (b.wr (3 * N + 3 * j + 1) (es4dy eps qf rf j)).bind fun b => b.wr (3 * N + 3 * j + 2) (-I * eps)) := by
    intro j t hj
    unfold es4Pre2
    simp only [rdH hq (show 3 * j + 1 < 3 * N by omega), rdH hr (show 3 * j + 1 < 3 * N by omega),
      Option.bind_eq_bind, Option.bind_some]
    rfl
  cases deriv with
  | false =>
    obtain ⟨tmp, h1, -, h2, -⟩ := loop3 N 0 (es4Pre1 eps q r) _ _ _ (Buf.malloc (3 * N)) (by simp) hb1
    refine ⟨tmp, by simp only [es4Pre, hN]; exact h1, fun j hj => ?_⟩
    have := h2 j hj
    simp only [zero_add] at this
    exact ⟨this.1, this.2.1, this.2.2, fun h => by cases h⟩
  | true =>
    obtain ⟨tmp, h1, hl, h2, -⟩ := loop3 N 0 (es4Pre1 eps q r) _ _ _ (Buf.malloc (2 * (3 * N))) (by simp; omega) hb1
    obtain ⟨tmp', g1, -, g2, g3⟩ := loop3 N (3 * N) (es4Pre2 (3 * N) eps q r) _ _ _ tmp (by rw [hl]; simp; omega) hb2
    refine ⟨tmp', ?_, fun j hj => ?_⟩
    · simp only [es4Pre, hN, h1, if_true, Option.bind_eq_bind, Option.bind_some]; exact g1
    · have := h2 j hj
      simp only [zero_add] at this
      rw [g3 _ (by omega), g3 _ (by omega), g3 _ (by omega)]
      exact ⟨this.1, this.2.1, this.2.2, fun _ => g2 j hj⟩

/-- Values of the precomputed arrays of `TES4`; `σ = -1` for `tmp1`, `σ = 1` for `tmp2`. -/
noncomputable def tes4x (σ : ℂ) (eps : ℝ) (q r : ℕ → ℂ) (j : ℕ) : ℂ :=
  ((eps : ℂ) ^ 3 * (q (3 * j + 2) + r (3 * j + 2))) / 96 + σ * ((eps : ℂ) ^ 2 * (q (3 * j + 1) + r (3 * j + 1))) / 24
noncomputable def tes4y (σ : ℂ) (eps : ℝ) (q r : ℕ → ℂ) (j : ℕ) : ℂ :=
  ((eps : ℂ) ^ 3 * (q (3 * j + 2) - r (3 * j + 2)) * I) / 96 + σ * ((eps : ℂ) ^ 2 * (q (3 * j + 1) - r (3 * j + 1)) * I) / 24

theorem wr4 (b : Buf ℂ) (o p : ℕ) (x y z w : ℂ) (h : o + 1 < p) (hp : p + 1 < b.len) :
    ∃ b', (b.wr o x).bind (fun b => (b.wr (o + 1) y).bind fun b => (b.wr p z).bind fun b => b.wr (p + 1) w) = some b' ∧
      b'.len = b.len ∧ b'.rd o = some x ∧ b'.rd (o + 1) = some y ∧ b'.rd p = some z ∧ b'.rd (p + 1) = some w ∧
      ∀ i, i ≠ o → i ≠ o + 1 → i ≠ p → i ≠ p + 1 → b'.rd i = b.rd i := by
  refine ⟨(((b.set o x).set (o + 1) y).set p z).set (p + 1) w, ?_, by simp, ?_, ?_, ?_, ?_, ?_⟩
  · rw [Buf.wr_eq _ (by omega), Option.bind_some, Buf.wr_eq _ (by simp; omega), Option.bind_some,
      Buf.wr_eq _ (by simp; omega), Option.bind_some, Buf.wr_eq _ (by simp; omega)]
  · rw [Buf.rd_set _ (by simp; omega), if_neg (by omega), Buf.rd_set _ (by simp; omega), if_neg (by omega),
      Buf.rd_set _ (by simp; omega), if_neg (by omega), Buf.rd_set _ (by omega), if_pos rfl]
  · rw [Buf.rd_set _ (by simp; omega), if_neg (by omega), Buf.rd_set _ (by simp; omega), if_neg (by omega),
      Buf.rd_set _ (by simp; omega), if_pos rfl]
  · rw [Buf.rd_set _ (by simp; omega), if_neg (by omega), Buf.rd_set _ (by simp; omega), if_pos rfl]
  · rw [Buf.rd_set _ (by simp; omega), if_pos rfl]
  · intro i h1 h2 h3 h4
    rw [Buf.rd_set _ (by simp; omega), if_neg h4, Buf.rd_set _ (by simp; omega), if_neg h3,
      Buf.rd_set _ (by simp; omega), if_neg h2, Buf.rd_set _ (by omega), if_neg h1]

theorem tes4Pre_ok {N : ℕ} {q r : Buf ℂ} {qf rf : ℕ → ℂ} (hq : q.Holds 0 (3 * N) qf)
    (hr : r.Holds 0 (3 * N) rf) (eps : ℝ) {L : ℕ} (hL : 2 * (3 * N) ≤ L) :
    ∃ tmp, forLoop N (tes4Pre (3 * N) eps q r) (Buf.malloc L) = some tmp ∧ tmp.len = L ∧ ∀ j, j < N →
      tmp.rd (3 * j) = some (tes4x (-1) eps qf rf j) ∧ tmp.rd (3 * j + 1) = some (tes4y (-1) eps qf rf j) ∧
      tmp.rd (3 * N + 3 * j) = some (tes4x 1 eps qf rf j) ∧ tmp.rd (3 * N + 3 * j + 1) = some (tes4y 1 eps qf rf j) := by
  have hb : ∀ (j : ℕ) (t : Buf ℂ), j < N → tes4Pre (3 * N) eps q r j t = (t.wr (3 * j) (tes4x (-1) eps qf rf j)).bind
      (fun b => (b.wr (3 * j + 1) (tes4y (-1) eps qf rf j)).bind fun b => (b.wr (3 * N + 3 * j) (tes4x 1 eps qf rf j)).bind
        fun b => b.wr (3 * N + 3 * j + 1) (tes4y 1 eps qf rf j)) := by
    intro j t hj
    unfold tes4Pre
    simp only [rdH hq (show 3 * j + 1 < 3 * N by omega), rdH hq (show 3 * j + 2 < 3 * N by omega),
      rdH hr (show 3 * j + 1 < 3 * N by omega), rdH hr (show 3 * j + 2 < 3 * N by omega),
      Option.bind_eq_bind, Option.bind_some]
    have e1 : (((eps * eps * eps : ℝ) : ℂ) * (qf (3 * j + 2) + rf (3 * j + 2))) / 96 -
        (((eps * eps : ℝ) : ℂ) * (qf (3 * j + 1) + rf (3 * j + 1))) / 24 = tes4x (-1) eps qf rf j := by
      unfold tes4x; push_cast; ring
    have e2 : (((eps * eps * eps : ℝ) : ℂ) * (qf (3 * j + 2) - rf (3 * j + 2)) * I) / 96 +
        (((eps * eps : ℝ) : ℂ) * (rf (3 * j + 1) - qf (3 * j + 1)) * I) / 24 = tes4y (-1) eps qf rf j := by
      unfold tes4y; push_cast; ring
    have e3 : (((eps * eps * eps : ℝ) : ℂ) * (qf (3 * j + 2) + rf (3 * j + 2))) / 96 +
        (((eps * eps : ℝ) : ℂ) * (qf (3 * j + 1) + rf (3 * j + 1))) / 24 = tes4x 1 eps qf rf j := by
      unfold tes4x; push_cast; ring
    have e4 : (((eps * eps * eps : ℝ) : ℂ) * (qf (3 * j + 2) - rf (3 * j + 2)) * I) / 96 +
        (((eps * eps : ℝ) : ℂ) * (qf (3 * j + 1) - rf (3 * j + 1)) * I) / 24 = tes4y 1 eps qf rf j := by
      unfold tes4y; push_cast; ring
    rw [e1, e2, e3, e4]
  have key := forLoop_inv (n := N) (body := tes4Pre (3 * N) eps q r) (s := Buf.malloc L)
    (fun k (tmp : Buf ℂ) => tmp.len = L ∧ ∀ j, j < k →
      tmp.rd (3 * j) = some (tes4x (-1) eps qf rf j) ∧ tmp.rd (3 * j + 1) = some (tes4y (-1) eps qf rf j) ∧
      tmp.rd (3 * N + 3 * j) = some (tes4x 1 eps qf rf j) ∧ tmp.rd (3 * N + 3 * j + 1) = some (tes4y 1 eps qf rf j))
    ⟨rfl, fun j h => by omega⟩ ?_
  · obtain ⟨t, h1, h2, h3⟩ := key
    exact ⟨t, h1, h2, h3⟩
  · rintro k t hk ⟨h1, h2⟩
    obtain ⟨t', e1, e2, e3, e4, e5, e6, e7⟩ := wr4 t (3 * k) (3 * N + 3 * k) (tes4x (-1) eps qf rf k)
      (tes4y (-1) eps qf rf k) (tes4x 1 eps qf rf k) (tes4y 1 eps qf rf k) (by omega) (by omega)
    refine ⟨t', by rw [hb k t hk]; exact e1, by omega, ?_⟩
    intro j hj
    rcases Nat.lt_succ_iff_lt_or_eq.mp hj with h | rfl
    · rw [e7 _ (by omega) (by omega) (by omega) (by omega), e7 _ (by omega) (by omega) (by omega) (by omega),
        e7 _ (by omega) (by omega) (by omega) (by omega), e7 _ (by omega) (by omega) (by omega) (by omega)]
      exact h2 j h
    · exact ⟨e3, e4, e5, e6⟩

end FNFT

import Verif.Proofs.PolySched
import Verif.Proofs.PolyRev
import Mathlib.Data.Matrix.Basic
import Mathlib.Algebra.Polynomial.BigOperators
import Mathlib.LinearAlgebra.Matrix.Notation
/-! `poly_fmult2x2`, `poly_fmult3x3`. -/
namespace FNFT
open Finset Kiss Polynomial

abbrev PMat (m : ℕ) := Matrix (Fin m) (Fin m) ℂ[X]

/-- Entry number `e` (row major). -/
noncomputable def ent {m : ℕ} (A : PMat m) (e : ℕ) : ℂ[X] :=
  if h : e / m < m ∧ e % m < m then A ⟨e / m, h.1⟩ ⟨e % m, h.2⟩ else 0

theorem idx_lt {m i j : ℕ} (hi : i < m) (hj : j < m) : m * i + j < m * m := by
  calc m * i + j < m * i + m := by omega
    _ = m * (i + 1) := by ring
    _ ≤ m * m := Nat.mul_le_mul_left _ hi

theorem idx_ex {m e : ℕ} (h : e < m * m) : ∃ i j : Fin m, e = m * i + j := by
  have hm : 0 < m := by
    rcases Nat.eq_zero_or_pos m with rfl | h'
    · omega
    · exact h'
  exact ⟨⟨e / m, Nat.div_lt_of_lt_mul h⟩, ⟨e % m, Nat.mod_lt _ hm⟩, (Nat.div_add_mod e m).symm⟩

theorem ent_idx {m : ℕ} (A : PMat m) (i j : Fin m) : ent A (m * i + j) = A i j := by
  have hm : 0 < m := by have := i.2; omega
  have h1 : (m * i + j) / m = i := by
    rw [Nat.mul_add_div hm, Nat.div_eq_of_lt j.2, Nat.add_zero]
  have h2 : (m * i + j : ℕ) % m = j := by
    rw [Nat.mul_add_mod, Nat.mod_eq_of_lt j.2]
  unfold ent
  rw [dif_pos ⟨by rw [h1]; exact i.2, by rw [h2]; exact j.2⟩]
  congr 1 <;> exact Fin.ext (by assumption)

/-- All entries have degree at most `d`. -/
def DegLE {m : ℕ} (d : ℕ) (A : PMat m) : Prop := ∀ i j, (A i j).natDegree ≤ d

theorem DegLE.ent {m d : ℕ} {A : PMat m} (h : DegLE d A) (e : ℕ) : (ent A e).natDegree ≤ d := by
  unfold FNFT.ent; split_ifs
  · exact h _ _
  · simp

theorem DegLE.mul {m d d' : ℕ} {A B : PMat m} (hA : DegLE d A) (hB : DegLE d' B) : DegLE (d + d') (A * B) := by
  intro i j
  rw [Matrix.mul_apply]
  exact natDegree_sum_le_of_forall_le _ _ fun l _ =>
    natDegree_mul_le.trans (Nat.add_le_add (hA i l) (hB l j))

theorem DegLE.smul {m d : ℕ} {A : PMat m} (hA : DegLE d A) (c : ℂ) : DegLE d (c • A) := fun i j => by
  rw [Matrix.smul_apply]; exact (natDegree_smul_le _ _).trans (hA i j)

theorem DegLE.one {m : ℕ} (d : ℕ) : DegLE d (1 : PMat m) := fun i j => by
  rw [Matrix.one_apply]; split_ifs <;> simp

theorem DegLE.mono {m d d' : ℕ} {A : PMat m} (hA : DegLE d A) (h : d ≤ d') : DegLE d' A :=
  fun i j => (hA i j).trans h

theorem DegLE.prodL {m d n : ℕ} {Q : ℕ → PMat m} (h : ∀ i, i < n → DegLE d (Q i)) :
    DegLE (d * n) (prodL n Q) := by
  induction n with
  | zero => rw [prodL_zero]; exact DegLE.one _
  | succ n ih =>
    rw [prodL_succ, Nat.mul_succ]
    exact (ih fun i hi => h i (by omega)).mul (h n (by omega))

theorem ent_smul {m : ℕ} (c : ℂ) (A : PMat m) (e : ℕ) : ent (c • A) e = c • ent A e := by
  unfold ent; split_ifs
  · rw [Matrix.smul_apply]
  · simp

theorem ext_le {deg len mode : ℕ} (h : 2 * deg + 1 ≤ len) : ext deg len mode ≤ len := by
  unfold ext; split_ifs <;> omega

/-- One level of `poly_fmult2x2` / `3x3`. -/
theorem fmultMPairs_spec {k : Kind} (hk : KindOK k) {deg len n ps : ℕ} {pf pi : Plan} (normalize : Bool)
    {p res : Buf ℂ} {B : Bufs} (W : ℤ) {Q : ℕ → PMat k.m} (hlen : twoPolysLen deg = some len)
    (hpf : PlanOK pf len false) (hpi : PlanOK pi len true) (hb0 : len ≤ B.b0.len) (hb1 : len ≤ B.b1.len)
    (hb2 : len ≤ B.b2.len) (hd : ∀ i, i < 2 * n → DegLE deg (Q i))
    (hQ : ∀ i e, i < 2 * n → e < k.m * k.m → p.Holds (e * ps + i * (deg + 1)) (deg + 1) (ent (Q i) e).coeff)
    (hres : k.m * k.m * (n * (2 * deg + 1)) ≤ res.len) :
    ∃ res' B', ∃ w : ℕ → ℤ, forLoop n (fmultMPair k deg p ps (n * (2 * deg + 1)) len pf pi normalize) (res, B, W) =
        some (res', B', W + ∑ i ∈ range n, w i) ∧ res'.len = res.len ∧ B'.b0.len = B.b0.len ∧
      B'.b1.len = B.b1.len ∧ B'.b2.len = B.b2.len ∧
      (∀ i e, i < n → e < k.m * k.m → res'.Holds (e * (n * (2 * deg + 1)) + i * (2 * deg + 1)) (2 * deg + 1)
        (ent ((2 : ℂ) ^ (-w i) • (Q (2 * i) * Q (2 * i + 1))) e).coeff) ∧
      (normalize = false → ∀ i, w i = 0) ∧
      (normalize = true → ∀ i, i < n →
        Unit12 (k.m * k.m) (2 * deg) (fun e => (ent ((2 : ℂ) ^ (-w i) • (Q (2 * i) * Q (2 * i + 1))) e).coeff)) := by
  set rs := n * (2 * deg + 1) with hrs
  have hlen1 : 2 * deg + 1 ≤ len := by
    obtain ⟨r, hr, hr1, -⟩ := twoPolysLen_spec deg
    rw [hlen] at hr; cases hr; exact hr1
  have := forLoop_inv (n := n) (body := fmultMPair k deg p ps rs len pf pi normalize) (s := (res, B, W))
    (fun c s => s.1.len = res.len ∧ s.2.1.b0.len = B.b0.len ∧
      s.2.1.b1.len = B.b1.len ∧ s.2.1.b2.len = B.b2.len ∧
      ∃ w : ℕ → ℤ, s.2.2 = W + ∑ i ∈ range c, w i ∧
      (∀ i e, i < c → e < k.m * k.m → s.1.Holds (e * rs + i * (2 * deg + 1)) (2 * deg + 1)
        (ent ((2 : ℂ) ^ (-w i) • (Q (2 * i) * Q (2 * i + 1))) e).coeff) ∧
      (normalize = false → ∀ i, w i = 0) ∧
      (normalize = true → ∀ i, i < c →
        Unit12 (k.m * k.m) (2 * deg) (fun e => (ent ((2 : ℂ) ^ (-w i) • (Q (2 * i) * Q (2 * i + 1))) e).coeff)))
      ?_ ?_
  · obtain ⟨⟨p', B', W'⟩, e, h1, h2, h3, h4, w, h5, h6, h7, h8⟩ := this
    simp only at h5; subst h5
    exact ⟨p', B', w, e, h1, h2, h3, h4, h6, h7, h8⟩
  · exact ⟨rfl, rfl, rfl, rfl, fun _ => 0, by simp, fun i e h => by omega,
      fun _ _ => rfl, fun _ i h => by omega⟩
  · rintro i ⟨q, D, V⟩ hi ⟨h1, h2, h3, h4, w, h6, h7, h8, h9⟩
    simp only at h1 h2 h3 h4 h6 h7
    set ro := i * (2 * deg + 1) with hro
    have hros : ro + (2 * deg + 1) ≤ rs := by
      have : (i + 1) * (2 * deg + 1) ≤ n * (2 * deg + 1) := Nat.mul_le_mul_right _ hi
      have : (i + 1) * (2 * deg + 1) = i * (2 * deg + 1) + (2 * deg + 1) := by ring
      omega
    set M : Bool × ℕ → ℂ[X] := fun q => if q.1 then ent (Q (2 * i + 1)) q.2 else ent (Q (2 * i)) q.2 with hM
    obtain ⟨ret, cells, habs, hcells⟩ := hk.prod (decide (¬ rs - ro < len)) M
    have a1 : i * (2 * deg + 2) = 2 * i * (deg + 1) := by ring
    have a2 : deg + 1 + i * (2 * deg + 2) = (2 * i + 1) * (deg + 1) := by ring
    obtain ⟨⟨r, D'⟩, e1, R⟩ := runPhases_spec (K := k.m * k.m) (deg := deg) (len := len) (ro := ro) (rs := rs)
      (M := M) (res0 := q) (L0 := B.b0.len) (L1 := B.b1.len) (L2 := B.b2.len) 
      (pt := ptr p (i * (2 * deg + 2)) (deg + 1 + i * (2 * deg + 2)) ps) hlen hpf hpi hb0 hb1 hb2
      (by rintro ⟨b, e⟩; cases b <;> simp only [hM] <;> exact DegLE.ent (hd _ (by omega)) e)
      (by
        rintro ⟨b, e⟩ he
        cases b
        · have := hQ (2 * i) e (by omega) he
          simp only [hM, ptr, Bool.false_eq_true, if_false]
          rw [a1, Nat.add_comm]; exact this
        · have := hQ (2 * i + 1) e (by omega) he
          simp only [hM, ptr, if_true]
          rw [a2, Nat.add_comm]; exact this)
      (by omega) hros (k.modes (decide (¬ rs - ro < len))) k.calls
      (by
        intro m hm
        by_cases hs : rs - ro < len
        · rw [decide_eq_false (by simpa using hs)] at hm
          have : ext deg len m = 2 * deg + 1 := by
            rcases hk.nospace m hm with rfl | rfl <;> rfl
          omega
        · have := ext_le (mode := m) hlen1; omega)
      hk.calls (s := (q, D)) (a := (none, fun _ => .empty)) (a' := (ret, cells))
      ⟨rfl, h2, h3, h4, fun _ _ h => by simp at h, fun _ _ => trivial, fun _ _ h => by simp at h,
        fun _ _ _ _ => rfl⟩ habs
    have hcell : ∀ e, e < k.m * k.m → r.Holds (ro + e * rs) (2 * deg + 1) (ent (Q (2 * i) * Q (2 * i + 1)) e).coeff := by
      intro e he
      obtain ⟨a, b, rfl⟩ := idx_ex he
      have := R.cells _ he
      simp only [hcells a b a.2 b.2] at this
      rw [ent_idx, Matrix.mul_apply]
      refine Eq.mp ?_ this
      simp only [CellSt.Ok]
      congr 2
      rw [← Fin.sum_univ_eq_sum_range (fun l => M (false, k.m * a + l) * M (true, k.m * l + b))]
      refine sum_congr rfl fun l _ => ?_
      simp only [hM, Bool.false_eq_true, if_false, if_true, ent_idx]
    have key : ∀ (a : ℤ) (r' : Buf ℂ), fmultMPair k deg p ps rs len pf pi normalize i (q, D, V) = some (r', D', V + a) →
        r'.len = r.len → (normalize = false → a = 0) →
        (∀ e, e < k.m * k.m → r'.Holds (ro + e * rs) (2 * deg + 1)
          (ent ((2 : ℂ) ^ (-a) • (Q (2 * i) * Q (2 * i + 1))) e).coeff) →
        (∀ e t, e < k.m * k.m → t < ro → r'.rd (e * rs + t) = r.rd (e * rs + t)) →
        (normalize = true →
          Unit12 (k.m * k.m) (2 * deg) (fun e => (ent ((2 : ℂ) ^ (-a) • (Q (2 * i) * Q (2 * i + 1))) e).coeff)) →
        ∃ t', fmultMPair k deg p ps rs len pf pi normalize i (q, D, V) = some t' ∧ (t'.1.len = res.len ∧
          t'.2.1.b0.len = B.b0.len ∧ t'.2.1.b1.len = B.b1.len ∧ t'.2.1.b2.len = B.b2.len ∧
          ∃ w : ℕ → ℤ, t'.2.2 = W + ∑ j ∈ range (i + 1), w j ∧
          (∀ j e, j < i + 1 → e < k.m * k.m → t'.1.Holds (e * rs + j * (2 * deg + 1)) (2 * deg + 1)
            (ent ((2 : ℂ) ^ (-w j) • (Q (2 * j) * Q (2 * j + 1))) e).coeff) ∧
          (normalize = false → ∀ j, w j = 0) ∧
          (normalize = true → ∀ j, j < i + 1 →
            Unit12 (k.m * k.m) (2 * deg) (fun e => (ent ((2 : ℂ) ^ (-w j) • (Q (2 * j) * Q (2 * j + 1))) e).coeff))) := by
      intro a r' e hl ha hh hf hu
      refine ⟨_, e, ?_, R.l0, R.l1, R.l2, Function.update w i a, ?_, ?_, ?_, ?_⟩
      · have := R.rl; simp only at this ⊢; omega
      · simp only
        have hs : ∑ j ∈ range i, Function.update w i a j = ∑ j ∈ range i, w j :=
          sum_congr rfl (fun j hj => by
            rw [Function.update_of_ne (by have := mem_range.mp hj; omega)])
        rw [sum_range_succ, Function.update_self, h6, hs]; ring
      · intro j e' he hj
        rcases Nat.lt_succ_iff_lt_or_eq.mp he with hlt | rfl
        · intro t ht
          have b1 : (j + 1) * (2 * deg + 1) ≤ i * (2 * deg + 1) := Nat.mul_le_mul_right _ hlt
          have b2 : (j + 1) * (2 * deg + 1) = j * (2 * deg + 1) + (2 * deg + 1) := by ring
          simp only
          rw [Nat.add_assoc, hf e' _ hj (by omega), R.frame e' _ hj (by omega), Function.update_of_ne (by omega),
            ← Nat.add_assoc]
          exact h7 j e' hlt hj t ht
        · rw [Function.update_self, Nat.add_comm]; exact hh e' hj
      · intro hn j
        by_cases h : j = i
        · rw [h, Function.update_self, ha hn]
        · rw [Function.update_of_ne h, h8 hn]
      · intro hn j hj
        rcases Nat.lt_succ_iff_lt_or_eq.mp hj with hlt | rfl
        · rw [Function.update_of_ne (by omega)]; exact h9 hn j hlt
        · rw [Function.update_self]; exact hu hn
    cases normalize with
    | false =>
      refine key 0 r ?_ rfl (fun _ => rfl) (by simpa using hcell) (fun _ _ _ _ => rfl) (fun h => by simp at h)
      rw [fmultMPair, e1]; simp
    | true =>
      obtain ⟨a, v, f1, f2, f3, f4, f5, f6⟩ := rescaleK_spec (K := k.m * k.m) (d := 2 * deg) (off := ro)
        (rs := rs) (v := r) (by omega) hcell
      refine key a v ?_ f2 (fun h => by simp at h) ?_ ?_ ?_
      · rw [fmultMPair, e1]
        simp only [Option.bind_eq_bind, Option.bind_some, if_true]
        rw [f1]; rfl
      · intro e he j hj
        rw [f3 e he j hj, ent_smul, coeff_smul, smul_eq_mul]
      · intro e t he ht
        refine f4 _ fun e' i' he' hi' heq => ?_
        have := stride_inj (rs := rs) (e := e) (i := t) (e' := e') (i' := ro + i') (by omega) (by omega) (by omega)
        omega
      · rintro - ⟨e, j, he, hj, hne⟩
        simp only [ent_smul, coeff_smul, smul_eq_mul] at hne ⊢
        exact f6 ⟨e, j, he, hj, right_ne_zero_of_mul hne⟩

theorem copyBack_spec {K n deg ps rs : ℕ} {r p : Buf ℂ} {x : ℕ → ℕ → ℂ} (hn : 1 < n)
    (hr : ∀ e, e < K → r.Holds (e * rs) (n * (deg + 1)) (x e)) (hps : n * (deg + 1) ≤ ps)
    (hp : K * ps ≤ p.len) :
    ∃ p', copyBack K n deg ps rs r p = some p' ∧ p'.len = p.len ∧
      ∀ e, e < K → p'.Holds (e * ps) (n * (deg + 1)) (x e) := by
  unfold copyBack
  rw [if_pos hn]
  apply forLoop_inv (fun k (p' : Buf ℂ) => p'.len = p.len ∧
    ∀ e, e < k → p'.Holds (e * ps) (n * (deg + 1)) (x e))
  · exact ⟨rfl, fun e h => by omega⟩
  · rintro e p' he ⟨h1, h2⟩
    have hm : (e + 1) * ps ≤ K * ps := Nat.mul_le_mul_right _ he
    have hm' : (e + 1) * ps = e * ps + ps := by ring
    obtain ⟨b, eb, lb, rb⟩ := fill_spec (off := e * ps) (cnt := n * (deg + 1))
      (f := fun j => r.rd (e * rs + (j - e * ps))) (b := p') (fun j => x e (j - e * ps))
      (fun j h h' => hr e he _ (by omega)) (Or.inl (by omega))
    refine ⟨b, eb, by omega, ?_⟩
    intro e' he' j hj
    rcases Nat.lt_succ_iff_lt_or_eq.mp he' with hlt | rfl
    · have hm2 : (e' + 1) * ps ≤ e * ps := Nat.mul_le_mul_right _ hlt
      have hm3 : (e' + 1) * ps = e' * ps + ps := by ring
      rw [rb, if_neg (by omega)]; exact h2 e' hlt j hj
    · rw [rb, if_pos (by omega), Nat.add_sub_cancel_left]

/-- The main loop of `poly_fmult2x2` / `3x3` (`n = 2^(j+1)` factors). -/
theorem fmultMLoop_spec {k : Kind} (hk : KindOK k) (normalize : Bool) (ps : ℕ) : ∀ (j fuel : ℕ), j + 1 ≤ fuel →
    ∀ (deg : ℕ) (p res : Buf ℂ) (B : Bufs) (W : ℤ) (ret : Option ℤ) (rs : ℕ) (Q : ℕ → PMat k.m),
    (∀ i, i < 2 ^ (j + 1) → DegLE deg (Q i)) →
    (∀ i e, i < 2 ^ (j + 1) → e < k.m * k.m →
      p.Holds (e * ps + i * (deg + 1)) (deg + 1) (ent (Q i) e).coeff) →
    (∀ len d, twoPolysLen d = some len → 2 * d ≤ deg * 2 ^ (j + 1) →
      len ≤ B.b0.len ∧ len ≤ B.b1.len ∧ len ≤ B.b2.len) →
    deg * 2 ^ (j + 1) + 1 ≤ 3 ^ 32 → k.m * k.m * (2 ^ j * (2 * deg + 1)) ≤ res.len →
    2 ^ (j + 1) * (deg + 1) ≤ ps → k.m * k.m * ps ≤ p.len →
    ∃ p' res' w, fmultMLoop k normalize ps fuel (2 ^ (j + 1)) deg p res B W ret rs =
        some (some SUCCESS, deg * 2 ^ (j + 1), p', res', W + w, deg * 2 ^ (j + 1) + 1) ∧
      res'.len = res.len ∧ p'.len = p.len ∧
      (∀ e, e < k.m * k.m → res'.Holds (e * (deg * 2 ^ (j + 1) + 1)) (deg * 2 ^ (j + 1) + 1)
        (ent ((2 : ℂ) ^ (-w) • prodL (2 ^ (j + 1)) Q) e).coeff) ∧
      (normalize = false → w = 0) ∧
      (normalize = true → Unit12 (k.m * k.m) (deg * 2 ^ (j + 1))
        (fun e => (ent ((2 : ℂ) ^ (-w) • prodL (2 ^ (j + 1)) Q) e).coeff)) := by
  intro j
  induction j with
  | zero =>
    intro fuel hfuel deg p res B W ret rs Q hd hQ hB hsz hres hps hp
    obtain ⟨fuel, rfl⟩ : ∃ f, fuel = f + 1 := ⟨fuel - 1, by omega⟩
    simp only [Nat.zero_add, pow_one, pow_zero] at hd hQ hB hsz hres hps ⊢
    obtain ⟨len, hlen, hl1, hl2, -⟩ := twoPolysLen_spec deg
    obtain ⟨hb0, hb1, hb2⟩ := hB len deg hlen (by omega)
    obtain ⟨pf, hpf, hpf'⟩ := mkPlan_fwd len (by omega) (by omega)
    obtain ⟨pi, hpi, hpi'⟩ := mkPlan_inv len (by omega) (by omega)
    obtain ⟨r, B', w, e, l, m0, m1, m2, hH, hw, hu⟩ := fmultMPairs_spec hk (n := 1) (ps := ps) (p := p) normalize W hlen hpf' hpi'
      hb0 hb1 hb2 (fun i hi => hd i (by omega)) (fun i e hi => hQ i e (by omega)) hres
    have hpr : prodL 2 Q = Q 0 * Q 1 := by rw [show 2 = 0 + 1 + 1 by rfl, prodL_succ, prodL_succ]; simp
    refine ⟨p, r, w 0, ?_, l, rfl, ?_, fun h => hw h 0, ?_⟩
    · rw [fmultMLoop, if_pos (by omega), hlen, Option.bind_eq_bind, Option.bind_some, hpf]
      simp only [Option.bind_eq_bind, Option.bind_some, hpi]
      have e2 : (2 + 1) / 2 = 1 := by norm_num
      have e3 : 2 / 2 * (2 * deg + 1) = 1 * (2 * deg + 1) := by norm_num
      rw [e2, e3, e]
      simp only [Option.bind_some]
      have e4 : copyBack (k.m * k.m) (2 / 2) (deg * 2) ps (1 * (2 * deg + 1)) r p = some p := by
        simp [copyBack]
      rw [e4]
      have : ∀ f, fmultMLoop k normalize ps f 1 (deg * 2) p r B' (W + ∑ i ∈ range 1, w i) (some SUCCESS)
          (1 * (2 * deg + 1)) = some (some SUCCESS, deg * 2, p, r, W + ∑ i ∈ range 1, w i, 1 * (2 * deg + 1)) := by
        intro f; cases f <;> simp [fmultMLoop]
      simp only [Option.bind_some]
      rw [if_neg (by norm_num), this]
      simp [mul_comm]
    · intro e he
      have := hH 0 e (by omega) he
      rw [hpr]
      simpa [mul_comm] using this
    · intro hn
      have := hu hn 0 (by omega)
      rw [hpr]
      exact this.congr (by ring) (fun _ _ => rfl)
  | succ j ih =>
    intro fuel hfuel deg p res B W ret rs Q hd hQ hB hsz hres hps hp
    obtain ⟨fuel, rfl⟩ : ∃ f, fuel = f + 1 := ⟨fuel - 1, by omega⟩
    have h2 : 2 ^ (j + 1 + 1) = 2 * 2 ^ (j + 1) := by ring
    have h1j : 2 ^ (j + 1) = 2 * 2 ^ j := by ring
    have hj0 : 1 ≤ 2 ^ j := Nat.one_le_two_pow
    set N := 2 ^ (j + 1) with hN
    have hN1 : 1 < N := by omega
    have hdk : deg * 2 ^ (j + 1 + 1) = deg * 2 * N := by rw [h2]; ring
    have hdeg : 2 * deg ≤ deg * 2 ^ (j + 1 + 1) := by
      rw [hdk, mul_comm 2 deg]; exact Nat.le_mul_of_pos_right _ (by omega)
    obtain ⟨len, hlen, hl1, hl2, -⟩ := twoPolysLen_spec deg
    obtain ⟨hb0, hb1, hb2⟩ := hB len deg hlen hdeg
    obtain ⟨pf, hpf, hpf'⟩ := mkPlan_fwd len (by omega) (by omega)
    obtain ⟨pi, hpi, hpi'⟩ := mkPlan_inv len (by omega) (by omega)
    obtain ⟨r, B', w, e, l, m0, m1, m2, hH, hw, hu⟩ := fmultMPairs_spec hk (n := N) (ps := ps) (p := p) normalize W hlen hpf' hpi'
      hb0 hb1 hb2 (fun i hi => hd i (by omega)) (fun i e hi => hQ i e (by omega)) hres
    have hpsN : N * (deg * 2 + 1) ≤ ps := by
      have : N * (deg * 2 + 1) ≤ 2 ^ (j + 1 + 1) * (deg + 1) := by rw [h2]; nlinarith
      omega
    obtain ⟨p', ec, lc, hc⟩ := copyBack_spec (K := k.m * k.m) (n := N) (deg := deg * 2) (ps := ps)
      (rs := N * (2 * deg + 1)) (r := r) (p := p)
      (x := fun e t => (ent ((2 : ℂ) ^ (-w (t / (2 * deg + 1))) • (Q (2 * (t / (2 * deg + 1))) *
        Q (2 * (t / (2 * deg + 1)) + 1))) e).coeff (t % (2 * deg + 1))) hN1
      (by
        intro e he t ht
        rw [mul_comm deg 2] at ht
        have hlt : t / (2 * deg + 1) < N := Nat.div_lt_of_lt_mul (by rw [mul_comm]; exact ht)
        have := hH (t / (2 * deg + 1)) e hlt he (t % (2 * deg + 1)) (Nat.mod_lt _ (by omega))
        rw [← this]; congr 1
        have := Nat.div_add_mod t (2 * deg + 1)
        rw [mul_comm] at this
        omega) hpsN hp
    obtain ⟨p'', r'', w', e', l', lp', hH', hw', hu'⟩ := ih fuel (by omega) (deg * 2) p' r B' (W + ∑ i ∈ range N, w i)
      (some SUCCESS) (N * (2 * deg + 1)) (fun i => (2 : ℂ) ^ (-w i) • (Q (2 * i) * Q (2 * i + 1)))
      (fun i hi => ((hd (2 * i) (by omega)).mul (hd (2 * i + 1) (by omega))).smul _ |>.mono (by omega))
      (fun i e hi he t ht => by
        rw [mul_comm deg 2] at ht ⊢
        have hb : (i + 1) * (2 * deg + 1) ≤ N * (2 * deg + 1) := Nat.mul_le_mul_right _ hi
        have hb' : (i + 1) * (2 * deg + 1) = i * (2 * deg + 1) + (2 * deg + 1) := by ring
        have := hc e he (i * (2 * deg + 1) + t) (by rw [mul_comm deg 2]; omega)
        rw [Nat.add_assoc, this]
        have q1 : (i * (2 * deg + 1) + t) / (2 * deg + 1) = i := by
          rw [mul_comm, Nat.mul_add_div (by omega), Nat.div_eq_of_lt ht, Nat.add_zero]
        have q2 : (i * (2 * deg + 1) + t) % (2 * deg + 1) = t := by
          rw [mul_comm, Nat.mul_add_mod, Nat.mod_eq_of_lt ht]
        simp only [q1, q2])
      (fun len d h1 h2 => by
        rw [m0, m1, m2]; exact hB len d h1 (by rw [hdk]; exact h2))
      (by omega)
      (by
        rw [l]
        refine le_trans (Nat.mul_le_mul_left _ ?_) hres
        nlinarith)
      hpsN (by omega)
    have hprod : (2 : ℂ) ^ (-w') • prodL N (fun i => (2 : ℂ) ^ (-w i) • (Q (2 * i) * Q (2 * i + 1))) =
        (2 : ℂ) ^ (-(∑ i ∈ range N, w i + w')) • prodL (2 ^ (j + 1 + 1)) Q := by
      rw [prodL_smul, h2, prodL_pair, smul_smul, ← zpow_add₀ (two_ne_zero)]
      congr 2; ring
    rw [hprod, ← hdk] at hH'
    rw [hprod, ← hdk] at hu'
    rw [← hdk] at e'
    refine ⟨p'', r'', ∑ i ∈ range N, w i + w', ?_, by omega, by omega, hH', ?_, hu'⟩
    · rw [fmultMLoop, if_pos (by omega), hlen, Option.bind_eq_bind, Option.bind_some, hpf]
      simp only [Option.bind_eq_bind, Option.bind_some, hpi]
      rw [show (2 ^ (j + 1 + 1) + 1) / 2 = N by omega, show 2 ^ (j + 1 + 1) / 2 = N by omega, e]
      simp only [Option.bind_some]
      rw [if_neg (by omega), ec]
      simp only [Option.bind_some]
      rw [e', add_assoc W]
    · intro hn; rw [hw' hn, sum_eq_zero (fun i _ => hw hn i)]; rfl

end FNFT

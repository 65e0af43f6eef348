import Verif.Proofs.InvSort
/-!
# The multi-soliton on the grid
-/
namespace FNFT
open Complex Spec

local notation "conj" => starRingEnd ℂ

theorem fill_some {α : Type*} {off cnt : ℕ} {f : ℕ → Option α} {b b' : Buf α} (h : fill off cnt f b = some b') :
    b'.len = b.len ∧ ∀ j, if off ≤ j ∧ j < off + cnt then ∃ x, f j = some x ∧ b'.rd j = some x else b'.rd j = b.rd j := by
  unfold fill at h
  refine forLoop_some (fun k (c : Buf α) => c.len = b.len ∧
    ∀ j, if off ≤ j ∧ j < off + k then ∃ x, f j = some x ∧ c.rd j = some x else c.rd j = b.rd j) h ⟨rfl, fun j => by rw [if_neg (by omega)]⟩ ?_
  rintro i t t' hi ⟨h1, h2⟩ hb
  obtain ⟨x, hx, hw⟩ := Option.bind_eq_some_iff.mp hb
  have hr := Buf.wr_rd hw
  refine ⟨by rw [Buf.wr_len hw, h1], fun j => ?_⟩
  rw [hr j]
  have h2j := h2 j
  by_cases e : j = off + i
  · rw [if_pos (by omega)]
    exact ⟨x, by rw [e]; exact hx, by rw [if_pos e]⟩
  · by_cases e2 : off ≤ j ∧ j < off + i
    · rw [if_pos e2] at h2j
      rw [if_pos (by omega), if_neg e]; exact h2j
    · rw [if_neg e2] at h2j
      rw [if_neg (by omega), if_neg e]; exact h2j

theorem invZc_ok (D : ℕ) (T0 eps_t : ℝ) : ∃ zc, invZc D T0 eps_t = some zc ∧ zc ≤ D := by
  unfold invZc
  obtain ⟨s, h1, h2⟩ := forLoop_inv (n := D) (body := invZcBody T0 eps_t) (s := (0, false)) (fun _ (s : ℕ × Bool) => s.1 ≤ D) (Nat.zero_le _) (by
    intro i t hi ht
    unfold invZcBody
    split
    · exact ⟨_, rfl, hi.le⟩
    · exact ⟨_, rfl, ht⟩)
  rw [h1]
  exact ⟨s.1, rfl, h2⟩

theorem invInv_ok {K : ℕ} {nc : Buf ℂ} {bf : ℕ → ℂ} (hn : nc.Holds 0 K bf) (hb : ∀ i, i < K → bf i ≠ 0) :
    ∃ nc', forLoop K (fun i (nc : Buf ℂ) => do
      let c ← nc.rd i
      let y ← cdiv 1 c
      nc.wr i y) nc = some nc' ∧ nc'.Holds 0 K fun i => 1 / bf i := by
  obtain ⟨nc', h1, _, h2⟩ := forLoop_inv (n := K) (s := nc) (body := fun i (nc : Buf ℂ) => do
      let c ← nc.rd i
      let y ← cdiv 1 c
      nc.wr i y) (fun k (c : Buf ℂ) => c.len = nc.len ∧ ∀ i, i < K → c.rd i = some (if i < k then 1 / bf i else bf i))
    ⟨rfl, fun i hi => by have := hn i hi; rw [Nat.zero_add] at this; simpa using this⟩ (by
      rintro i t hi ⟨hl, ht⟩
      have e := ht i hi
      rw [if_neg (lt_irrefl i)] at e
      have hlen := Buf.rd_lt e
      obtain ⟨c, hw, hcl, hc1, hc2⟩ := Buf.wr_spec (b := t) (1 / bf i) hlen
      refine ⟨c, ?_, by rw [hcl, hl], fun k hk => ?_⟩
      · simp only [e, cdiv_ok (x := 1) (hb i hi), Option.bind_eq_bind, Option.bind_some]
        exact hw
      · by_cases ki : k = i
        · rw [ki, hc1, if_pos (by omega)]
        · rw [hc2 k ki, ht k hk]
          by_cases kl : k < i
          · rw [if_pos kl, if_pos (by omega)]
          · rw [if_neg kl, if_neg (by omega)])
  refine ⟨nc', h1, fun i hi => ?_⟩
  rw [Nat.zero_add, h2 i hi, if_pos hi]

/-- The potential of a pure multi-soliton. -/
noncomputable def solQ (K : ℕ) (lf bf : ℕ → ℂ) : ℝ → ℂ := (dbN lf bf (fun _ => 0) phi0 psi0 K).1

theorem invSoliton_some {K D zc : ℕ} {bs nc q q' : Buf ℂ} {lf bf : ℕ → ℂ} {T0 e : ℝ} (hb : bs.Holds 0 K lf) (hn : nc.Holds 0 K bf)
    (hl : ∀ i, i < K → 0 < (lf i).im) (hb0 : ∀ i, i < K → bf i ≠ 0) (hz : zc ≤ D) (h : invSoliton K bs nc D zc T0 e q = some q') :
    q'.len = q.len ∧ ∀ n, n < D → q'.rd n = some (solQ K lf bf (T0 + e * n)) := by
  unfold invSoliton at h
  obtain ⟨q1, hq1, h⟩ := Option.bind_eq_some_iff.mp h
  obtain ⟨nc', hn1, hn2⟩ := invInv_ok hn hb0
  rw [hn1] at h
  change fill 0 zc (fun n => do
    let x ← solPoint K bs nc' (-1) (T0 + e * n)
    return (starRingEnd ℂ) x) q1 = some q' at h
  obtain ⟨l1, f1⟩ := fill_some hq1
  obtain ⟨l2, f2⟩ := fill_some h
  refine ⟨by rw [l2, l1], fun n hn' => ?_⟩
  have g2 := f2 n
  by_cases c : n < zc
  · rw [if_pos (by omega)] at g2
    obtain ⟨x, hx, hr⟩ := g2
    obtain ⟨y, hy, hxy⟩ := Option.bind_eq_some_iff.mp hx
    have := solPoint_some (s := false) (nc := nc') (bf := bf) hb hl (by simpa using hn2) hb0 (by simpa [sgOf] using hy)
    cases hxy
    rw [hr]
    exact congrArg some this
  · rw [if_neg (by omega)] at g2
    have g1 := f1 n
    rw [if_pos (by omega)] at g1
    obtain ⟨x, hx, hr⟩ := g1
    have := solPoint_some (s := true) (nc := nc) (bf := bf) hb hl (by simpa using hn) hb0 (by simpa [sgOf] using hx)
    rw [g2, hr]
    exact congrArg some this

/-- No division by zero happens at the point of time `t`. -/
def solNZ (K : ℕ) (lf bf : ℕ → ℂ) (t : ℝ) : Prop :=
  ∀ i j, i < j → j < K → (dbNV lf bf (fun _ => 0) phi0 psi0 (i + 1) j t).1 ≠ 0 ∧ (dbNV lf bf (fun _ => 0) phi0 psi0 (i + 1) j t).2 ≠ 0

theorem invSoliton_total {K D zc : ℕ} {bs nc q : Buf ℂ} {lf bf : ℕ → ℂ} {T0 e : ℝ} (hb : bs.Holds 0 K lf) (hn : nc.Holds 0 K bf)
    (hl : ∀ i, i < K → 0 < (lf i).im) (hb0 : ∀ i, i < K → bf i ≠ 0) (hz : zc ≤ D) (hq : D ≤ q.len)
    (hnz : ∀ n, n < D → solNZ K lf bf (T0 + e * n)) : ∃ q', invSoliton K bs nc D zc T0 e q = some q' := by
  classical
  obtain ⟨nc', hn1, hn2⟩ := invInv_ok hn hb0
  have t1 : ∀ n, n < D → ∃ x, solPoint K bs nc 1 (T0 + e * n) = some x := by
    intro n hn'
    have := solPoint_total (s := true) (nc := nc) (bf := bf) hb hl (by simpa using hn) hb0 (t := T0 + e * n)
      (fun i j hij hj => by rw [if_pos rfl]; exact (hnz n hn' i j hij hj).1)
    simpa [sgOf] using this
  have t2 : ∀ n, n < D → ∃ x, solPoint K bs nc' (-1) (T0 + e * n) = some x := by
    intro n hn'
    have := solPoint_total (s := false) (nc := nc') (bf := bf) hb hl (by simpa using hn2) hb0 (t := T0 + e * n)
      (fun i j hij hj => by rw [if_neg (by simp)]; exact (hnz n hn' i j hij hj).2)
    simpa [sgOf] using this
  unfold invSoliton
  obtain ⟨q1, hq1, hl1, _⟩ := fill_spec (off := zc) (cnt := D - zc) (b := q) (f := fun n => solPoint K bs nc 1 (T0 + e * n))
    (fun n => (solPoint K bs nc 1 (T0 + e * n)).getD 0) (by
      intro n h1 h2
      obtain ⟨x, hx⟩ := t1 n (by omega)
      simp only [hx, Option.getD_some]) (Or.inl (by omega))
  obtain ⟨q2, hq2, _⟩ := fill_spec (off := 0) (cnt := zc) (b := q1) (f := fun n => do
      let x ← solPoint K bs nc' (-1) (T0 + e * n)
      return (starRingEnd ℂ) x)
    (fun n => (starRingEnd ℂ) ((solPoint K bs nc' (-1) (T0 + e * n)).getD 0)) (by
      intro n h1 h2
      obtain ⟨x, hx⟩ := t2 n (by omega)
      simp only [hx, Option.getD_some, Option.bind_eq_bind, Option.bind_some, Option.pure_def]) (Or.inl (by omega))
  rw [hq1]
  refine ⟨q2, ?_⟩
  show (forLoop K _ nc >>= fun nc => fill 0 zc _ q1) = some q2
  rw [hn1]
  exact hq2

/-- The scattering data of the multi-soliton. -/
theorem solQ_scat {K : ℕ} {lf bf : ℕ → ℂ} (hl : ∀ i, i < K → 0 < (lf i).im) (hb0 : ∀ i, i < K → bf i ≠ 0)
    (hinj : ∀ i j, i < K → j < K → lf i = lf j → i = j) :
    Decays (solQ K lf bf) ∧ (∀ l : ℝ, ScatReal ∅ (solQ K lf bf) l (blaschke ((List.range K).map lf) l) 0) ∧
      (∀ l : ℂ, 0 < l.im → ScatUpper ∅ (solQ K lf bf) l (blaschke ((List.range K).map lf) l)) ∧
      ∀ k, k < K → Bound ∅ (solQ K lf bf) (lf k) (bf k) := by
  have hmap : ((List.range K).map fun k => (lf k, bf k)).map Prod.fst = (List.range K).map lf := by
    rw [List.map_map]; rfl
  obtain ⟨h, hb⟩ := JF.all ((List.range K).map fun k => (lf k, bf k)) JF.zero (by
    intro x hx
    obtain ⟨k, hk, rfl⟩ := List.mem_map.mp hx
    have hk := List.mem_range.mp hk
    exact ⟨hl k hk, hb0 k hk, one_ne_zero⟩) (by
    rw [hmap]
    exact List.Nodup.map_on (fun x hx y hy he => hinj x y (List.mem_range.mp hx) (List.mem_range.mp hy) he) List.nodup_range)
  rw [hmap] at h
  refine ⟨h.dec, fun l => ?_, fun l hl' => ?_, fun k hk => ?_⟩
  · have := h.real l; rwa [mul_one] at this
  · have := h.upper hl'; rwa [mul_one] at this
  · exact h.bound (hl k hk) (hb (lf k, bf k) (List.mem_map.mpr ⟨k, List.mem_range.mpr hk, rfl⟩))

end FNFT

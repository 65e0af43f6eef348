import Verif.Proofs.Misc
/-!
# Properties C01-C06 (fnft__misc.c: selection, merging, downsampling, next power of two)
-/
namespace FNFT
open scoped Classical

/-! ## Specification -/

/-- `v` lies in the closed box `[b0,b1] × [b2,b3]` (IEEE comparisons: false for NaNs). -/
def Spec.InBox (box : Fin 4 → Dbl) (v : CDbl) : Prop :=
  (box 0).le v.re ∧ v.re.le (box 1) ∧ (box 2).le v.im ∧ v.im.le (box 3)

/-- `v` lies in the open box `(b0,b1) × (b2,b3)`. -/
def Spec.InOpenBox (box : Fin 4 → Dbl) (v : CDbl) : Prop :=
  (box 0).lt v.re ∧ v.re.lt (box 1) ∧ (box 2).lt v.im ∧ v.im.lt (box 3)

/-- Box accepted by the filters: no NaN, not reversed. -/
def Spec.ValidBox (box : Fin 4 → Dbl) : Prop := (box 0).le (box 1) ∧ (box 2).le (box 3)

/-- The finite complex number `x + iy` as a C complex double. -/
def CDbl.fin (x y : ℝ) : CDbl := ⟨.num (x : EReal), .num (y : EReal)⟩

/-! ## C01 next power of two -/

/-- For `1 ≤ n ≤ 2^63` the call returns the smallest power of two `≥ n`. -/
theorem C01_nextpowerof2 (n : BitVec 64) (h1 : 1 ≤ n.toNat) (h2 : n.toNat ≤ 2 ^ 63) :
    ∃ fuel r, misc_nextpowerof2 fuel n = some r ∧ (∃ k, r.toNat = 2 ^ k) ∧ n.toNat ≤ r.toNat ∧
      ∀ k, n.toNat ≤ 2 ^ k → r.toNat ≤ 2 ^ k := by
  obtain ⟨r, m, hr, hr2, h3, h4⟩ := np2Loop_ok n h2 63 0 rfl 1 (by rfl) (fun i _ => by
    rw [pow_zero]; exact Nat.one_le_two_pow)
  have hn : n ≠ 0 := by rintro rfl; simp at h1
  exact ⟨64, r, by rw [misc_nextpowerof2, if_neg hn]; exact hr, ⟨m, hr2⟩, hr2 ▸ h3, fun k hk => hr2 ▸ h4 k hk⟩

/-- `n = 0` gives 0. -/
theorem C01_zero (fuel : ℕ) : misc_nextpowerof2 fuel 0 = some 0 := by simp [misc_nextpowerof2]

/-- For `n > 2^63` the call never returns. -/
theorem C01_diverges (n : BitVec 64) (h : 2 ^ 63 < n.toNat) (fuel : ℕ) :
    misc_nextpowerof2 fuel n = none := by
  have hn : n ≠ 0 := by rintro rfl; simp at h
  simp only [misc_nextpowerof2, hn, if_false]
  exact np2Loop_diverges n h fuel 1 (Or.inr ⟨0, by omega, rfl⟩)

example : 1 ≤ (1000#64).toNat ∧ (1000#64).toNat ≤ 2 ^ 63 ∧
    misc_nextpowerof2 64 1000#64 = some 1024#64 := by decide
example : 2 ^ 63 < (BitVec.ofNat 64 (2 ^ 63 + 1)).toNat := by decide

/-! ## C02, C03 bounding box filters -/

/-- `misc_filter` keeps exactly the values in the box, in order, and moves the companion array
identically; nothing beyond the first `N` elements is touched. -/
theorem C02_filter (l r : List CDbl) (hlen : l.length ≤ r.length) (vals : Buf CDbl)
    (hv : vals.HoldsList l) (re : Option (Buf CDbl)) (hr : ∀ b, re = some b → b.HoldsList r)
    (box : Fin 4 → Dbl) (hbox : Spec.ValidBox box) :
    let kept := l.filter (fun v => decide (Spec.InBox box v))
    let keptC := ((l.zip r).filter (fun p => decide (Spec.InBox box p.1))).map Prod.snd
    ∃ vals' re', misc_filter (some l.length) (some vals) re (some box) =
        some ⟨SUCCESS, some kept.length, some vals', re'⟩ ∧
      vals'.HoldsList kept ∧ vals'.len = vals.len ∧
      (∀ j, l.length ≤ j → vals'.rd j = vals.rd j) ∧
      (re = none → re' = none) ∧
      ∀ b, re = some b → ∃ b', re' = some b' ∧ b'.HoldsList keptC ∧ b'.len = b.len ∧
        ∀ j, l.length ≤ j → b'.rd j = b.rd j := by
  intro kept keptC
  have hk : filterKeep box = fun v => decide (Spec.InBox box v) := by
    funext v; rw [Bool.eq_iff_iff, filterKeep_iff, decide_eq_true_iff]; rfl
  obtain ⟨s, hs, h1, h2, h3, h4⟩ := compact_loop (filterKeep box) l r vals hv re hlen hr
  rw [hk] at hs h1 h2 h4
  refine ⟨s.vals, s.re, ?_, h2.holds, h2.len, h2.rest, h3, ?_⟩
  · have : ¬ (¬ (box 0).le (box 1) ∨ ¬ (box 2).le (box 3)) := by
      simp [hbox.1, hbox.2]
    simp only [misc_filter]
    rw [if_neg this, hk, hs, Option.bind_eq_bind, Option.bind_some, h1]; rfl
  · intro b hb
    obtain ⟨b', hb', hi⟩ := h4 b hb
    exact ⟨b', hb', hi.holds, hi.len, hi.rest⟩

/-- Invalid arguments of `misc_filter`: error, nothing changed. -/
theorem C02_filter_invalid (N : Option ℕ) (vals re : Option (Buf CDbl)) (box : Option (Fin 4 → Dbl))
    (h : N = none ∨ vals = none ∨ box = none ∨ ∃ b, box = some b ∧ ¬ Spec.ValidBox b) :
    misc_filter N vals re box = some ⟨EC_INVALID_ARGUMENT, N, vals, re⟩ := by
  unfold misc_filter
  split
  · rfl
  · rfl
  · rfl
  · rename_i b
    have hb : ¬ (b 0).le (b 1) ∨ ¬ (b 2).le (b 3) := by
      simp only [reduceCtorEq, false_or, Option.some.injEq, exists_eq_left'] at h
      rw [Spec.ValidBox, not_and_or] at h; exact h
    rw [if_pos hb]

/-- `misc_filter_inv` keeps exactly the values that are not strictly inside the box. -/
theorem C03_filter_inv (l r : List CDbl) (hlen : l.length ≤ r.length) (vals : Buf CDbl)
    (hv : vals.HoldsList l) (re : Option (Buf CDbl)) (hr : ∀ b, re = some b → b.HoldsList r)
    (box : Fin 4 → Dbl) (hbox : Spec.ValidBox box) :
    let kept := l.filter (fun v => decide (¬ Spec.InOpenBox box v))
    let keptC := ((l.zip r).filter (fun p => decide (¬ Spec.InOpenBox box p.1))).map Prod.snd
    ∃ vals' re', misc_filter_inv (some l.length) (some vals) re (some box) =
        some ⟨SUCCESS, some kept.length, some vals', re'⟩ ∧
      vals'.HoldsList kept ∧ vals'.len = vals.len ∧
      (∀ j, l.length ≤ j → vals'.rd j = vals.rd j) ∧
      (re = none → re' = none) ∧
      ∀ b, re = some b → ∃ b', re' = some b' ∧ b'.HoldsList keptC ∧ b'.len = b.len ∧
        ∀ j, l.length ≤ j → b'.rd j = b.rd j := by
  intro kept keptC
  have hk : filterInvKeep box = fun v => decide (¬ Spec.InOpenBox box v) := by
    funext v; rw [Bool.eq_iff_iff, filterInvKeep_iff, decide_eq_true_iff]; rfl
  obtain ⟨s, hs, h1, h2, h3, h4⟩ := compact_loop (filterInvKeep box) l r vals hv re hlen hr
  rw [hk] at hs h1 h2 h4
  refine ⟨s.vals, s.re, ?_, h2.holds, h2.len, h2.rest, h3, ?_⟩
  · have : ¬ (¬ (box 0).le (box 1) ∨ ¬ (box 2).le (box 3)) := by
      simp [hbox.1, hbox.2]
    simp only [misc_filter_inv]
    rw [if_neg this, hk, hs, Option.bind_eq_bind, Option.bind_some, h1]; rfl
  · intro b hb
    obtain ⟨b', hb', hi⟩ := h4 b hb
    exact ⟨b', hb', hi.holds, hi.len, hi.rest⟩

/-- Invalid arguments of `misc_filter_inv`: error, nothing changed. -/
theorem C03_filter_inv_invalid (N : Option ℕ) (vals re : Option (Buf CDbl))
    (box : Option (Fin 4 → Dbl))
    (h : N = none ∨ vals = none ∨ box = none ∨ ∃ b, box = some b ∧ ¬ Spec.ValidBox b) :
    misc_filter_inv N vals re box = some ⟨EC_INVALID_ARGUMENT, N, vals, re⟩ := by
  unfold misc_filter_inv
  split
  · rfl
  · rfl
  · rfl
  · rename_i b
    have hb : ¬ (b 0).le (b 1) ∨ ¬ (b 2).le (b 3) := by
      simp only [reduceCtorEq, false_or, Option.some.injEq, exists_eq_left'] at h
      rw [Spec.ValidBox, not_and_or] at h; exact h
    rw [if_pos hb]

/-- A value with a NaN part is dropped by `misc_filter` and kept by `misc_filter_inv`. -/
theorem C02_C03_nan (box : Fin 4 → Dbl) (v : CDbl) (h : v.re = .nan ∨ v.im = .nan) :
    ¬ Spec.InBox box v ∧ ¬ Spec.InOpenBox box v := by
  rcases h with h | h <;> constructor <;> rintro ⟨h1, h2, h3, h4⟩ <;>
    simp_all [Dbl.le, Dbl.lt]

example : Spec.ValidBox (fun _ => Dbl.num 0) ∧
    (Buf.ofList [CDbl.fin 0 0, ⟨.nan, .nan⟩]).HoldsList [CDbl.fin 0 0, ⟨.nan, .nan⟩] :=
  ⟨⟨le_refl _, le_refl _⟩, Buf.holdsList_ofList _⟩

/-! ## C04 non-real filter -/

/-- `misc_filter_nonreal` keeps exactly the values with `|Im| > tol`. -/
theorem C04_filter_nonreal (l : List CDbl) (vals : Buf CDbl) (hv : vals.HoldsList l) (tol : Dbl)
    (htol : Dbl.zero.le tol) :
    let kept := l.filter (fun v => decide (tol.lt v.im.abs))
    ∃ vals', misc_filter_nonreal (some l.length) (some vals) tol =
        some (SUCCESS, some kept.length, some vals') ∧
      vals'.HoldsList kept ∧ vals'.len = vals.len ∧
      ∀ j, l.length ≤ j → vals'.rd j = vals.rd j := by
  intro kept
  obtain ⟨s, hs, h1, h2⟩ := nonreal_loop tol l vals hv
  refine ⟨s.1, ?_, h2.holds, h2.len, h2.rest⟩
  simp only [misc_filter_nonreal]
  rw [if_neg (not_not.mpr htol), hs, Option.bind_eq_bind, Option.bind_some, h1]; rfl

/-- NULL pointers and NaN or negative tolerances are rejected without changing anything. -/
theorem C04_filter_nonreal_invalid (N : Option ℕ) (vals : Option (Buf CDbl)) (tol : Dbl)
    (h : N = none ∨ vals = none ∨ ¬ Dbl.zero.le tol) :
    misc_filter_nonreal N vals tol = some (EC_INVALID_ARGUMENT, N, vals) := by
  unfold misc_filter_nonreal
  split
  · rfl
  · rfl
  · simp only [reduceCtorEq, false_or] at h
    rw [if_pos h]

example : Dbl.zero.le (Dbl.num 1) ∧ (Buf.ofList [CDbl.fin 0 2]).HoldsList [CDbl.fin 0 2] :=
  ⟨zero_le_one, Buf.holdsList_ofList _⟩

/-! ## C05 merging -/

/-- The survivors of `misc_merge` are the input values at an increasing list `S` of positions
starting with 0; they are pairwise not within `tol`; every dropped position has an earlier input
value within `tol`. -/
theorem C05_merge (dist : CDbl → CDbl → Dbl) (n : ℕ) (f : ℕ → CDbl) (vals : Buf CDbl)
    (hv : vals.Holds 0 (n + 1) f) (tol : Dbl) (htol : ¬ tol.lt Dbl.zero) :
    ∃ (S : List ℕ) (vals' : Buf CDbl),
      misc_merge dist (some (n + 1)) (some vals) tol = some (SUCCESS, some S.length, some vals') ∧
      S.Pairwise (· < ·) ∧ (∀ j ∈ S, j ≤ n) ∧ S.head? = some 0 ∧
      vals'.HoldsList (S.map f) ∧
      S.Pairwise (fun j k => ¬ (dist (f j) (f k)).lt tol) ∧
      (∀ k, k ≤ n → k ∉ S → ∃ j, j < k ∧ (dist (f j) (f k)).lt tol) ∧
      vals'.len = vals.len ∧ ∀ k, n + 1 ≤ k → vals'.rd k = vals.rd k := by
  obtain ⟨b, d, S, hs, hS⟩ := merge_loop dist tol n f vals hv (Dbl.num (-1))
  refine ⟨S, b, ?_, hS.sorted, fun j hj => Nat.lt_succ_iff.1 (hS.lt j hj), hS.head, ?_, hS.sep,
    fun k hk hkS => hS.dropped k (Nat.lt_succ_iff.2 hk) hkS, hS.len,
    fun k hk => hS.rest k (le_trans hS.le hk)⟩
  · simp only [misc_merge]
    rw [if_neg (by omega), if_neg htol, Nat.add_sub_cancel, hs]; rfl
  · intro i hi
    have hi' : i < S.length := by simpa using hi
    rw [hS.holds i hi']; simp [hi']

/-- An empty list is left alone; NULL pointers and negative tolerances are rejected. -/
theorem C05_merge_trivial (dist : CDbl → CDbl → Dbl) (vals : Option (Buf CDbl)) (tol : Dbl) :
    misc_merge dist (some 0) vals tol = some (SUCCESS, some 0, vals) ∧
    misc_merge dist none vals tol = some (EC_INVALID_ARGUMENT, none, vals) ∧
    ∀ n, misc_merge dist (some (n + 1)) none tol = some (EC_INVALID_ARGUMENT, some (n + 1), none) ∧
      (tol.lt Dbl.zero → misc_merge dist (some (n + 1)) vals tol =
        some (EC_INVALID_ARGUMENT, some (n + 1), vals)) := by
  refine ⟨by simp [misc_merge], by simp [misc_merge], fun n => ⟨by simp [misc_merge], fun h => ?_⟩⟩
  cases vals <;> simp [misc_merge, h]

/-- Exact `CABS(a-b)` for finite real parts (used for the counterexample). -/
noncomputable def Spec.realDist (a b : CDbl) : Dbl :=
  match a.re, b.re with
  | .num x, .num y => .num ((|x.toReal - y.toReal| : ℝ) : EReal)
  | _, _ => .nan

/-- It is *not* true that every dropped value is within `tol` of a survivor: on `0, 0.6, 1.2` with
`tol = 1` only `0` survives although `|1.2 - 0| ≥ 1`. -/
theorem C05_merge_chain_negation :
    ∃ vals', misc_merge Spec.realDist (some 3)
        (some (Buf.ofList [CDbl.fin 0 0, CDbl.fin 0.6 0, CDbl.fin 1.2 0])) (.num 1) =
      some (SUCCESS, some 1, some vals') ∧
      vals'.rd 0 = some (CDbl.fin 0 0) ∧
      ¬ (Spec.realDist (CDbl.fin 0 0) (CDbl.fin 1.2 0)).lt (.num 1) := by
  have h01 : (Spec.realDist (CDbl.fin 0 0) (CDbl.fin 0.6 0)).lt (.num 1) := by
    simp only [Spec.realDist, CDbl.fin, Dbl.lt, EReal.toReal_coe]
    rw [← EReal.coe_one, EReal.coe_lt_coe_iff]; norm_num [abs_lt]
  have h02 : ¬ (Spec.realDist (CDbl.fin 0 0) (CDbl.fin 1.2 0)).lt (.num 1) := by
    simp only [Spec.realDist, CDbl.fin, Dbl.lt, EReal.toReal_coe]
    rw [← EReal.coe_one, EReal.coe_lt_coe_iff]; norm_num [abs_lt]
  have h12 : (Spec.realDist (CDbl.fin 0.6 0) (CDbl.fin 1.2 0)).lt (.num 1) := by
    simp only [Spec.realDist, CDbl.fin, Dbl.lt, EReal.toReal_coe]
    rw [← EReal.coe_one, EReal.coe_lt_coe_iff]; norm_num [abs_lt]
  have ht : ¬ (Dbl.num 1).lt Dbl.zero := by
    simp only [Dbl.lt, Dbl.zero, not_lt]; exact zero_le_one
  have r0 : (Buf.ofList [CDbl.fin 0 0, CDbl.fin 0.6 0, CDbl.fin 1.2 0]).rd 0 = some (CDbl.fin 0 0) := by
    rw [Buf.rd_ofList]; rfl
  have r1 : (Buf.ofList [CDbl.fin 0 0, CDbl.fin 0.6 0, CDbl.fin 1.2 0]).rd 1 =
      some (CDbl.fin 0.6 0) := by rw [Buf.rd_ofList]; rfl
  have r2 : (Buf.ofList [CDbl.fin 0 0, CDbl.fin 0.6 0, CDbl.fin 1.2 0]).rd 2 =
      some (CDbl.fin 1.2 0) := by rw [Buf.rd_ofList]; rfl
  refine ⟨_, ?_, r0, h02⟩
  simp only [misc_merge]
  rw [if_neg (by norm_num), if_neg ht]
  simp [forLoop_succ, mergeBody, mergeInner, r0, r1, r2, h01, h02, h12]

example : (Buf.ofFn 3 (fun i => CDbl.fin i 0)).Holds 0 (2 + 1) (fun i => CDbl.fin i 0) ∧
    ¬ (Dbl.num 1).lt Dbl.zero :=
  ⟨Buf.holds_ofFn _ _, by simp [Dbl.lt, Dbl.zero]⟩

/-! ## C06 downsampling -/

/-- `misc_downsample` for `D ≥ 3` and any requested size. -/
theorem C06_downsample {α : Type*} (D : ℕ) (hD : 3 ≤ D) (f : ℕ → α) (q : Buf α)
    (hq : q.Holds 0 D f) (Dsub0 : ℕ) :
    ∃ (Dsub s : ℕ) (qsub : Buf α),
      misc_downsample D q Dsub0 =
        some ⟨SUCCESS, Dsub, some qsub, some (0, (Dsub - 1) * s)⟩ ∧
      2 ≤ Dsub ∧ Dsub ≤ D ∧ 1 ≤ s ∧ (Dsub - 1) * s < D ∧
      qsub.len = Dsub ∧ qsub.Holds 0 Dsub (fun j => f (j * s)) ∧
      (2 ≤ Dsub0 → Dsub0 ∣ D → Dsub = Dsub0 ∧ s * Dsub = D) ∧
      (D ≤ Dsub0 → Dsub = D ∧ s = 1) := by
  set d := if (if Dsub0 < 2 then 2 else Dsub0) > D then D else (if Dsub0 < 2 then 2 else Dsub0) with hd
  have hd2 : 2 ≤ d := by rw [hd]; split_ifs <;> omega
  have hdD : d ≤ D := by rw [hd]; split_ifs <;> omega
  obtain ⟨hs1, hm2, hmD, hlt, hdiv⟩ := downsample_arith D d hD hd2 hdD
  have e1 : roundDiv D d = (2 * D + d) / (2 * d) := roundDiv_eq D d (by omega)
  set s := (2 * D + d) / (2 * d) with hs
  have e2 : roundDiv D s = (2 * D + s) / (2 * s) := roundDiv_eq D s (by omega)
  set m := (2 * D + s) / (2 * s) with hm
  obtain ⟨b, hb, hbl, hbh⟩ := downsample_loop q D s m f hq (Or.inr hlt)
  refine ⟨m, s, b, ?_, hm2, hmD, hs1, hlt, hbl, hbh, ?_, ?_⟩
  · simp only [misc_downsample]
    rw [if_neg (by omega), ← hd, e1, e2, hb]
    have : m * s - s = (m - 1) * s := by rw [Nat.sub_mul, Nat.one_mul]
    simp [this]
  · intro h2 hdvd
    have hle : Dsub0 ≤ D := Nat.le_of_dvd (by omega) hdvd
    have hdd : d = Dsub0 := by rw [hd]; split_ifs <;> omega
    obtain ⟨h5, h6⟩ := hdiv (hdd ▸ hdvd)
    exact ⟨by rw [h5, hdd], by rw [h5]; exact h6⟩
  · intro hle
    have hdd : d = D := by rw [hd]; split_ifs <;> omega
    obtain ⟨h5, h6⟩ := hdiv (by rw [hdd])
    refine ⟨by rw [h5, hdd], ?_⟩
    rw [hdd] at h6
    exact Nat.eq_of_mul_eq_mul_right (show 0 < D by omega) (by rw [h6, Nat.one_mul])

/-- `D ≤ 2` is rejected. -/
theorem C06_downsample_invalid {α : Type*} (D : ℕ) (hD : D ≤ 2) (q : Buf α) (Dsub0 : ℕ) :
    misc_downsample D q Dsub0 = some ⟨EC_INVALID_ARGUMENT, Dsub0, none, none⟩ := by
  simp [misc_downsample, hD]

example : 3 ≤ 7 ∧ (Buf.ofFn 7 (fun i => i)).Holds 0 7 (fun i => i) := ⟨by norm_num, Buf.holds_ofFn _ _⟩

end FNFT

import Verif.Proofs.PolyFmultTop
/-!
# Properties C14-C17 and C18 (rescaling): fast products of polynomials
-/
namespace FNFT
open Finset Polynomial

/-! ## C14 poly_fmult -/

/-- `poly_fmult` on `n ≥ 2` polynomials of degree `d` (stored one after the other, highest coefficient
first, in an array with `poly_fmult_numel` elements) succeeds, reports the degree `n*d` and leaves in
the array the coefficients `y` of a polynomial which, multiplied by `2^W`, is the product. Without
normalisation `W = 0`; with normalisation the largest modulus of the coefficients is in `[1,2)` unless the product
is zero. -/
theorem C14_fmult (d n : ℕ) (hn : 2 ≤ n) (hn' : n ≤ 2 ^ 63) (hsz : 2 * d * n < 3 ^ 32) (p : Buf ℂ)
    (L : ℕ) (hL : poly_fmult_numel 1 d n = some L) (hlen : L ≤ p.len)
    (x : ℕ → ℂ) (hx : p.Holds 0 (n * (d + 1)) x) (normalize : Bool) :
    ∃ r, poly_fmult d n p normalize = some r ∧ r.ret = some SUCCESS ∧ r.deg = n * d ∧
      r.p.len = p.len ∧
      ∃ y, r.p.Holds 0 (n * d + 1) y ∧
        C ((2 : ℂ) ^ r.W) * Spec.poly (n * d) y =
          ∏ i ∈ range n, Spec.poly d (fun j => x (i * (d + 1) + j)) ∧
        (normalize = false → r.W = 0) ∧
        (normalize = true → (∃ i ≤ n * d, y i ≠ 0) →
          (∃ i ≤ n * d, 1 ≤ ‖y i‖) ∧ ∀ i ≤ n * d, ‖y i‖ < 2) := by
  obtain ⟨k, hk, hk1, hk2⟩ := nextpow2_spec n (by omega) hn'
  rw [poly_fmult_numel, hk, Option.map_some, Option.some_inj, one_mul] at hL
  have hk0 : k ≠ 0 := by rintro rfl; simp at hk1; omega
  have hd2 : d * 2 ^ k ≤ 2 * d * n := by
    calc d * 2 ^ k ≤ d * (2 * n) := Nat.mul_le_mul_left _ hk2.le
      _ = 2 * d * n := by ring
  -- padding
  have hcap : n * (d + 1) + (2 ^ k - n) * (d + 1) ≤ p.len := by
    rw [← Nat.add_mul, show n + (2 ^ k - n) = 2 ^ k by omega, mul_comm]; omega
  obtain ⟨p1, e1, l1, h1, f1⟩ := padLoop_spec d 1 (2 ^ k - n) (n * (d + 1)) p hcap
  set Q : ℕ → ℂ[X] := fun i => if i < n then loPoly d (fun j => x (i * (d + 1) + j)) else C 1 with hQ
  have hQd : ∀ i, i < 2 ^ k → (Q i).natDegree ≤ d := by
    intro i _
    simp only [hQ]
    split_ifs
    · exact loPoly_natDegree _ _
    · simp
  have hQh : ∀ i, i < 2 ^ k → p1.Holds (i * (d + 1)) (d + 1) (Q i).coeff := by
    intro i hi j hj
    simp only [hQ]
    split_ifs with h
    · have : (i + 1) * (d + 1) ≤ n * (d + 1) := Nat.mul_le_mul_right _ h
      have e : (i + 1) * (d + 1) = i * (d + 1) + (d + 1) := by ring
      have := hx (i * (d + 1) + j) (by omega)
      rw [Nat.zero_add] at this
      rw [f1 _ (by omega), this, loPoly_coeff, if_pos (by omega)]
    · have := h1 (i - n) (by omega) j hj
      rw [← Nat.add_mul, show n + (i - n) = i by omega] at this
      exact this
  obtain ⟨lm, hlm, -⟩ := twoPolysLen_spec (d * (n + (2 ^ k - n)) / 2)
  have hN : n + (2 ^ k - n) = 2 ^ k := by omega
  rw [hN] at hlm
  obtain ⟨p2, w, e2, l2, h2, w2, u2⟩ := fmultLoop_spec normalize k (2 ^ k) (Nat.lt_two_pow_self.le) d p1
    ⟨Buf.malloc lm, Buf.malloc lm, Buf.malloc lm⟩ 0 none Q hQd hQh
    (fun len d' hl hd' => by
      have := twoPolysLen_mono (d' := d * 2 ^ k / 2) (by omega) hl hlm
      simp [this]) (by omega)
  have hprod : prodL (2 ^ k) Q = prodL n (fun i => loPoly d (fun j => x (i * (d + 1) + j))) := by
    rw [← hN, prodL_add]
    rw [prodL_congr (Q := Q) (Q' := fun i => loPoly d (fun j => x (i * (d + 1) + j)))
      (fun i hi => by simp only [hQ, if_pos hi])]
    rw [prodL_congr (Q := fun i => Q (n + i)) (Q' := fun _ => 1) (fun i _ => by
      simp only [hQ]; rw [if_neg (by omega)]; simp), prodL_one, mul_one]
  rw [hprod] at h2
  set Z : ℂ[X] := prodL n (fun i => loPoly d (fun j => x (i * (d + 1) + j))) with hZ
  have hZd : Z.natDegree ≤ d * n := prodL_natDegree fun i _ => loPoly_natDegree _ _
  have hSd : ((2 : ℂ) ^ (-w) • Z).natDegree ≤ n * d := (natDegree_smul_le _ _).trans (by rw [mul_comm n d]; exact hZd)
  have hnd : n * d ≤ d * 2 ^ k := by rw [mul_comm n d]; exact Nat.mul_le_mul_left _ hk1
  refine ⟨⟨some SUCCESS, n * d, w, p2, p2⟩, ?_, rfl, rfl, by simp only; omega, ((2 : ℂ) ^ (-w) • Z).coeff, ?_, ?_, w2, ?_⟩
  · rw [poly_fmult, hk]
    simp only [Option.bind_eq_bind, Option.bind_some]
    rw [e1]
    simp only [Option.bind_some]
    rw [hN, hlm, Option.bind_some, e2]
    have hs : d * 2 ^ k - (2 ^ k - n) * d = n * d := by
      rw [mul_comm d, ← Nat.sub_mul, show 2 ^ k - (2 ^ k - n) = n by omega]
    simp [if_neg hk0, hs]
  · intro i hi
    exact h2 i (by omega)
  · rw [Spec.poly_reflect _ _ hSd, reflect_smul, hZ, mul_comm n d, reflect_prodL (fun i _ => loPoly_natDegree _ _),
      smul_eq_C_mul, ← mul_assoc, ← C_mul, ← zpow_add₀ two_ne_zero]
    simp only [add_neg_cancel, zpow_zero, C_1, one_mul, prodL_comm, ← Spec.poly_lo]
  · intro hno hex
    obtain ⟨i, hi, hne⟩ := hex
    obtain ⟨⟨_, j, -, hj, hj'⟩, hall⟩ := u2 hno (fun h => absurd h hk0) ⟨0, i, by omega, by omega, by
      simp only [hprod]; exact hne⟩
    simp only [hprod] at hj' hall
    refine ⟨⟨j, ?_, hj'⟩, fun i hi => hall 0 i (by omega) (by omega)⟩
    by_contra hc
    rw [coeff_eq_zero_of_natDegree_lt (by omega), norm_zero] at hj'
    norm_num at hj'

/-- Three linear factors: the hypotheses of `C14_fmult` can be met. -/
example : ∃ r, poly_fmult 1 3 (Buf.ofFn 8 (fun i => (i : ℂ))) true = some r ∧ r.ret = some SUCCESS ∧ r.deg = 3 := by
  obtain ⟨r, h1, h2, h3, -⟩ := C14_fmult 1 3 (by norm_num) (by norm_num) (by norm_num)
    (Buf.ofFn 8 (fun i => (i : ℂ))) 8 (by decide) (by simp) (fun i => (i : ℂ))
    (fun i hi => by rw [Nat.zero_add]; exact Buf.rd_ofFn (by omega)) true
  exact ⟨r, h1, h2, h3⟩

/-! ## C15, C16 products of matrices -/

/-- `m x m` matrix of polynomials of degree `d` stored entry after entry (row major), coefficients of
entry `(a,b)` starting at `(m*a+b)*stride + off`. -/
noncomputable def Spec.pmat (m d stride off : ℕ) (x : ℕ → ℂ) : Matrix (Fin m) (Fin m) ℂ[X] :=
  Matrix.of fun a b => Spec.poly d (fun j => x ((m * a + b) * stride + off + j))

theorem reflectM_prodL {m d n : ℕ} {Q : ℕ → PMat m} (h : ∀ i, i < n → DegLE d (Q i)) :
    (prodL n Q).map (reflect (d * n)) = prodL n (fun i => (Q i).map (reflect d)) := by
  induction n with
  | zero =>
    simp only [prodL_zero, Nat.mul_zero]
    ext1 i j
    rw [Matrix.map_apply, Matrix.one_apply]
    split_ifs with h
    · exact (reflect_C 1 0).trans (by simp)
    · exact reflect_zero
  | succ n ih =>
    rw [prodL_succ, prodL_succ, ← ih fun i hi => h i (by omega)]
    ext1 i j
    have hsum : ∀ (D : ℕ) (s : Finset (Fin m)) (f : Fin m → ℂ[X]), reflect D (∑ l ∈ s, f l) = ∑ l ∈ s, reflect D (f l) := by
      intro D s f
      induction s using Finset.induction_on with
      | empty => simp
      | insert a s ha ih => rw [sum_insert ha, sum_insert ha, reflect_add, ih]
    rw [Matrix.map_apply, Matrix.mul_apply, Matrix.mul_apply, hsum]
    refine sum_congr rfl fun l _ => ?_
    rw [Nat.mul_succ, reflect_mul _ _ (DegLE.prodL (fun i hi => h i (by omega)) i l) (h n (by omega) l j)]
    rfl

/-- Both matrix products, from the specification of the model. -/
theorem fmultM_main {k : Kind} (hk : KindOK k) (d n : ℕ) (hn : 2 ≤ n) (hn' : n ≤ 2 ^ 63)
    (hsz : 2 * d * n < 3 ^ 32) (p res : Buf ℂ) (L : ℕ) (hL : poly_fmult_numel (k.m * k.m) d n = some L)
    (hlen : L ≤ p.len) (hrlen : L ≤ res.len)
    (x : ℕ → ℂ) (hx : p.Holds 0 (k.m * k.m * (n * (d + 1))) x) (normalize : Bool) :
    ∃ r, poly_fmultM k d n p res normalize = some r ∧ r.ret = some SUCCESS ∧ r.deg = n * d ∧
      r.result.len = res.len ∧
      ∃ y, r.result.Holds 0 (k.m * k.m * (n * d + 1)) y ∧
        C ((2 : ℂ) ^ r.W) • Spec.pmat k.m (n * d) (n * d + 1) 0 y =
          ((List.range n).map (fun i => Spec.pmat k.m d (n * (d + 1)) (i * (d + 1)) x)).prod ∧
        (normalize = false → r.W = 0) ∧
        (normalize = true → (∃ i, i < k.m * k.m * (n * d + 1) ∧ y i ≠ 0) →
          (∃ i, i < k.m * k.m * (n * d + 1) ∧ 1 ≤ ‖y i‖) ∧ ∀ i, i < k.m * k.m * (n * d + 1) → ‖y i‖ < 2) := by
  set Q : ℕ → PMat k.m := fun i => Matrix.of fun a b =>
    loPoly d (fun j => x ((k.m * a + b) * (n * (d + 1)) + i * (d + 1) + j)) with hQ
  have hQd : ∀ i, i < n → DegLE d (Q i) := fun i _ a b => loPoly_natDegree _ _
  obtain ⟨r, h1, h2, h3, h4, h5, h6, h7⟩ := poly_fmultM_spec hk d n hn hn' hsz p res L hL hlen hrlen hQd
    (by
      intro i e hi he t ht
      obtain ⟨a, b, rfl⟩ := idx_ex he
      rw [ent_idx]
      have b1 : (i + 1) * (d + 1) ≤ n * (d + 1) := Nat.mul_le_mul_right _ hi
      have b2 : (i + 1) * (d + 1) = i * (d + 1) + (d + 1) := by ring
      have b3 : (k.m * a + b + 1) * (n * (d + 1)) ≤ k.m * k.m * (n * (d + 1)) := Nat.mul_le_mul_right _ he
      have b4 : (k.m * a + b + 1) * (n * (d + 1)) = (k.m * a + b) * (n * (d + 1)) + n * (d + 1) := by ring
      have := hx ((k.m * a + b) * (n * (d + 1)) + i * (d + 1) + t) (by omega)
      rw [Nat.zero_add] at this
      rw [this]
      simp only [hQ, Matrix.of_apply]
      rw [loPoly_coeff, if_pos (by omega)]) normalize
  set T := n * d + 1 with hT
  set Z := prodL n Q with hZ
  have hZd : DegLE (n * d) ((2 : ℂ) ^ (-r.W) • Z) := by
    rw [mul_comm n d]; exact (DegLE.prodL hQd).smul _
  have hq1 : ∀ e t, t < T → (e * T + t) / T = e := fun e t ht => by
    rw [mul_comm, Nat.mul_add_div (by omega), Nat.div_eq_of_lt ht, Nat.add_zero]
  have hq2 : ∀ e t, t < T → (e * T + t) % T = t := fun e t ht => by
    rw [mul_comm, Nat.mul_add_mod, Nat.mod_eq_of_lt ht]
  refine ⟨r, h1, h2, h3, h4, fun i => (ent ((2 : ℂ) ^ (-r.W) • Z) (i / T)).coeff (i % T), ?_, ?_, h6, ?_⟩
  · intro i hi
    have := h5 (i / T) (Nat.div_lt_of_lt_mul (by rw [mul_comm]; exact hi)) (i % T) (Nat.mod_lt _ (by omega))
    rw [← this]; congr 1
    have := Nat.div_add_mod i T
    rw [mul_comm] at this; omega
  · have hY : Spec.pmat k.m (n * d) T 0 (fun i => (ent ((2 : ℂ) ^ (-r.W) • Z) (i / T)).coeff (i % T)) =
        ((2 : ℂ) ^ (-r.W) • Z).map (reflect (n * d)) := by
      ext1 a b
      rw [Spec.pmat, Matrix.of_apply, Matrix.map_apply, ← Spec.poly_reflect _ _ (hZd a b)]
      refine Spec.poly_congr fun t ht => ?_
      rw [Nat.add_zero, hq1 _ _ (by omega), hq2 _ _ (by omega), ent_idx]
    have hZm : ((2 : ℂ) ^ (-r.W) • Z).map (reflect (n * d)) =
        C ((2 : ℂ) ^ (-r.W)) • prodL n (fun i => (Q i).map (reflect d)) := by
      rw [← reflectM_prodL hQd, mul_comm d n]
      ext1 a b
      rw [Matrix.map_apply, Matrix.smul_apply, Matrix.smul_apply, Matrix.map_apply, reflect_smul,
        smul_eq_C_mul, smul_eq_mul]
    rw [hY, hZm, smul_smul, ← C_mul, ← zpow_add₀ two_ne_zero, add_neg_cancel, zpow_zero, C_1, one_smul, prodL]
    congr 2
    funext i
    ext1 a b
    rw [Matrix.map_apply, Spec.pmat, Matrix.of_apply, Spec.poly_lo]
    simp only [hQ, Matrix.of_apply]
  · rintro hno ⟨i, hi, hne⟩
    have hlt : ∀ i, i < k.m * k.m * T → i / T < k.m * k.m ∧ i % T ≤ n * d := fun i hi =>
      ⟨Nat.div_lt_of_lt_mul (by rw [mul_comm]; exact hi), by have := Nat.mod_lt i (show 0 < T by omega); omega⟩
    obtain ⟨⟨e, t, he, ht, h⟩, hall⟩ := h7 hno ⟨i / T, i % T, (hlt i hi).1, (hlt i hi).2, hne⟩
    refine ⟨⟨e * T + t, ?_, ?_⟩, fun i hi => hall _ _ (hlt i hi).1 (hlt i hi).2⟩
    · have : (e + 1) * T ≤ k.m * k.m * T := Nat.mul_le_mul_right _ he
      have : (e + 1) * T = e * T + T := by ring
      omega
    · simp only
      rw [hq1 _ _ (by omega), hq2 _ _ (by omega)]; exact h

/-- `poly_fmult2x2`: `n ≥ 2` matrices `M_i`, entries stored one after the other, give the ordered product
`M_0 M_1 … M_{n-1} = 2^W Y` with `Y` the stored result of degree `n*d`. -/
theorem C15_fmult2x2 (d n : ℕ) (hn : 2 ≤ n) (hn' : n ≤ 2 ^ 63) (hsz : 2 * d * n < 3 ^ 32)
    (p res : Buf ℂ) (L : ℕ) (hL : poly_fmult_numel 4 d n = some L) (hlen : L ≤ p.len) (hrlen : L ≤ res.len)
    (x : ℕ → ℂ) (hx : p.Holds 0 (4 * (n * (d + 1))) x) (normalize : Bool) :
    ∃ r, poly_fmultM kind2 d n p res normalize = some r ∧ r.ret = some SUCCESS ∧ r.deg = n * d ∧
      r.result.len = res.len ∧
      ∃ y, r.result.Holds 0 (4 * (n * d + 1)) y ∧
        C ((2 : ℂ) ^ r.W) • Spec.pmat 2 (n * d) (n * d + 1) 0 y =
          ((List.range n).map (fun i => Spec.pmat 2 d (n * (d + 1)) (i * (d + 1)) x)).prod ∧
        (normalize = false → r.W = 0) ∧
        (normalize = true → (∃ i, i < 4 * (n * d + 1) ∧ y i ≠ 0) →
          (∃ i, i < 4 * (n * d + 1) ∧ 1 ≤ ‖y i‖) ∧ ∀ i, i < 4 * (n * d + 1) → ‖y i‖ < 2) :=
  fmultM_main kind2_ok d n hn hn' hsz p res L hL hlen hrlen x hx normalize

/-- `poly_fmult3x3`. -/
theorem C16_fmult3x3 (d n : ℕ) (hn : 2 ≤ n) (hn' : n ≤ 2 ^ 63) (hsz : 2 * d * n < 3 ^ 32)
    (p res : Buf ℂ) (L : ℕ) (hL : poly_fmult_numel 9 d n = some L) (hlen : L ≤ p.len) (hrlen : L ≤ res.len)
    (x : ℕ → ℂ) (hx : p.Holds 0 (9 * (n * (d + 1))) x) (normalize : Bool) :
    ∃ r, poly_fmultM kind3 d n p res normalize = some r ∧ r.ret = some SUCCESS ∧ r.deg = n * d ∧
      r.result.len = res.len ∧
      ∃ y, r.result.Holds 0 (9 * (n * d + 1)) y ∧
        C ((2 : ℂ) ^ r.W) • Spec.pmat 3 (n * d) (n * d + 1) 0 y =
          ((List.range n).map (fun i => Spec.pmat 3 d (n * (d + 1)) (i * (d + 1)) x)).prod ∧
        (normalize = false → r.W = 0) ∧
        (normalize = true → (∃ i, i < 9 * (n * d + 1) ∧ y i ≠ 0) →
          (∃ i, i < 9 * (n * d + 1) ∧ 1 ≤ ‖y i‖) ∧ ∀ i, i < 9 * (n * d + 1) → ‖y i‖ < 2) :=
  fmultM_main kind3_ok d n hn hn' hsz p res L hL hlen hrlen x hx normalize

/-- Three 2x2 matrices of degree 1: the hypotheses of `C15_fmult2x2` can be met. -/
example : ∃ r, poly_fmultM kind2 1 3 (Buf.ofFn 32 (fun i => (i : ℂ))) (Buf.malloc 32) true = some r ∧
    r.ret = some SUCCESS ∧ r.deg = 3 := by
  obtain ⟨r, h1, h2, h3, -⟩ := C15_fmult2x2 1 3 (by norm_num) (by norm_num) (by norm_num)
    (Buf.ofFn 32 (fun i => (i : ℂ))) (Buf.malloc 32) 32 (by decide) (by simp) (by simp) (fun i => (i : ℂ))
    (fun i hi => by rw [Nat.zero_add]; exact Buf.rd_ofFn (by omega)) true
  exact ⟨r, h1, h2, h3⟩

/-- Five 3x3 matrices of degree 2: the hypotheses of `C16_fmult3x3` can be met. -/
example : ∃ r, poly_fmultM kind3 2 5 (Buf.ofFn 216 (fun i => (i : ℂ))) (Buf.malloc 216) false = some r ∧
    r.ret = some SUCCESS ∧ r.deg = 10 := by
  obtain ⟨r, h1, h2, h3, -⟩ := C16_fmult3x3 2 5 (by norm_num) (by norm_num) (by norm_num)
    (Buf.ofFn 216 (fun i => (i : ℂ))) (Buf.malloc 216) 216 (by decide) (by simp) (by simp) (fun i => (i : ℂ))
    (fun i hi => by rw [Nat.zero_add]; exact Buf.rd_ofFn (by omega)) false
  exact ⟨r, h1, h2, h3⟩

/-! ## C18 rescaling of matrix entries -/

/-- `poly_rescale2x2/3x3`: all `K` polynomials are multiplied by the same `2^-a`, where `a` is the returned value;
afterwards the largest modulus is in `[1,2)`; if all coefficients are zero, `a = 0`; nothing else is written. -/
theorem C18_rescale (K d off rs : ℕ) (v : Buf ℂ) (x : ℕ → ℕ → ℂ) (hrs : d + 1 ≤ rs)
    (hv : ∀ e, e < K → v.Holds (off + e * rs) (d + 1) (x e)) :
    ∃ (a : ℤ) (v' : Buf ℂ), rescaleK K d off rs v = some (a, v') ∧ v'.len = v.len ∧
      (∀ e, e < K → v'.Holds (off + e * rs) (d + 1) (fun i => (2 : ℂ) ^ (-a) * x e i)) ∧
      (∀ j, (∀ e i, e < K → i ≤ d → j ≠ off + e * rs + i) → v'.rd j = v.rd j) ∧
      ((∀ e i, e < K → i ≤ d → x e i = 0) → a = 0) ∧
      ((∃ e i, e < K ∧ i ≤ d ∧ x e i ≠ 0) →
        (∃ e i, e < K ∧ i ≤ d ∧ 1 ≤ ‖(2 : ℂ) ^ (-a) * x e i‖) ∧
        ∀ e i, e < K → i ≤ d → ‖(2 : ℂ) ^ (-a) * x e i‖ < 2) := by
  obtain ⟨a, v', h1, h2, h3, h4, h5, h6⟩ := rescaleK_spec hrs hv
  exact ⟨a, v', h1, h2, h3, h4, h5, h6⟩

example : ∃ v : Buf ℂ, ∀ e, e < 4 → v.Holds (1 + e * 5) (2 + 1) (fun i => (i : ℂ)) :=
  ⟨Buf.ofFn 20 (fun i => (((i - 1) % 5 : ℕ) : ℂ)), fun e he i hi => by
    rw [Buf.rd_ofFn (by omega)]; congr 2; omega⟩

/-! ## C17 return value -/

/-- With at most one polynomial `poly_fmult` does not set its return value: the caller gets an
indeterminate value, although the array and the degree are right. -/
theorem C17_fmult_one (d n : ℕ) (hn : n ≤ 1) (p : Buf ℂ) (normalize : Bool) :
    ∃ r, poly_fmult d n p normalize = some r ∧ r.ret = none ∧ r.deg = d ∧ r.p = p := by
  have hk : nextpow2 n = some n := by
    rcases Nat.le_one_iff_eq_zero_or_eq_one.mp hn with rfl | rfl <;> decide
  obtain ⟨lm, hlm, -⟩ := twoPolysLen_spec (d * n / 2)
  refine ⟨⟨none, d, 0, p, p⟩, ?_, rfl, rfl, rfl⟩
  rw [poly_fmult, hk]
  simp only [Option.bind_eq_bind, Option.bind_some, Nat.sub_self, padLoop, forLoop_zero, Nat.add_zero, hlm]
  have : fmultLoop normalize n n d p ⟨Buf.malloc lm, Buf.malloc lm, Buf.malloc lm⟩ 0 none =
      some (none, d, p, 0) := by
    cases n with
    | zero => simp [fmultLoop]
    | succ n => rw [fmultLoop, if_neg (by omega)]
  rw [this]; simp

/-- The matrix products share the defect: with at most one factor the return value is indeterminate, and
`result` is not written at all. -/
theorem C17_fmultM_one (k : Kind) (d n : ℕ) (hn : n ≤ 1) (p res : Buf ℂ) (normalize : Bool) :
    ∃ r, poly_fmultM k d n p res normalize = some r ∧ r.ret = none ∧ r.deg = d ∧ r.p = p ∧ r.result = res := by
  have hk : nextpow2 n = some n := by
    rcases Nat.le_one_iff_eq_zero_or_eq_one.mp hn with rfl | rfl <;> decide
  obtain ⟨lm, hlm, -⟩ := twoPolysLen_spec (d * n / 2)
  refine ⟨⟨none, d, 0, p, res⟩, ?_, rfl, rfl, rfl, rfl⟩
  have : fmultMLoop k normalize (n * (d + 1)) n n d p res ⟨Buf.malloc lm, Buf.malloc lm, Buf.malloc lm⟩ 0 none 0 =
      some (none, d, p, res, 0, 0) := by
    cases n with
    | zero => simp [fmultMLoop]
    | succ n => rw [fmultMLoop, if_neg (by omega)]
  simp [poly_fmultM, padIf, truncIf, hk, hlm, this]

end FNFT

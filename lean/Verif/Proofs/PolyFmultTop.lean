import Verif.Proofs.PolyFmultM
/-! Padding and truncation in `poly_fmult2x2` / `3x3`. -/
namespace FNFT
open Finset Kiss Polynomial

theorem moveWithin_spec {dst src cnt : ℕ} {b : Buf ℂ} {x : ℕ → ℂ} (hx : b.Holds src cnt x)
    (hd : dst + cnt ≤ b.len) :
    ∃ b', moveWithin dst src cnt b = some b' ∧ b'.len = b.len ∧ b'.Holds dst cnt x ∧
      ∀ j, (j < dst ∨ dst + cnt ≤ j) → b'.rd j = b.rd j := by
  obtain ⟨b', e, l, r⟩ := fill_spec (off := dst) (cnt := cnt) (f := fun k => b.rd (src + (k - dst))) (b := b)
    (fun k => x (k - dst)) (fun k _ _ => hx _ (by omega)) (Or.inl hd)
  exact ⟨b', e, l, fun i hi => by rw [r, if_pos (by omega), Nat.add_sub_cancel_left],
    fun j hj => by rw [r, if_neg (by omega)]⟩

theorem padM_move {K S S' : ℕ} (hS : S ≤ S') {p : Buf ℂ} {x : ℕ → ℕ → ℂ}
    (hx : ∀ e, e < K → p.Holds (e * S) S (x e)) (hl : K * S' ≤ p.len) :
    ∃ p', forLoop (K - 1) (fun j p => moveWithin ((K - 1 - j) * S') ((K - 1 - j) * S) S p) p = some p' ∧
      p'.len = p.len ∧ ∀ e, e < K → p'.Holds (e * S') S (x e) := by
  have := forLoop_inv (n := K - 1) (body := fun j p => moveWithin ((K - 1 - j) * S') ((K - 1 - j) * S) S p)
    (s := p) (fun c (p' : Buf ℂ) => p'.len = p.len ∧ (∀ e, K - c ≤ e → e < K → p'.Holds (e * S') S (x e)) ∧
      ∀ e, e < K - c → p'.Holds (e * S) S (x e)) ?_ ?_
  · obtain ⟨p', e, h1, h2, h3⟩ := this
    refine ⟨p', e, h1, fun e he => ?_⟩
    by_cases h : e = 0
    · subst h; have := h3 0 (by omega); simpa using this
    · exact h2 e (by omega) he
  · exact ⟨rfl, fun e h h' => by omega, fun e h => hx e (by omega)⟩
  · rintro c p' hc ⟨h1, h2, h3⟩
    set e := K - 1 - c with he
    have b1 : (e + 1) * S' ≤ K * S' := Nat.mul_le_mul_right _ (by omega)
    have b2 : (e + 1) * S' = e * S' + S' := by ring
    obtain ⟨q, e1, l1, v1, f1⟩ := moveWithin_spec (dst := e * S') (h3 e (by omega)) (by omega)
    refine ⟨q, e1, by omega, ?_, ?_⟩
    · intro e' h h' t ht
      by_cases heq : e' = e
      · subst heq; exact v1 t ht
      · have b3 : (e + 1) * S' ≤ e' * S' := Nat.mul_le_mul_right _ (by omega)
        rw [f1 _ (by omega)]; exact h2 e' (by omega) h' t ht
    · intro e' h t ht
      have b3 : (e' + 1) * S ≤ e * S := Nat.mul_le_mul_right _ (by omega)
      have b4 : (e' + 1) * S = e' * S + S := by ring
      have b5 : e * S ≤ e * S' := Nat.mul_le_mul_left _ hS
      rw [f1 _ (by omega)]; exact h3 e' (by omega) t ht

theorem trunc_move {K T rs : ℕ} (hT : T ≤ rs) {p : Buf ℂ} {x : ℕ → ℕ → ℂ}
    (hx : ∀ e, e < K → p.Holds (e * rs) T (x e)) (hl : K * rs ≤ p.len) :
    ∃ p', forLoop (K - 1) (fun j p => moveWithin ((j + 1) * T) ((j + 1) * rs) T p) p = some p' ∧
      p'.len = p.len ∧ ∀ e, e < K → p'.Holds (e * T) T (x e) := by
  have := forLoop_inv (n := K - 1) (body := fun j p => moveWithin ((j + 1) * T) ((j + 1) * rs) T p)
    (s := p) (fun c (p' : Buf ℂ) => p'.len = p.len ∧ (∀ e, e < c + 1 → e < K → p'.Holds (e * T) T (x e)) ∧
      ∀ e, c + 1 ≤ e → e < K → p'.Holds (e * rs) T (x e)) ?_ ?_
  · obtain ⟨p', e, h1, h2, h3⟩ := this
    exact ⟨p', e, h1, fun e he => h2 e (by omega) he⟩
  · refine ⟨rfl, fun e h h' => ?_, fun e _ h => hx e h⟩
    have : e = 0 := by omega
    subst this; have := hx 0 h'; simpa using this
  · rintro c p' hc ⟨h1, h2, h3⟩
    have b1 : (c + 1 + 1) * rs ≤ K * rs := Nat.mul_le_mul_right _ (by omega)
    have b2 : (c + 1 + 1) * T = (c + 1) * T + T := by ring
    have b2' : (c + 1 + 1) * T ≤ (c + 1 + 1) * rs := Nat.mul_le_mul_left _ hT
    obtain ⟨q, e1, l1, v1, f1⟩ := moveWithin_spec (dst := (c + 1) * T) (h3 (c + 1) le_rfl (by omega)) (by omega)
    refine ⟨q, e1, by omega, ?_, ?_⟩
    · intro e' h h' t ht
      by_cases heq : e' = c + 1
      · subst heq; exact v1 t ht
      · have b3 : (e' + 1) * T ≤ (c + 1) * T := Nat.mul_le_mul_right _ (by omega)
        have b4 : (e' + 1) * T = e' * T + T := by ring
        rw [f1 _ (by omega)]; exact h2 e' (by omega) h' t ht
    · intro e' h h' t ht
      have b3 : (c + 1 + 1) * rs ≤ e' * rs := Nat.mul_le_mul_right _ h
      rw [f1 _ (by omega)]; exact h3 e' (by omega) h' t ht

theorem ent_one {m e : ℕ} (he : e < m * m) : ent (1 : PMat m) e = C (if e % (m + 1) = 0 then 1 else 0) := by
  obtain ⟨i, j, rfl⟩ := idx_ex he
  rw [ent_idx, Matrix.one_apply]
  by_cases h : i = j
  · subst h
    have : (m * i + i) % (m + 1) = 0 := by
      rw [show m * (i : ℕ) + i = i * (m + 1) by ring]; exact Nat.mul_mod_left _ _
    rw [if_pos rfl, if_pos this, C_1]
  · rw [if_neg h]
    have : (m * i + j) % (m + 1) ≠ 0 := by
      intro h0
      have hd := Nat.dvd_of_mod_eq_zero h0
      have h1 : ((m : ℤ) + 1) ∣ ((j : ℕ) : ℤ) - ((i : ℕ) : ℤ) := by
        have e1 : ((m : ℤ) + 1) ∣ ((m * i + j : ℕ) : ℤ) := by exact_mod_cast hd
        have e2 : ((m : ℤ) + 1) ∣ ((m : ℤ) + 1) * (i : ℕ) := dvd_mul_right _ _
        have := dvd_sub e1 e2
        push_cast at this
        ring_nf at this ⊢
        exact this
      have hi := i.2; have hj := j.2
      have : ((j : ℕ) : ℤ) - ((i : ℕ) : ℤ) = 0 := Int.eq_zero_of_abs_lt_dvd h1 (by rw [abs_lt]; omega)
      exact h (Fin.ext (by omega))
    rw [if_neg this, C_0]

/-- Padding of the factors. -/
theorem padM_spec {m d n N : ℕ} (hn : n ≤ N) {p : Buf ℂ} {Q : ℕ → PMat m}
    (hQ : ∀ i e, i < n → e < m * m → p.Holds (e * (n * (d + 1)) + i * (d + 1)) (d + 1) (ent (Q i) e).coeff)
    (hl : m * m * (N * (d + 1)) ≤ p.len) :
    ∃ p', padM m d n N p = some p' ∧ p'.len = p.len ∧
      ∀ i e, i < N → e < m * m → p'.Holds (e * (N * (d + 1)) + i * (d + 1)) (d + 1)
        (ent (if i < n then Q i else 1) e).coeff := by
  set S := n * (d + 1) with hS
  set S' := N * (d + 1) with hS'
  have hSS : S ≤ S' := Nat.mul_le_mul_right _ hn
  obtain ⟨p1, e1, l1, h1⟩ := padM_move (K := m * m) (S := S) (S' := S') hSS (p := p)
    (x := fun e t => (ent (Q (t / (d + 1))) e).coeff (t % (d + 1)))
    (by
      intro e he t ht
      have hlt : t / (d + 1) < n := Nat.div_lt_of_lt_mul (by rw [mul_comm]; exact ht)
      have := hQ (t / (d + 1)) e hlt he (t % (d + 1)) (Nat.mod_lt _ (by omega))
      rw [← this]; congr 1
      have := Nat.div_add_mod t (d + 1)
      rw [mul_comm] at this
      omega) hl
  have hsum : S + (N - n) * (d + 1) = S' := by rw [← Nat.add_mul]; congr 1; omega
  have := forLoop_inv (n := m * m) (body := fun e p =>
    padLoop d (if e % (m + 1) = 0 then 1 else 0) (N - n) (e * S' + S) p) (s := p1)
    (fun c (p' : Buf ℂ) => p'.len = p.len ∧ (∀ e, e < m * m → p'.Holds (e * S') S
        (fun t => (ent (Q (t / (d + 1))) e).coeff (t % (d + 1)))) ∧
      ∀ e i, e < c → i < N - n → p'.Holds (e * S' + S + i * (d + 1)) (d + 1)
        (C (if e % (m + 1) = 0 then (1 : ℂ) else 0)).coeff) ⟨l1, h1, fun e i h => by omega⟩ ?_
  · obtain ⟨p2, e2, l2, g1, g2⟩ := this
    refine ⟨p2, ?_, l2, ?_⟩
    · unfold padM; rw [e1]; exact e2
    · intro i e hi he t ht
      have q1 : (i * (d + 1) + t) / (d + 1) = i := by
        rw [mul_comm, Nat.mul_add_div (by omega), Nat.div_eq_of_lt ht, Nat.add_zero]
      have q2 : (i * (d + 1) + t) % (d + 1) = t := by
        rw [mul_comm, Nat.mul_add_mod, Nat.mod_eq_of_lt ht]
      by_cases h : i < n
      · have b1 : (i + 1) * (d + 1) ≤ n * (d + 1) := Nat.mul_le_mul_right _ h
        have b2 : (i + 1) * (d + 1) = i * (d + 1) + (d + 1) := by ring
        have := g1 e he (i * (d + 1) + t) (by omega)
        rw [if_pos h, Nat.add_assoc, this]
        simp only [q1, q2]
      · rw [if_neg h, ent_one he]
        have := g2 e (i - n) he (by omega) t ht
        rw [← this]; congr 2
        rw [Nat.add_assoc]; congr 1
        rw [hS, ← Nat.add_mul]; congr 1; omega
  · rintro e p' he ⟨g0, g1, g2⟩
    have b1 : (e + 1) * S' ≤ m * m * S' := Nat.mul_le_mul_right _ he
    have b2 : (e + 1) * S' = e * S' + S' := by ring
    obtain ⟨q, e2, l2, v2, f2⟩ := padLoop_spec d (if e % (m + 1) = 0 then 1 else 0) (N - n) (e * S' + S) p'
      (by omega)
    refine ⟨q, e2, by omega, ?_, ?_⟩
    · intro e' he' t ht
      rw [f2 _ ?_]
      · exact g1 e' he' t ht
      · rcases Nat.lt_or_ge e e' with h | h
        · have : (e + 1) * S' ≤ e' * S' := Nat.mul_le_mul_right _ h
          omega
        · have : e' * S' ≤ e * S' := Nat.mul_le_mul_right _ h
          omega
    · intro e' i he' hi t ht
      rcases Nat.lt_succ_iff_lt_or_eq.mp he' with h | rfl
      · have b3 : (e' + 1) * S' ≤ e * S' := Nat.mul_le_mul_right _ h
        have b4 : (e' + 1) * S' = e' * S' + S' := by ring
        have b5 : (i + 1) * (d + 1) ≤ (N - n) * (d + 1) := Nat.mul_le_mul_right _ hi
        have b6 : (i + 1) * (d + 1) = i * (d + 1) + (d + 1) := by ring
        rw [f2 _ (by omega)]; exact g2 e' i h hi t ht
      · exact v2 i hi t ht

/-- Complete specification of `poly_fmult2x2` / `3x3` in terms of reversed polynomials. -/
theorem poly_fmultM_spec {k : Kind} (hk : KindOK k) (d n : ℕ) (hn : 2 ≤ n) (hn' : n ≤ 2 ^ 63)
    (hsz : 2 * d * n < 3 ^ 32) (p res : Buf ℂ) (L : ℕ) (hL : poly_fmult_numel (k.m * k.m) d n = some L)
    (hlen : L ≤ p.len) (hrlen : L ≤ res.len) {Q : ℕ → PMat k.m} (hQd : ∀ i, i < n → DegLE d (Q i))
    (hQ : ∀ i e, i < n → e < k.m * k.m →
      p.Holds (e * (n * (d + 1)) + i * (d + 1)) (d + 1) (ent (Q i) e).coeff) (normalize : Bool) :
    ∃ r, poly_fmultM k d n p res normalize = some r ∧ r.ret = some SUCCESS ∧ r.deg = n * d ∧
      r.result.len = res.len ∧
      (∀ e, e < k.m * k.m → r.result.Holds (e * (n * d + 1)) (n * d + 1)
        (ent ((2 : ℂ) ^ (-r.W) • prodL n Q) e).coeff) ∧
      (normalize = false → r.W = 0) ∧
      (normalize = true → Unit12 (k.m * k.m) (n * d)
        (fun e => (ent ((2 : ℂ) ^ (-r.W) • prodL n Q) e).coeff)) := by
  obtain ⟨c, hc, hc1, hc2⟩ := nextpow2_spec n (by omega) hn'
  rw [poly_fmult_numel, hc, Option.map_some, Option.some_inj] at hL
  obtain ⟨j, rfl⟩ : ∃ j, c = j + 1 := ⟨c - 1, by
    rcases Nat.eq_zero_or_pos c with rfl | h
    · simp at hc1; omega
    · omega⟩
  set N := 2 ^ (j + 1) with hN
  have h2j : N = 2 * 2 ^ j := by rw [hN]; ring
  have hL' : k.m * k.m * (N * (d + 1)) = L := by rw [← hL]; ring
  have hd2 : d * N ≤ 2 * d * n := by
    calc d * N ≤ d * (2 * n) := Nat.mul_le_mul_left _ hc2.le
      _ = 2 * d * n := by ring
  set Q' : ℕ → PMat k.m := fun i => if i < n then Q i else 1 with hQ'
  -- padding
  obtain ⟨p1, e1, l1, h1⟩ : ∃ p1, padIf k.m d n N p = some p1 ∧ p1.len = p.len ∧
      ∀ i e, i < N → e < k.m * k.m → p1.Holds (e * (N * (d + 1)) + i * (d + 1)) (d + 1) (ent (Q' i) e).coeff := by
    unfold padIf
    by_cases hx : N - n > 0
    · rw [if_pos hx]; exact padM_spec hc1 hQ (by omega)
    · rw [if_neg hx]
      have hnN : n = N := by omega
      refine ⟨p, rfl, rfl, fun i e hi he => ?_⟩
      have := hQ i e (by omega) he
      rw [hnN] at this
      simp only [hQ']
      rw [if_pos (by omega)]; exact this
  have hNn : n + (N - n) = N := by omega
  obtain ⟨lm, hlm, -⟩ := twoPolysLen_spec (d * N / 2)
  obtain ⟨p2, r2, w, e2, l2, l2', h2, w2, u2⟩ := fmultMLoop_spec hk normalize (N * (d + 1)) j N
    (by rw [hN]; exact Nat.lt_two_pow_self.le) d p1 res ⟨Buf.malloc lm, Buf.malloc lm, Buf.malloc lm⟩ 0 none 0 Q'
    (fun i _ => by simp only [hQ']; split_ifs with h <;> [exact hQd i h; exact DegLE.one _])
    h1
    (fun len d' hl hd' => by
      have := twoPolysLen_mono (d' := d * N / 2) (by rw [← hN] at hd'; omega) hl hlm
      simp [this]) (by rw [← hN]; omega)
    (by
      refine le_trans ?_ hrlen
      rw [← hL']; refine Nat.mul_le_mul_left _ ?_
      rw [h2j]; nlinarith [Nat.zero_le (2 ^ j)])
    (by rw [← hN]) (by omega)
  rw [← hN] at e2 h2 u2
  have hprod : prodL N Q' = prodL n Q := by
    rw [← hNn, prodL_add, prodL_congr (Q := Q') (Q' := Q) (fun i hi => by simp only [hQ', if_pos hi]),
      prodL_congr (Q := fun i => Q' (n + i)) (Q' := fun _ => 1) (fun i _ => by
        simp only [hQ']; rw [if_neg (by omega)]), prodL_one, mul_one]
  rw [hprod] at h2 u2
  have hPd : DegLE (d * n) (prodL n Q) := DegLE.prodL hQd
  have hnd : n * d ≤ d * N := by rw [mul_comm n d]; exact Nat.mul_le_mul_left _ hc1
  have hs : d * N - (N - n) * d = n * d := by
    rw [mul_comm d, ← Nat.sub_mul, show N - (N - n) = n by omega]
  have hcap : k.m * k.m * (d * N + 1) ≤ r2.len := by
    rw [l2]; refine le_trans ?_ hrlen
    rw [← hL']; refine Nat.mul_le_mul_left _ ?_
    nlinarith
  have hUnit : normalize = true → Unit12 (k.m * k.m) (n * d)
      (fun e => (ent ((2 : ℂ) ^ (-w) • prodL n Q) e).coeff) := by
    intro hno
    rintro ⟨e, i, he, hi, hne⟩
    obtain ⟨⟨e', i', he', hi', h'⟩, hall⟩ := u2 hno ⟨e, i, he, by omega, hne⟩
    refine ⟨⟨e', i', he', ?_, h'⟩, fun e i he hi => hall e i he (by omega)⟩
    by_contra hcon
    simp only at h'
    rw [coeff_eq_zero_of_natDegree_lt (lt_of_le_of_lt (DegLE.ent (hPd.smul _) e') (by rw [mul_comm d n]; omega)),
      norm_zero] at h'
    norm_num at h'
  obtain ⟨r3, e3, l3, h3⟩ : ∃ r3, truncIf (k.m * k.m) n N (n * d) (d * N + 1) r2 = some r3 ∧
      r3.len = r2.len ∧ ∀ e, e < k.m * k.m → r3.Holds (e * (n * d + 1)) (n * d + 1)
        (ent ((2 : ℂ) ^ (-w) • prodL n Q) e).coeff := by
    unfold truncIf
    by_cases hx : N - n > 0
    · rw [if_pos hx]
      exact trunc_move (by omega) (fun e he t ht => h2 e he t (by omega)) hcap
    · rw [if_neg hx]
      refine ⟨r2, rfl, rfl, ?_⟩
      have : d * N = n * d := by rw [show N = n by omega, mul_comm]
      rw [this] at h2; exact h2
  refine ⟨⟨some SUCCESS, n * d, w, p2, r3⟩, ?_, rfl, rfl, by simp only; omega, h3, w2, hUnit⟩
  have hdeg' : (if N - n > 0 then d * N - (N - n) * d else d * N) = n * d := by
    split_ifs with hx
    · exact hs
    · rw [show N = n by omega, mul_comm]
  unfold poly_fmultM
  simp only [hc, Option.bind_eq_bind, Option.bind_some, e1]
  rw [hNn, hlm]
  simp only [Option.bind_some]
  rw [e2]
  simp only [Option.bind_some, hdeg']
  rw [if_neg (by simp), e3]
  simp

end FNFT

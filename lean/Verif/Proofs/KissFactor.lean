import Verif.Proofs.KissFFT
/-! `kf_factor` and `kiss_fft_next_fast_size`. -/
namespace FNFT
namespace Kiss

/-- Search states of `kf_factor` that can occur with remaining cofactor `n`. -/
def Ph (n p : ℕ) : Prop := p = 4 ∨ (p = 2 ∧ ¬ 4 ∣ n) ∨ (p % 2 = 1 ∧ 3 ≤ p ∧ n % 2 = 1)

/-- What the search for the next radix guarantees. -/
structure NextOK (n p' : ℕ) : Prop where
  dvd : p' ∣ n
  two : 2 ≤ p'
  odd : n % 2 = 1 → 3 ≤ p'
  ph : n / p' > 1 → Ph (n / p') p'
  even : n / p' > 1 → n % 2 = 0 → p' = 4 ∨ (p' = 2 ∧ (n / p') % 2 = 1)

theorem nextOK_self {n : ℕ} (hn : 2 ≤ n) : NextOK n n := by
  have h1 : n / n = 1 := Nat.div_self (by omega)
  exact ⟨dvd_refl n, hn, fun h => by omega, fun h => by omega, fun h => by omega⟩

theorem nextP_self (fs n fuel : ℕ) : nextP fs n (fuel + 1) n = some n := by
  simp [nextP]

theorem nextP_odd {fs n : ℕ} (hn : 2 ≤ n) (hodd : n % 2 = 1) :
    ∀ fuel p, p % 2 = 1 → 3 ≤ p → 2 ≤ fuel → fs + 4 ≤ fuel + p →
      ∃ p', nextP fs n fuel p = some p' ∧ NextOK n p' := by
  intro fuel
  induction fuel with
  | zero => intro p _ _ h; omega
  | succ k ih =>
    intro p hp hp3 hk hfuel
    by_cases hd : n % p = 0
    · refine ⟨p, by simp [nextP, hd], Nat.dvd_of_mod_eq_zero hd, by omega, fun _ => hp3, fun _ => ?_,
        fun _ h => by omega⟩
      refine Or.inr (Or.inr ⟨hp, hp3, ?_⟩)
      have hdvd := Nat.dvd_of_mod_eq_zero hd
      obtain ⟨c, rfl⟩ := hdvd
      rw [Nat.mul_div_cancel_left _ (by omega)]
      by_contra hc
      have : c % 2 = 0 := by omega
      rw [Nat.mul_mod, this] at hodd; simp at hodd
    · have h4 : p ≠ 4 := by rintro rfl; omega
      have h2 : p ≠ 2 := by omega
      by_cases hgt : p + 2 > fs
      · obtain ⟨k', rfl⟩ : ∃ k', k = k' + 1 := ⟨k - 1, by omega⟩
        refine ⟨n, ?_, nextOK_self hn⟩
        rw [nextP, if_pos hd]
        simp only [h4, h2, if_false, hgt, if_true]
        exact nextP_self _ _ _
      · obtain ⟨p', hp', hok⟩ := ih (p + 2) (by omega) (by omega) (by omega) (by omega)
        refine ⟨p', ?_, hok⟩
        rw [nextP, if_pos hd]
        simp only [h4, h2, if_false, hgt]
        exact hp'

theorem nextP_two {fs n : ℕ} (hn : 2 ≤ n) (h4 : ¬ 4 ∣ n) (fuel : ℕ) (hf : fs + 4 ≤ fuel) :
    ∃ p', nextP fs n fuel 2 = some p' ∧ NextOK n p' := by
  obtain ⟨k, rfl⟩ : ∃ k, fuel = k + 1 := ⟨fuel - 1, by omega⟩
  by_cases hd : n % 2 = 0
  · have hq : (n / 2) % 2 = 1 := by
      by_contra hc
      exact h4 (by omega)
    refine ⟨2, by simp [nextP, hd], Nat.dvd_of_mod_eq_zero hd, le_rfl, fun h => by omega,
      fun _ => Or.inr (Or.inl ⟨rfl, ?_⟩), fun _ _ => Or.inr ⟨rfl, hq⟩⟩
    omega
  · by_cases hgt : 3 > fs
    · obtain ⟨k', rfl⟩ : ∃ k', k = k' + 1 := ⟨k - 1, by omega⟩
      refine ⟨n, ?_, nextOK_self hn⟩
      rw [nextP, if_pos hd]
      simp only [show (2:ℕ) ≠ 4 by norm_num, if_false, if_true, hgt]
      exact nextP_self _ _ _
    · obtain ⟨p', hp', hok⟩ := nextP_odd (fs := fs) hn (by omega) k 3 (by norm_num) le_rfl (by omega)
        (by omega)
      refine ⟨p', ?_, hok⟩
      rw [nextP, if_pos hd]
      simp only [show (2:ℕ) ≠ 4 by norm_num, if_false, if_true, hgt]
      exact hp'

theorem nextP_spec {fs n p : ℕ} (hn : 2 ≤ n) (hph : Ph n p) (fuel : ℕ) (hf : fs + 6 ≤ fuel) :
    ∃ p', nextP fs n fuel p = some p' ∧ NextOK n p' := by
  rcases hph with rfl | ⟨rfl, h4⟩ | ⟨h1, h2, h3⟩
  · obtain ⟨k, rfl⟩ : ∃ k, fuel = k + 1 := ⟨fuel - 1, by omega⟩
    by_cases hd : n % 4 = 0
    · exact ⟨4, by simp [nextP, hd], Nat.dvd_of_mod_eq_zero hd, by norm_num, fun h => by omega,
        fun _ => Or.inl rfl, fun _ _ => Or.inl rfl⟩
    · by_cases hgt : 2 > fs
      · obtain ⟨k', rfl⟩ : ∃ k', k = k' + 1 := ⟨k - 1, by omega⟩
        refine ⟨n, ?_, nextOK_self hn⟩
        rw [nextP, if_pos hd]
        simp only [if_true, hgt]
        exact nextP_self _ _ _
      · obtain ⟨p', hp', hok⟩ := nextP_two (fs := fs) hn (by omega) k (by omega)
        refine ⟨p', ?_, hok⟩
        rw [nextP, if_pos hd]
        simp only [if_true, hgt, if_false]
        exact hp'
  · exact nextP_two hn h4 fuel (by omega)
  · exact nextP_odd hn h3 fuel p h1 h2 (by omega) (by omega)

/-- Lower bound on `n` in terms of the number of radices. -/
def Bd (n k : ℕ) : Prop := 2 * 3 ^ (k - 1) ≤ n ∧ (n % 2 = 1 → 3 ^ k ≤ n)

theorem Bd_step {n p' k : ℕ} (h : NextOK n p') (hgt : n / p' > 1) (hk : 1 ≤ k)
    (hb : Bd (n / p') k) : Bd n (k + 1) := by
  have hn : p' * (n / p') = n := Nat.mul_div_cancel' h.dvd
  set m := n / p' with hm
  obtain ⟨j, rfl⟩ : ∃ j, k = j + 1 := ⟨k - 1, by omega⟩
  have h3 : 0 < 3 ^ j := by positivity
  have e : 3 ^ (j + 1) = 3 * 3 ^ j := by ring
  have e2 : 3 ^ (j + 1 + 1) = 9 * 3 ^ j := by ring
  unfold Bd at hb ⊢
  simp only [Nat.add_sub_cancel, e, e2] at hb ⊢
  by_cases hodd : n % 2 = 1
  · have h1 := h.odd hodd
    have hmo : m % 2 = 1 := by
      by_contra hc
      have : m % 2 = 0 := by omega
      rw [← hn, Nat.mul_mod, this] at hodd; simp at hodd
    have h2 := hb.2 hmo
    have : 3 * m ≤ n := by rw [← hn]; exact Nat.mul_le_mul_right _ h1
    constructor
    · omega
    · intro _; omega
  · rcases h.even hgt (by omega) with h4 | ⟨h2, hmo⟩
    · rw [h4] at hn
      constructor
      · have := hb.1; omega
      · intro h; omega
    · rw [h2] at hn
      have := hb.2 hmo
      constructor
      · omega
      · intro h; omega

theorem factorLoop_spec (fs : ℕ) : ∀ (n : ℕ), 2 ≤ n → ∀ (fuel p i : ℕ) (T : Buf ℕ), Ph n p →
    fs + 6 + n ≤ fuel →
    ∃ l : List ℕ, l ≠ [] ∧ l.prod = n ∧ (∀ x ∈ l, 2 ≤ x) ∧ Bd n l.length ∧
      (i + 2 * l.length ≤ T.len → ∃ T', factorLoop fs fuel n p i T = some (some T') ∧
        T'.len = T.len ∧ Tab T' i l ∧ ∀ j, j < i → T'.rd j = T.rd j) ∧
      (T.len < i + 2 * l.length → factorLoop fs fuel n p i T = some none) := by
  intro n
  induction n using Nat.strong_induction_on with
  | _ n ih =>
    intro hn fuel p i T hph hf
    obtain ⟨k, rfl⟩ : ∃ k, fuel = k + 1 := ⟨fuel - 1, by omega⟩
    obtain ⟨p', hp', hok⟩ := nextP_spec (fs := fs) hn hph (k + 1) (by omega)
    have hp'2 := hok.two
    have hmul : p' * (n / p') = n := Nat.mul_div_cancel' hok.dvd
    have hdivlt : n / p' < n := Nat.div_lt_self (by omega) (by omega)
    by_cases hgt : n / p' > 1
    · by_cases hTi : i + 1 < T.len
      · have hw0 : i < T.len := by omega
        obtain ⟨l, hl0, hl1, hl2, hlb, hl3, hl4⟩ := ih (n / p') hdivlt (by omega) k p' (i + 2)
          ((T.set i p').set (i + 1) (n / p')) (hok.ph hgt) (by omega)
        have hstep : factorLoop fs (k + 1) n p i T =
            factorLoop fs k (n / p') p' (i + 2) ((T.set i p').set (i + 1) (n / p')) := by
          rw [factorLoop, hp']
          simp only [Option.bind_eq_bind, Buf.wr_eq _ hw0, Option.bind_some,
            Buf.wr_eq (b := T.set i p') _ (by simpa using hTi), hgt, if_true]
        have hlpos : 1 ≤ l.length := by
          cases l with
          | nil => exact absurd rfl hl0
          | cons a t => simp
        refine ⟨p' :: l, by simp, by simp [hl1, hmul], ?_, ?_, ?_, ?_⟩
        · intro x hx
          simp at hx
          rcases hx with rfl | hx
          · exact hp'2
          · exact hl2 x hx
        · exact Bd_step hok hgt hlpos hlb
        · intro hlen
          simp only [List.length_cons] at hlen
          obtain ⟨T', hT', hTl, hTab, hlow⟩ := hl3 (by simp; omega)
          refine ⟨T', by rw [hstep, hT'], by simpa using hTl, ?_, ?_⟩
          · intro q hq
            rcases q with _ | q
            · constructor
              · rw [hlow _ (by omega), Buf.rd_set _ (by simpa using hTi), Buf.rd_set _ hw0]
                simp
              · rw [hlow _ (by omega), Buf.rd_set _ (by simpa using hTi)]
                simp [hl1]
            · have := hTab q (by simpa using hq)
              simpa [show i + 2 * (q + 1) = i + 2 + 2 * q by ring] using this
          · intro j hj
            rw [hlow j (by omega), Buf.rd_set _ (by simpa using hTi), Buf.rd_set _ hw0,
              if_neg (by omega), if_neg (by omega)]
        · intro hlen
          rw [hstep]
          simp only [List.length_cons] at hlen
          exact hl4 (by simp; omega)
      · -- the table is already full
        have hfail : factorLoop fs (k + 1) n p i T = some none := by
          rw [factorLoop, hp']
          have : (T.wr i p' >>= fun T => T.wr (i + 1) (n / p')) = none := by
            by_cases hi : i < T.len
            · rw [Buf.wr_eq _ hi]
              simp [Buf.wr, hTi]
            · simp [Buf.wr, hi]
          simp only [this]
        -- any admissible list will do; take the one found on a large enough table
        obtain ⟨l, hl0, hl1, hl2, hlb, -, -⟩ := ih (n / p') hdivlt (by omega) (fs + 6 + n) p' 0
          (Buf.malloc 0) (hok.ph hgt) (by omega)
        have hlpos : 1 ≤ l.length := by
          cases l with
          | nil => exact absurd rfl hl0
          | cons a t => simp
        refine ⟨p' :: l, by simp, by simp [hl1, hmul], ?_, Bd_step hok hgt hlpos hlb, ?_, ?_⟩
        · intro x hx
          simp at hx
          rcases hx with rfl | hx
          · exact hp'2
          · exact hl2 x hx
        · intro hlen; simp only [List.length_cons] at hlen; omega
        · intro _; exact hfail
    · have h1 : n / p' = 1 := by
        have : 0 < n / p' := Nat.div_pos (Nat.le_of_dvd (by omega) hok.dvd) (by omega)
        omega
      have hpn : p' = n := by rw [h1] at hmul; omega
      refine ⟨[p'], by simp, by simp [hpn], by simpa using hp'2, ?_, ?_, ?_⟩
      · constructor
        · simp; omega
        · intro h; simp; omega
      · intro hlen
        simp at hlen
        have hw0 : i < T.len := by omega
        have hw1 : i + 1 < T.len := by omega
        refine ⟨(T.set i p').set (i + 1) 1, ?_, by simp, ?_, ?_⟩
        · rw [factorLoop, hp']
          simp only [Option.bind_eq_bind, Buf.wr_eq _ hw0, Option.bind_some,
            Buf.wr_eq (b := T.set i p') _ (by simpa using hw1), h1]
          simp
        · intro q hq
          have : q = 0 := by simpa using hq
          subst this
          constructor
          · rw [Buf.rd_set _ (by simpa using hw1), Buf.rd_set _ hw0]; simp
          · rw [Buf.rd_set _ (by simpa using hw1)]; simp
        · intro j hj
          rw [Buf.rd_set _ (by simpa using hw1), Buf.rd_set _ hw0, if_neg (by omega),
            if_neg (by omega)]
      · intro hlen
        simp at hlen
        rw [factorLoop, hp']
        have : (T.wr i p' >>= fun T => T.wr (i + 1) (n / p')) = none := by
          by_cases hi : i < T.len
          · rw [Buf.wr_eq _ hi]
            simp [Buf.wr, show ¬ (i + 1 < T.len) by omega]
          · simp [Buf.wr, hi]
        simp only [this]

/-- `kf_factor` on lengths below `2·3^32`. -/
theorem factor_spec (n : ℕ) (hn : 1 ≤ n) (hlt : n < 2 * 3 ^ 32) (fuel : ℕ) (hf : 2 * n + 6 ≤ fuel) :
    ∃ T l, factor fuel n = some (some T) ∧ l ≠ [] ∧ l.prod = n ∧ l.length ≤ MAXFACTORS ∧
      (∀ x ∈ l.tail, 2 ≤ x) ∧ (2 ≤ n → ∀ x ∈ l, 2 ≤ x) ∧ Tab T 0 l ∧ T.len = 2 * MAXFACTORS := by
  by_cases h1 : n = 1
  · subst h1
    obtain ⟨k, rfl⟩ : ∃ k, fuel = k + 3 := ⟨fuel - 3, by omega⟩
    refine ⟨(((Buf.malloc (2 * MAXFACTORS)).set 0 1).set 1 1), [1], ?_, by simp, by simp,
      by simp [MAXFACTORS], by simp, by omega, ?_, by simp⟩
    · have h4 : Nat.sqrt 1 = 1 := by norm_num
      rw [factor, h4]
      have : nextP 1 1 (k + 2 + 1) 4 = some 1 := by simp [nextP]
      rw [factorLoop, this]
      simp only [Option.bind_eq_bind]
      rw [Buf.wr_eq _ (by simp [MAXFACTORS]), Option.bind_some, Buf.wr_eq _ (by simp [MAXFACTORS])]
      simp
    · intro i hi
      have : i = 0 := by simpa using hi
      subst this
      constructor
      · rw [Buf.rd_set _ (by simp [MAXFACTORS]), Buf.rd_set _ (by simp [MAXFACTORS])]; simp
      · rw [Buf.rd_set _ (by simp [MAXFACTORS])]; simp
  · obtain ⟨l, hl0, hl1, hl2, hlb, hl3, -⟩ := factorLoop_spec (Nat.sqrt n) n (by omega)
      fuel 4 0 (Buf.malloc (2 * MAXFACTORS)) (Or.inl rfl) (by have := Nat.sqrt_le_self n; omega)
    have hlen : l.length ≤ MAXFACTORS := by
      by_contra hc
      have : 32 ≤ l.length - 1 := by simp [MAXFACTORS] at hc; omega
      have h3 : 3 ^ 32 ≤ 3 ^ (l.length - 1) := Nat.pow_le_pow_right (by norm_num) this
      have := hlb.1
      omega
    obtain ⟨T, hT, hTl, hTab, -⟩ := hl3 (by simp; omega)
    exact ⟨T, l, hT, hl0, hl1, hlen, fun x hx => hl2 x (List.mem_of_mem_tail hx),
      fun _ => hl2, hTab, by simpa using hTl⟩

end Kiss
end FNFT

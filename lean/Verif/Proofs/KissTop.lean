import Verif.Proofs.KissFactor
import Mathlib.Algebra.Ring.GeomSum
/-! Plans, whole transforms, forward/inverse pairs, fast sizes. -/
namespace FNFT
namespace Kiss
open Finset

theorem twiddle_eq (n : ℕ) (inv : Bool) (i : ℕ) : twiddle n inv i = zeta n inv ^ i := by
  rw [zeta_eq, twiddle]
  cases inv
  · have : (sgn false * 2 * Real.pi * i / n : ℝ) = -2 * Real.pi * i / n := by simp [sgn]
    rw [this]; simp
  · have : (sgn true * 2 * Real.pi * i / n : ℝ) = -2 * Real.pi * i / n * (-1) := by
      simp only [sgn, if_true]; ring
    rw [this]; simp

/-- What `kiss_fft_alloc` delivers. -/
structure PlanOK (st : Plan) (n : ℕ) (inv : Bool) : Prop where
  nfft : st.nfft = n
  inv : st.inverse = inv
  tw : TwOK st
  tab : ∃ l, l ≠ [] ∧ l.prod = n ∧ l.length ≤ MAXFACTORS ∧ (∀ x ∈ l.tail, 2 ≤ x) ∧
    Tab st.factors 0 l

theorem alloc_spec (n : ℕ) (inv : Bool) (hn : 1 ≤ n) (hlt : n < 2 * 3 ^ 32) (fuel : ℕ)
    (hf : 2 * n + 6 ≤ fuel) :
    ∃ st, alloc fuel n inv = some (some st) ∧ PlanOK st n inv := by
  obtain ⟨T, l, h1, h2, h3, h4, h5, -, h7, -⟩ := factor_spec n hn hlt fuel hf
  refine ⟨⟨n, inv, T, Buf.ofFn n (twiddle n inv)⟩, by rw [alloc, h1], rfl, rfl, ⟨hn, ?_⟩, l, h2, h3, h4, h5, h7⟩
  intro i hi
  rw [Buf.rd_ofFn hi, twiddle_eq]

theorem fft_spec {st : Plan} {n : ℕ} {inv : Bool} (h : PlanOK st n inv) (fin fout : Buf ℂ)
    (x : ℕ → ℂ) (hin : ∀ j, j < n → fin.rd j = some (x j)) (hout : n ≤ fout.len) :
    ∃ F', fft st fin fout = some F' ∧ F'.len = fout.len ∧
      (∀ k, k < n → F'.rd k = some (∑ j ∈ range n, x j * zeta n inv ^ (j * k))) ∧
      ∀ j, n ≤ j → F'.rd j = fout.rd j := by
  obtain ⟨l, h2, h3, h4, h5, h7⟩ := h.tab
  obtain ⟨F', hw, hl, hv, hr⟩ := work_spec h.tw fin 1 l h5 MAXFACTORS 0 0 1 0 fout x h2 h4 h7
    (by rw [h3, h.nfft, one_mul]) (by rw [h3]; omega) (fun j hj => by
      rw [h3] at hj; simpa using hin j hj)
  rw [h3] at hv hr
  refine ⟨F', hw, hl, fun k hk => ?_, fun j hj => hr j (Or.inr (by omega))⟩
  have := hv k hk
  simpa [h.nfft, h.inv] using this

theorem copyN_spec {α : Type*} {n : ℕ} {src dst : Buf α} {x : ℕ → α}
    (hs : ∀ i, i < n → src.rd i = some (x i)) (hd : n ≤ dst.len) :
    ∃ d, copyN n src dst = some d ∧ d.len = dst.len ∧ (∀ i, i < n → d.rd i = some (x i)) ∧
      ∀ i, n ≤ i → d.rd i = dst.rd i := by
  apply forLoop_inv (fun k (d : Buf α) => d.len = dst.len ∧ (∀ i, i < k → d.rd i = some (x i)) ∧
      ∀ i, k ≤ i → d.rd i = dst.rd i)
  · exact ⟨rfl, fun i h => by omega, fun i _ => rfl⟩
  · rintro i d hi ⟨h1, h2, h3⟩
    refine ⟨d.set i (x i), ?_, by simp [h1], ?_, ?_⟩
    · simp only [hs i hi, Option.bind_eq_bind, Option.bind_some]
      exact Buf.wr_eq _ (by omega)
    · intro j hj
      rw [Buf.rd_set _ (by omega)]
      split_ifs with h
      · rw [h]
      · exact h2 j (by omega)
    · intro j hj
      rw [Buf.rd_set _ (by omega), if_neg (by omega)]
      exact h3 j (by omega)

theorem fftInplace_spec {st : Plan} {n : ℕ} {inv : Bool} (h : PlanOK st n inv) (b : Buf ℂ)
    (x : ℕ → ℂ) (hin : ∀ j, j < n → b.rd j = some (x j)) (hout : n ≤ b.len) :
    ∃ F', fftInplace st b = some F' ∧ F'.len = b.len ∧
      (∀ k, k < n → F'.rd k = some (∑ j ∈ range n, x j * zeta n inv ^ (j * k))) ∧
      ∀ j, n ≤ j → F'.rd j = b.rd j := by
  obtain ⟨T, h1, h2, h3, h4⟩ := fft_spec h b (Buf.malloc st.nfft) x hin (by simp [h.nfft])
  obtain ⟨d, hd, h5, h6, h7⟩ := copyN_spec (dst := b) h3 hout
  refine ⟨d, ?_, h5, h6, h7⟩
  unfold fft at h1
  rw [fftInplace, h1, Option.bind_eq_bind, Option.bind_some, h.nfft, hd]

theorem sgn_not (inv : Bool) : sgn (!inv) = - sgn inv := by cases inv <;> simp [sgn]

theorem zeta_not (n : ℕ) (inv : Bool) : zeta n (!inv) = (zeta n inv)⁻¹ := by
  rw [zeta, zeta, ← Complex.exp_neg, sgn_not]; congr 1; push_cast; ring

theorem zeta_pow_ne_one {n : ℕ} (inv : Bool) {k : ℕ} (h0 : 0 < k) (hk : k < n) :
    zeta n inv ^ k ≠ 1 := by
  have hn : (n : ℂ) ≠ 0 := by
    have : n ≠ 0 := by omega
    exact_mod_cast this
  intro h
  rw [zeta_pow, Complex.exp_eq_one_iff] at h
  obtain ⟨z, hz⟩ := h
  have hpi : (2 * Real.pi * Complex.I : ℂ) ≠ 0 := by
    simp [Real.pi_ne_zero, Complex.I_ne_zero]
  have hz' : (sgn inv : ℂ) * k = z * n := by
    rw [div_eq_iff hn] at hz
    apply mul_right_cancel₀ hpi
    push_cast at hz
    linear_combination hz
  cases inv
  · simp only [sgn] at hz'
    have : (-(k : ℤ)) = z * n := by
      have : ((-(k : ℤ) : ℤ) : ℂ) = ((z * n : ℤ) : ℂ) := by push_cast; simpa using hz'
      exact_mod_cast this
    have hd : (n : ℤ) ∣ k := ⟨-z, by linarith⟩
    have := Nat.le_of_dvd h0 (by exact_mod_cast hd)
    omega
  · simp only [sgn] at hz'
    have : ((k : ℤ)) = z * n := by
      have : (((k : ℤ) : ℤ) : ℂ) = ((z * n : ℤ) : ℂ) := by push_cast; simpa using hz'
      exact_mod_cast this
    have hd : (n : ℤ) ∣ k := ⟨z, by linarith⟩
    have := Nat.le_of_dvd h0 (by exact_mod_cast hd)
    omega

/-- Orthogonality of the characters. -/
theorem zeta_orth {n : ℕ} (inv : Bool) {j l : ℕ} (hj : j < n) (hl : l < n) :
    ∑ k ∈ range n, zeta n inv ^ (j * k) * zeta n (!inv) ^ (k * l) = if j = l then (n : ℂ) else 0 := by
  have e : ∀ k, zeta n inv ^ (j * k) * zeta n (!inv) ^ (k * l) =
      (zeta n inv ^ j * (zeta n inv)⁻¹ ^ l) ^ k := by
    intro k; rw [zeta_not, mul_pow, ← pow_mul, ← pow_mul, mul_comm k l]
  simp only [e]
  have hz := zeta_ne_zero n inv
  split_ifs with h
  · subst h
    rw [← mul_pow, mul_inv_cancel₀ hz]; simp
  · have hne : zeta n inv ^ j * (zeta n inv)⁻¹ ^ l ≠ 1 := by
      rcases Nat.lt_or_gt_of_ne h with h | h
      · obtain ⟨d, rfl⟩ := Nat.exists_eq_add_of_lt h
        have : zeta n inv ^ j * (zeta n inv)⁻¹ ^ (j + d + 1) = (zeta n (!inv)) ^ (d + 1) := by
          rw [zeta_not, add_assoc, pow_add, ← mul_assoc, ← mul_pow, mul_inv_cancel₀ hz]; simp
        rw [this]; exact zeta_pow_ne_one _ (by omega) (by omega)
      · obtain ⟨d, rfl⟩ := Nat.exists_eq_add_of_lt h
        have : zeta n inv ^ (l + d + 1) * (zeta n inv)⁻¹ ^ l = (zeta n inv) ^ (d + 1) := by
          rw [add_assoc, pow_add, mul_right_comm, ← mul_pow, mul_inv_cancel₀ hz]; simp
        rw [this]; exact zeta_pow_ne_one _ (by omega) (by omega)
    have hg := geom_sum_mul (zeta n inv ^ j * (zeta n inv)⁻¹ ^ l) n
    have h1 : (zeta n inv ^ j * (zeta n inv)⁻¹ ^ l) ^ n = 1 := by
      have hp := zeta_pow_self (n := n) (by omega) inv
      rw [mul_pow, ← pow_mul, ← pow_mul, mul_comm j, mul_comm l, pow_mul, pow_mul, inv_pow, hp]; simp
    rw [h1, sub_self] at hg
    exact (mul_eq_zero.mp hg).resolve_right (sub_ne_zero.mpr hne)

theorem dft_inv {n : ℕ} (inv : Bool) (x : ℕ → ℂ) {l : ℕ} (hl : l < n) :
    ∑ k ∈ range n, (∑ j ∈ range n, x j * zeta n inv ^ (j * k)) * zeta n (!inv) ^ (k * l) =
      n * x l := by
  simp only [sum_mul]
  rw [sum_comm]
  have : ∀ j ∈ range n, ∑ k ∈ range n, x j * zeta n inv ^ (j * k) * zeta n (!inv) ^ (k * l) =
      if j = l then n * x l else 0 := by
    intro j hj
    simp only [mul_assoc]
    rw [← mul_sum, zeta_orth inv (mem_range.mp hj) hl]
    split_ifs with h
    · rw [h, mul_comm]
    · simp
  rw [sum_congr rfl this, sum_ite_eq' , if_pos (mem_range.mpr hl)]

/-- Direction argument of `fft_wrapper_create_plan` as a flag. -/
theorem dir_inv {dir : ℤ} (hdir : dir = 1 ∨ dir = -1) :
    ∃ inv : Bool, (sgn inv : ℝ) = dir ∧ decide ((dir + 1) / 2 ≠ 0) = inv := by
  rcases hdir with rfl | rfl
  · exact ⟨true, by simp [sgn], by decide⟩
  · exact ⟨false, by simp [sgn], by decide⟩

theorem mkPlan_spec (n : ℕ) (hn : 1 ≤ n) (hlt : n < 2 * 3 ^ 32) (dir : ℤ) (hdir : dir = 1 ∨ dir = -1) :
    ∃ st inv, mkPlan n dir = some (SUCCESS, some st) ∧ (sgn inv : ℝ) = dir ∧ PlanOK st n inv := by
  obtain ⟨inv, hs, hd⟩ := dir_inv hdir
  obtain ⟨st, h1, h2⟩ := alloc_spec n inv hn hlt (2 * n + 6) le_rfl
  refine ⟨st, inv, ?_, hs, h2⟩
  rw [mkPlan, createPlan, if_neg (by omega), if_neg (by rintro ⟨h, h'⟩; rcases hdir with h1 | h1 <;> contradiction),
      hd, h1]; rfl

theorem mkPlan_fwd (n : ℕ) (hn : 1 ≤ n) (hlt : n < 2 * 3 ^ 32) :
    ∃ st, mkPlan n (-1) = some (SUCCESS, some st) ∧ PlanOK st n false := by
  obtain ⟨st, inv, h1, h2, h3⟩ := mkPlan_spec n hn hlt (-1) (Or.inr rfl)
  cases inv
  · exact ⟨st, h1, h3⟩
  · norm_num [sgn] at h2

theorem mkPlan_inv (n : ℕ) (hn : 1 ≤ n) (hlt : n < 2 * 3 ^ 32) :
    ∃ st, mkPlan n 1 = some (SUCCESS, some st) ∧ PlanOK st n true := by
  obtain ⟨st, inv, h1, h2, h3⟩ := mkPlan_spec n hn hlt 1 (Or.inl rfl)
  cases inv
  · norm_num [sgn] at h2
  · exact ⟨st, h1, h3⟩

/-- Convolution theorem for the unnormalised transforms. -/
theorem dft_conv {n : ℕ} (hn : 0 < n) (x y : ℕ → ℂ) {l : ℕ} (hl : l < n) :
    ∑ k ∈ range n, ((∑ j ∈ range n, x j * zeta n false ^ (j * k)) *
        (∑ j ∈ range n, y j * zeta n false ^ (j * k))) * zeta n true ^ (k * l) =
      n * ∑ j ∈ range n, x j * y ((l + n - j) % n) := by
  have h1 : ∀ k, (∑ j ∈ range n, x j * zeta n false ^ (j * k)) *
        (∑ j ∈ range n, y j * zeta n false ^ (j * k)) =
      ∑ i ∈ range n, (∑ j ∈ range n, x j * y ((i + n - j) % n)) * zeta n false ^ (i * k) := by
    intro k
    simp only [sum_mul]
    rw [sum_comm]
    refine sum_congr rfl fun j hj => ?_
    have hj := mem_range.mp hj
    rw [mul_sum]
    refine sum_bij' (fun i _ => (i + j) % n) (fun i _ => (i + n - j) % n) ?_ ?_ ?_ ?_ ?_
    · intro i _; exact mem_range.mpr (Nat.mod_lt _ hn)
    · intro i _; exact mem_range.mpr (Nat.mod_lt _ hn)
    · intro i hi
      have hi := mem_range.mp hi
      by_cases h : i + j < n
      · rw [Nat.mod_eq_of_lt h, show i + j + n - j = i + n by omega, Nat.add_mod_right,
          Nat.mod_eq_of_lt hi]
      · rw [Nat.mod_eq_sub_mod (show i + j ≥ n by omega), Nat.mod_eq_of_lt (show i + j - n < n by omega),
          show i + j - n + n - j = i by omega, Nat.mod_eq_of_lt hi]
    · intro i hi
      have hi := mem_range.mp hi
      rw [Nat.mod_add_mod, show i + n - j + j = i + n by omega, Nat.add_mod_right, Nat.mod_eq_of_lt hi]
    · intro i hi
      have hi := mem_range.mp hi
      have e1 : ((i + j) % n + n - j) % n = i := by
        by_cases h : i + j < n
        · rw [Nat.mod_eq_of_lt h, show i + j + n - j = i + n by omega, Nat.add_mod_right,
            Nat.mod_eq_of_lt hi]
        · rw [Nat.mod_eq_sub_mod (show i + j ≥ n by omega), Nat.mod_eq_of_lt (show i + j - n < n by omega),
            show i + j - n + n - j = i by omega, Nat.mod_eq_of_lt hi]
      rw [e1]
      have e2 : zeta n false ^ ((i + j) % n * k) = zeta n false ^ (i * k) * zeta n false ^ (j * k) := by
        rw [← pow_add]
        apply zeta_pow_mod hn
        rw [← add_mul, Nat.mul_mod, Nat.mod_mod, ← Nat.mul_mod]
      rw [e2]; ring
  simp only [h1]
  exact dft_inv false (fun i => ∑ j ∈ range n, x j * y ((i + n - j) % n)) hl

/-! ### fast sizes -/

/-- `divOut` divides out all factors `d`. -/
theorem divOut_spec {d : ℕ} (hd : 2 ≤ d) : ∀ (m fuel : ℕ), 1 ≤ m → m ≤ fuel →
    ∃ e r, divOut d fuel m = some r ∧ m = d ^ e * r ∧ ¬ d ∣ r := by
  intro m
  induction m using Nat.strong_induction_on with
  | _ m ih =>
    intro fuel hm hf
    obtain ⟨k, rfl⟩ : ∃ k, fuel = k + 1 := ⟨fuel - 1, by omega⟩
    rw [divOut]
    split_ifs with h
    · have hdvd : d ∣ m := Nat.dvd_of_mod_eq_zero h
      have hlt : m / d < m := Nat.div_lt_self (by omega) (by omega)
      have hpos : 1 ≤ m / d := Nat.div_pos (Nat.le_of_dvd (by omega) hdvd) (by omega)
      obtain ⟨e, r, h1, h2, h3⟩ := ih _ hlt k hpos (by omega)
      refine ⟨e + 1, r, h1, ?_, h3⟩
      rw [pow_succ, mul_right_comm, ← h2, Nat.div_mul_cancel hdvd]
    · exact ⟨0, m, rfl, by simp, fun hc => h (Nat.mod_eq_zero_of_dvd hc)⟩

theorem divOut_zero (d : ℕ) : ∀ fuel, divOut d fuel 0 = none := by
  intro fuel
  induction fuel with
  | zero => rfl
  | succ k ih => simp [divOut, ih]

theorem divOut_mono {d : ℕ} : ∀ {f g m r : ℕ}, f ≤ g → divOut d f m = some r →
    divOut d g m = some r := by
  intro f
  induction f with
  | zero => intro g m r _ h; simp [divOut] at h
  | succ k ih =>
    intro g m r hg h
    obtain ⟨j, rfl⟩ : ∃ j, g = j + 1 := ⟨g - 1, by omega⟩
    rw [divOut] at h ⊢
    split_ifs at h ⊢
    · exact ih (by omega) h
    · exact h

theorem nextFast_mono : ∀ {f g m r : ℕ}, f ≤ g → nextFastSize f m = some r →
    nextFastSize g m = some r := by
  intro f
  induction f with
  | zero => intro g m r _ h; simp [nextFastSize] at h
  | succ k ih =>
    intro g m r hg h
    obtain ⟨j, rfl⟩ : ∃ j, g = j + 1 := ⟨g - 1, by omega⟩
    simp only [nextFastSize, Option.bind_eq_bind, Option.bind_eq_some_iff] at h ⊢
    obtain ⟨a, ha, b, hb, c, hc, h⟩ := h
    refine ⟨a, divOut_mono hg ha, b, divOut_mono hg hb, c, divOut_mono hg hc, ?_⟩
    split_ifs at h ⊢
    · exact h
    · exact ih (by omega) h

/-- Product of powers of 2, 3 and 5. -/
def Smooth (n : ℕ) : Prop := ∃ a b c, n = 2 ^ a * 3 ^ b * 5 ^ c

theorem nextFast_step (n k : ℕ) (hn : 1 ≤ n) (hk : n ≤ k + 1) :
    (Smooth n → nextFastSize (k + 1) n = some n) ∧
    (¬ Smooth n → nextFastSize (k + 1) n = nextFastSize k (n + 1)) := by
  obtain ⟨a, r1, h1, e1, d1⟩ := divOut_spec (d := 2) le_rfl n (k + 1) hn hk
  have hr1 : 1 ≤ r1 ∧ r1 ≤ n := by
    constructor
    · rcases Nat.eq_zero_or_pos r1 with h | h
      · subst h; simp at d1
      · exact h
    · rw [e1]; exact Nat.le_mul_of_pos_left _ (by positivity)
  obtain ⟨b, r2, h2, e2, d2⟩ := divOut_spec (d := 3) (by norm_num) r1 (k + 1) hr1.1 (by omega)
  have hr2 : 1 ≤ r2 ∧ r2 ≤ r1 := by
    constructor
    · rcases Nat.eq_zero_or_pos r2 with h | h
      · subst h; simp at d2
      · exact h
    · rw [e2]; exact Nat.le_mul_of_pos_left _ (by positivity)
  obtain ⟨c, r3, h3, e3, d3⟩ := divOut_spec (d := 5) (by norm_num) r2 (k + 1) hr2.1 (by omega)
  have hsm : Smooth n ↔ r3 ≤ 1 := by
    constructor
    · rintro ⟨a', b', c', hs⟩
      by_contra hc
      have hr3 : r3 ≠ 1 := by omega
      obtain ⟨p, hp, hpd⟩ := Nat.exists_prime_and_dvd hr3
      have hpn : p ∣ n := by rw [e1, e2, e3]; exact Dvd.dvd.mul_left (Dvd.dvd.mul_left (Dvd.dvd.mul_left hpd _) _) _
      rw [hs] at hpn
      rcases (Nat.Prime.dvd_mul hp).mp hpn with h | h
      · rcases (Nat.Prime.dvd_mul hp).mp h with h | h
        · have := (Nat.prime_dvd_prime_iff_eq hp Nat.prime_two).mp (hp.dvd_of_dvd_pow h)
          subst this
          apply d1; rw [e2, e3]; exact Dvd.dvd.mul_left (Dvd.dvd.mul_left hpd _) _
        · have := (Nat.prime_dvd_prime_iff_eq hp Nat.prime_three).mp (hp.dvd_of_dvd_pow h)
          subst this
          apply d2; rw [e3]; exact Dvd.dvd.mul_left hpd _
      · have := (Nat.prime_dvd_prime_iff_eq hp Nat.prime_five).mp (hp.dvd_of_dvd_pow h)
        subst this
        exact d3 hpd
    · intro h
      have h31 : r3 = 1 := by
        rcases Nat.eq_zero_or_pos r3 with h0 | h0
        · subst h0; simp at d3
        · omega
      exact ⟨a, b, c, by rw [e1, e2, e3, h31]; ring⟩
  rw [hsm]
  constructor
  · intro h
    simp only [nextFastSize, h1, h2, h3, Option.bind_eq_bind, Option.bind_some, if_pos h]; rfl
  · intro h
    rw [nextFastSize]
    simp only [h1, h2, h3, Option.bind_eq_bind, Option.bind_some, if_neg h]

theorem nextFast_spec (n r : ℕ) (hn : 1 ≤ n) (hr : n ≤ r) (hs : Smooth r)
    (hmin : ∀ m, n ≤ m → m < r → ¬ Smooth m) : ∀ fuel, r + (r - n) + 1 ≤ fuel →
    nextFastSize fuel n = some r := by
  obtain ⟨d, rfl⟩ := Nat.exists_eq_add_of_le hr
  induction d generalizing n with
  | zero =>
    intro fuel hf
    obtain ⟨k, rfl⟩ : ∃ k, fuel = k + 1 := ⟨fuel - 1, by omega⟩
    exact (nextFast_step n k hn (by omega)).1 hs
  | succ d ih =>
    intro fuel hf
    obtain ⟨k, rfl⟩ : ∃ k, fuel = k + 1 := ⟨fuel - 1, by omega⟩
    rw [(nextFast_step n k hn (by omega)).2 (hmin n le_rfl (by omega))]
    have := ih (n + 1) (by omega) (by omega) (by rw [show n + 1 + d = n + (d + 1) by ring]; exact hs)
      (fun m h1 h2 => hmin m (by omega) (by omega)) k (by omega)
    rw [this]; congr 1; ring

theorem nextLen_spec (n : ℕ) (hn : 1 ≤ n) :
    ∃ r, nextLen n = some r ∧ n ≤ r ∧ r < 2 * n ∧ Smooth r ∧ ∀ m, n ≤ m → Smooth m → r ≤ m := by
  classical
  have hex : ∃ r, n ≤ r ∧ Smooth r := ⟨2 ^ n, Nat.lt_two_pow_self.le, n, 0, 0, by simp⟩
  have hmin : ∀ m, n ≤ m → Smooth m → Nat.find hex ≤ m := fun m h1 h2 => Nat.find_min' hex ⟨h1, h2⟩
  have hlt : Nat.find hex < 2 * n := by
    obtain ⟨k, hk1, hk2⟩ : ∃ k, n ≤ 2 ^ k ∧ 2 ^ k < 2 * n := by
      refine ⟨Nat.clog 2 n, Nat.le_pow_clog (by norm_num) n, ?_⟩
      rcases Nat.lt_or_ge 1 n with h | h
      · have h1 := Nat.pow_pred_clog_lt_self (b := 2) (by norm_num) h
        have h2 : 0 < Nat.clog 2 n := Nat.clog_pos (by norm_num) h
        obtain ⟨c, hc⟩ : ∃ c, Nat.clog 2 n = c + 1 := ⟨_, (Nat.succ_pred_eq_of_pos h2).symm⟩
        rw [hc] at h1 ⊢
        rw [pow_succ]
        simp only [Nat.pred_eq_sub_one, Nat.add_sub_cancel] at h1; omega
      · have : n = 1 := by omega
        subst this; simp
    exact lt_of_le_of_lt (hmin _ hk1 ⟨k, 0, 0, by simp⟩) hk2
  refine ⟨Nat.find hex, nextFast_spec n _ hn (Nat.find_spec hex).1 (Nat.find_spec hex).2 ?_ _ ?_,
    (Nat.find_spec hex).1, hlt, (Nat.find_spec hex).2, hmin⟩
  · intro m h1 h2 h3; exact Nat.find_min hex h2 ⟨h1, h3⟩
  · have := (Nat.find_spec hex).1; omega

end Kiss
end FNFT

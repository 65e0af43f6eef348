import Verif.Proofs.KissTop
/-!
# Properties C07-C10 (FFT wrapper and kiss_fft)
-/
namespace FNFT
open Finset Kiss

/-! ## Specification -/

/-- Product of powers of 2, 3 and 5 only. -/
def Spec.Smooth235 (n : ℕ) : Prop := ∃ a b c, n = 2 ^ a * 3 ^ b * 5 ^ c

/-- Entry `k` of the unnormalised DFT of `x 0, …, x (n-1)`; `s = -1` forward, `s = 1` inverse. -/
noncomputable def Spec.dft (s : ℝ) (n : ℕ) (x : ℕ → ℂ) (k : ℕ) : ℂ :=
  ∑ j ∈ range n, x j * Complex.exp (s * 2 * Real.pi * Complex.I * j * k / n)

theorem Spec.dft_eq (inv : Bool) (n : ℕ) (x : ℕ → ℂ) (k : ℕ) :
    Spec.dft (sgn inv) n x k = ∑ j ∈ range n, x j * zeta n inv ^ (j * k) := by
  refine sum_congr rfl fun j _ => ?_
  rw [zeta_pow]; congr 2; push_cast; ring

/-! ## C07 next fast size -/

/-- `fft_wrapper_next_fft_length(n)`, `n ≥ 1`, returns the smallest 5-smooth number `≥ n`; it is below
`2n`, so buffers at most double. -/
theorem C07_next_fft_length (n : ℕ) (hn : 1 ≤ n) :
    ∃ r, nextLen n = some r ∧ n ≤ r ∧ r < 2 * n ∧ Spec.Smooth235 r ∧
      ∀ m, n ≤ m → Spec.Smooth235 m → r ≤ m := nextLen_spec n hn

/-- The returned length never decreases when the requested length grows. -/
theorem C07_next_fft_length_mono (n n' r r' : ℕ) (hn : 1 ≤ n) (hnn : n ≤ n')
    (h : nextLen n = some r) (h' : nextLen n' = some r') : r ≤ r' := by
  obtain ⟨s, h1, -, -, -, h4⟩ := C07_next_fft_length n hn
  obtain ⟨s', h1', h2', -, h3', -⟩ := C07_next_fft_length n' (by omega)
  rw [h] at h1; rw [h'] at h1'
  cases h1; cases h1'
  exact h4 _ (by omega) h3'

/-- Length 0: the call never returns. -/
theorem C07_zero_diverges (fuel : ℕ) : nextFastSize fuel 0 = none := by
  cases fuel with
  | zero => rfl
  | succ k => simp [nextFastSize, divOut_zero]

example : nextLen 7 = some 8 ∧ nextLen 13 = some 15 := by decide

/-! ## C08 factor table -/

/-- For `1 ≤ n < 2·3^32` the radix table of `MAXFACTORS` pairs is filled without overflow: pair `i` is
(radix, product of the later radices), the radices multiply up to `n` and are at least 2 for `n ≥ 2`.-/
theorem C08_factor_table (n : ℕ) (hn : 1 ≤ n) (hlt : n < 2 * 3 ^ 32) :
    ∃ T l, factor (2 * n + 6) n = some (some T) ∧ T.len = 2 * MAXFACTORS ∧ l ≠ [] ∧ l.prod = n ∧
      l.length ≤ MAXFACTORS ∧ (2 ≤ n → ∀ x ∈ l, 2 ≤ x) ∧
      ∀ i (h : i < l.length), T.rd (2 * i) = some l[i] ∧
        T.rd (2 * i + 1) = some (l.drop (i + 1)).prod := by
  obtain ⟨T, l, h1, h2, h3, h4, -, h6, h7, h8⟩ := factor_spec n hn hlt _ le_rfl
  exact ⟨T, l, h1, h8, h2, h3, h4, h6, fun i hi => by simpa using h7 i hi⟩

/-- The bound is sharp: the plan for `2·3^32` points overruns its factor table. -/
theorem C08_factor_overflow : ∃ fuel, factor fuel (2 * 3 ^ 32) = some none := by
  have h : Nat.sqrt (2 * 3 ^ 32) = 60877256 :=
    (Nat.eq_sqrt.mpr ⟨by norm_num, by norm_num⟩).symm
  refine ⟨40, ?_⟩
  rw [factor, h]
  rfl

example : (1 : ℕ) ≤ 1080 ∧ 1080 < 2 * 3 ^ 32 ∧ ∃ T, factor 40 1080 = some (some T) ∧
    T.rd 0 = some 4 ∧ T.rd 1 = some 270 ∧ T.rd 2 = some 2 := by
  have h : Nat.sqrt 1080 = 32 := (Nat.eq_sqrt.mpr ⟨by norm_num, by norm_num⟩).symm
  refine ⟨by norm_num, by norm_num, ?_⟩
  rw [factor, h]
  exact ⟨_, rfl, rfl, rfl, rfl⟩

/-! ## C09 the FFT computes the DFT -/

/-- A plan for `n` points can be created for every `1 ≤ n < 2·3^32` and both directions; with it, an
out-of-place transform reads `n` initialised inputs and leaves exactly the DFT in the first `n`
outputs, whatever was there before; nothing else changes. -/
theorem C09_fft (n : ℕ) (hn : 1 ≤ n) (hlt : n < 2 * 3 ^ 32) (dir : ℤ) (hdir : dir = 1 ∨ dir = -1) :
    ∃ st, mkPlan n dir = some (SUCCESS, some st) ∧
      ∀ (inp out : Buf ℂ) (x : ℕ → ℂ), inp.Holds 0 n x → n ≤ out.len →
        ∃ out', fft st inp out = some out' ∧ out'.len = out.len ∧
          out'.Holds 0 n (Spec.dft dir n x) ∧ ∀ j, n ≤ j → out'.rd j = out.rd j := by
  obtain ⟨st, inv, h1, hs, h2⟩ := mkPlan_spec n hn hlt dir hdir
  refine ⟨st, h1, ?_⟩
  · intro inp out x hx hl
    obtain ⟨F, h3, h4, h5, h6⟩ := fft_spec h2 inp out x (fun j hj => by simpa using hx j hj) hl
    refine ⟨F, h3, h4, ?_, h6⟩
    intro k hk
    rw [Nat.zero_add, h5 k hk, ← hs, Spec.dft_eq]

/-- The same when input and output are the same array. -/
theorem C09_fft_inplace (n : ℕ) (hn : 1 ≤ n) (hlt : n < 2 * 3 ^ 32) (dir : ℤ)
    (hdir : dir = 1 ∨ dir = -1) :
    ∃ st, mkPlan n dir = some (SUCCESS, some st) ∧
      ∀ (b : Buf ℂ) (x : ℕ → ℂ), b.Holds 0 n x →
        ∃ b', fftInplace st b = some b' ∧ b'.len = b.len ∧
          b'.Holds 0 n (Spec.dft dir n x) ∧ ∀ j, n ≤ j → b'.rd j = b.rd j := by
  obtain ⟨st, inv, h1, hs, h2⟩ := mkPlan_spec n hn hlt dir hdir
  refine ⟨st, h1, ?_⟩
  · intro b x hx
    have hl : n ≤ b.len := by
      have := Buf.rd_lt (hx (n - 1) (by omega)); omega
    obtain ⟨F, h3, h4, h5, h6⟩ := fftInplace_spec h2 b x (fun j hj => by simpa using hx j hj) hl
    refine ⟨F, h3, h4, ?_, h6⟩
    intro k hk
    rw [Nat.zero_add, h5 k hk, ← hs, Spec.dft_eq]

/-- Bad arguments of `fft_wrapper_create_plan`. -/
theorem C09_plan_invalid (n : ℕ) (dir : ℤ) (h : n = 0 ∨ (dir ≠ 1 ∧ dir ≠ -1)) :
    mkPlan n dir = some (EC_INVALID_ARGUMENT, none) := by
  unfold mkPlan createPlan
  split_ifs with h1 h2
  · rfl
  · rfl
  · rcases h with h | h
    · exact absurd h h1
    · exact absurd h h2

example : (1 : ℕ) ≤ 360 ∧ 360 < 2 * 3 ^ 32 ∧ (Buf.ofFn 360 (fun i => (i : ℂ))).Holds 0 360 (fun i => i) :=
  ⟨by norm_num, by norm_num, Buf.holds_ofFn _ _⟩

/-! ## C10 forward and inverse transform -/

/-- A transform followed by the transform in the other direction multiplies the data by `n`. -/
theorem C10_fft_roundtrip (n : ℕ) (hn : 1 ≤ n) (hlt : n < 2 * 3 ^ 32) (dir : ℤ)
    (hdir : dir = 1 ∨ dir = -1) :
    ∃ st1 st2, mkPlan n dir = some (SUCCESS, some st1) ∧
      mkPlan n (-dir) = some (SUCCESS, some st2) ∧
      ∀ (inp mid out : Buf ℂ) (x : ℕ → ℂ), inp.Holds 0 n x → n ≤ mid.len → n ≤ out.len →
        ∃ mid' out', fft st1 inp mid = some mid' ∧ fft st2 mid' out = some out' ∧
          out'.Holds 0 n (fun j => n * x j) := by
  obtain ⟨st1, h1, h2⟩ := C09_fft n hn hlt dir hdir
  obtain ⟨st2, h3, h4⟩ := C09_fft n hn hlt (-dir) (by omega)
  refine ⟨st1, st2, h1, h3, ?_⟩
  intro inp mid out x hx hm ho
  obtain ⟨mid', e1, e2, e3, -⟩ := h2 inp mid x hx hm
  obtain ⟨out', e4, e5, e6, -⟩ := h4 mid' out _ e3 ho
  refine ⟨mid', out', e1, e4, ?_⟩
  intro j hj
  rw [e6 j hj]
  obtain ⟨inv, hs⟩ : ∃ inv : Bool, (sgn inv : ℝ) = dir := by
    rcases hdir with rfl | rfl
    · exact ⟨true, by simp [sgn]⟩
    · exact ⟨false, by simp [sgn]⟩
  have hs' : ((-dir : ℤ) : ℝ) = sgn (!inv) := by rw [sgn_not, hs]; push_cast; rfl
  rw [hs', Spec.dft_eq, ← hs]
  simp only [Spec.dft_eq]
  rw [dft_inv inv x hj]

end FNFT

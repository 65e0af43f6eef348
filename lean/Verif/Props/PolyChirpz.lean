import Verif.Model.PolyChirpz
import Verif.Proofs.KissTop
import Verif.Proofs.PolyEval
/-!
# Property C13 (chirp transform)
-/
namespace FNFT
open Finset Kiss

/-- Bluestein's identity. -/
theorem chirp_identity {W : ℂ} (hW : W ≠ 0) (j k : ℕ) (d : ℂ) (hd : d * d = ((k : ℂ) - j) * (k - j)) :
    W ^ ((1 / 2 : ℂ) * k * k) * (W ^ ((1 / 2 : ℂ) * j * j) * W ^ (-(1 / 2 : ℂ) * d * d)) = W ^ (j * k) := by
  rw [← Complex.cpow_add _ _ hW, ← Complex.cpow_add _ _ hW, ← Complex.cpow_natCast]
  congr 1
  push_cast
  linear_combination -(1/2 : ℂ) * hd

/-- `poly_chirpz` evaluates the polynomial at `z_k = A⁻¹ W^k`, `k = 0,…,M-1`, and touches nothing else
of `result`. -/
theorem C13_chirpz (deg M : ℕ) (p result : Buf ℂ) (c : ℕ → ℂ) (A W : ℂ) (hp : p.Holds 0 (deg + 1) c)
    (hM : 1 ≤ M) (hr : M ≤ result.len) (_hA : A ≠ 0) (hW : W ≠ 0) (hsize : deg + M < 3 ^ 32) :
    ∃ r', poly_chirpz deg (some p) A W M (some result) = some (SUCCESS, some r') ∧
      r'.len = result.len ∧ r'.Holds 0 M (fun k => (Spec.poly deg c).eval (A⁻¹ * W ^ k)) ∧
      ∀ j, M ≤ j → r'.rd j = result.rd j := by
  set N := deg + 1 with hN
  obtain ⟨L, hL, hL1, hL2, -, -⟩ := nextLen_spec (N + M - 1) (by omega)
  obtain ⟨pf, hpf, hpf'⟩ := mkPlan_fwd L (by omega) (by omega)
  obtain ⟨pi, hpi, hpi'⟩ := mkPlan_inv L (by omega) (by omega)
  have hLN : N + M - 1 ≤ L := hL1
  -- y
  obtain ⟨b1, e1, l1, r1⟩ := fill_spec (off := 0) (cnt := N) (b := (Buf.malloc L : Buf ℂ))
    (f := fun n => do
            let c ← p.rd (deg - n)
            return c * A ^ (-1 * (n : ℂ)) * W ^ ((1 / 2 : ℂ) * n * n))
    (fun n => c (deg - n) * A ^ (-1 * (n : ℂ)) * W ^ ((1 / 2 : ℂ) * n * n))
    (fun i _ h2 => by
      have := hp (deg - i) (by omega)
      rw [Nat.zero_add] at this
      simp [this]) (Or.inl (by simp; omega))
  obtain ⟨b2, e2, l2, r2⟩ := fill_spec (off := N) (cnt := L - N) (b := b1) (f := fun _ => some (0:ℂ))
    (fun _ => 0) (fun i _ _ => rfl) (Or.inl (by rw [l1, Buf.malloc_len]; omega))
  set y : ℕ → ℂ := fun n => if n < N then
    c (deg - n) * A ^ (-1 * (n : ℂ)) * W ^ ((1 / 2 : ℂ) * n * n) else 0 with hy
  have hb2 : ∀ j, j < L → b2.rd j = some (y j) := by
    intro j hj
    rw [r2 j, r1 j]
    by_cases h : j < N
    · rw [if_neg (by omega), if_pos (by omega)]; simp [hy, h]
    · rw [if_pos (by omega)]; simp [hy, h]
  obtain ⟨Y, e3, l3, r3, -⟩ := fft_spec hpf' b2 (Buf.malloc L) y hb2 (by simp)
  -- v
  obtain ⟨b4, e4, l4, r4⟩ := fill_spec (off := 0) (cnt := M) (b := b2)
    (f := fun n => some (W ^ (-(1 / 2 : ℂ) * n * n)))
    (fun n => W ^ (-(1 / 2 : ℂ) * n * n)) (fun i _ _ => rfl) (Or.inl (by rw [l2, l1, Buf.malloc_len]; omega))
  obtain ⟨b5, e5, l5, r5⟩ := fill_spec (off := M) (cnt := L - N + 1 - M) (b := b4)
    (f := fun _ => some (0:ℂ))
    (fun _ => 0) (fun i _ _ => rfl) (Or.inl (by rw [l4, l2, l1, Buf.malloc_len]; omega))
  obtain ⟨b6, e6, l6, r6⟩ := fill_spec (off := L - N + 1) (cnt := L - (L - N + 1)) (b := b5)
    (f := fun n => some (W ^ (-(1 / 2 : ℂ) * ((L - n : ℕ) : ℂ) * ((L - n : ℕ) : ℂ))))
    (fun n => W ^ (-(1 / 2 : ℂ) * ((L - n : ℕ) : ℂ) * ((L - n : ℕ) : ℂ))) (fun i _ _ => rfl)
    (Or.inl (by rw [l5, l4, l2, l1, Buf.malloc_len]; omega))
  set v : ℕ → ℂ := fun n => if n < M then W ^ (-(1 / 2 : ℂ) * n * n) else if n < L - N + 1 then 0 else
    W ^ (-(1 / 2 : ℂ) * ((L - n : ℕ) : ℂ) * ((L - n : ℕ) : ℂ)) with hv
  have hb6 : ∀ j, j < L → b6.rd j = some (v j) := by
    intro j hj
    rw [r6 j, r5 j, r4 j]
    simp only [hv]
    by_cases h : j < M
    · rw [if_neg (by omega), if_neg (by omega), if_pos (by omega), if_pos h]
    · by_cases h' : j < L - N + 1
      · rw [if_neg (by omega), if_pos (by omega), if_neg h, if_pos h']
      · rw [if_pos (by omega), if_neg h, if_neg h']
  obtain ⟨V, e7, l7, r7, -⟩ := fft_spec hpf' b6 (Buf.malloc L) v hb6 (by simp)
  -- product
  obtain ⟨b8, e8, l8, r8⟩ := fill_spec (off := 0) (cnt := L) (b := b6)
    (f := fun n => do
            let v ← V.rd n
            let y ← Y.rd n
            return v * y)
    (fun n => (∑ j ∈ range L, v j * zeta L false ^ (j * n)) * (∑ j ∈ range L, y j * zeta L false ^ (j * n)))
    (fun i _ h2 => by
      rw [Nat.zero_add] at h2
      simp [r7 i h2, r3 i h2]) (Or.inl (by rw [l6, l5, l4, l2, l1, Buf.malloc_len]; omega))
  obtain ⟨V2, e9, l9, r9, -⟩ := fft_spec hpi' b8 V _ (fun j hj => by rw [r8 j, if_pos (by omega)])
    (by rw [l7, Buf.malloc_len])
  -- result
  have hLC : (L : ℂ) ≠ 0 := by
    have : L ≠ 0 := by omega
    exact_mod_cast this
  have val : ∀ k, k < M → (W ^ ((1 / 2 : ℂ) * k * k) *
      (∑ j ∈ range L, ((∑ i ∈ range L, v i * zeta L false ^ (i * j)) *
        (∑ i ∈ range L, y i * zeta L false ^ (i * j))) * zeta L true ^ (j * k)) / L) =
      (Spec.poly deg c).eval (A⁻¹ * W ^ k) := by
    intro k hk
    have hc := dft_conv (n := L) (by omega) y v (l := k) (by omega)
    have : ∀ j, (∑ i ∈ range L, v i * zeta L false ^ (i * j)) *
        (∑ i ∈ range L, y i * zeta L false ^ (i * j)) =
        (∑ i ∈ range L, y i * zeta L false ^ (i * j)) * (∑ i ∈ range L, v i * zeta L false ^ (i * j)) :=
      fun j => mul_comm _ _
    simp only [this]
    rw [hc, mul_left_comm, mul_div_cancel_left₀ _ hLC, Spec.poly_eval, ← hN,
      ← sum_range_reflect (fun j => c j * (A⁻¹ * W ^ k) ^ (deg - j)), mul_sum]
    obtain ⟨d, rfl⟩ : ∃ d, L = N + d := ⟨L - N, by omega⟩
    rw [sum_range_add]
    have hz : ∑ x ∈ range d, W ^ ((1 / 2 : ℂ) * k * k) * (y (N + x) * v ((k + (N + d) - (N + x)) % (N + d))) = 0 := by
      refine sum_eq_zero fun x _ => ?_
      simp [hy]
    rw [hz, add_zero]
    refine sum_congr rfl fun j hj => ?_
    have hj := mem_range.mp hj
    have e1 : N - 1 - j = deg - j := by omega
    have e2 : deg - (deg - j) = j := by omega
    rw [e1, e2]
    have hyj : y j = c (deg - j) * A ^ (-1 * (j : ℂ)) * W ^ ((1 / 2 : ℂ) * j * j) := by simp [hy, hj]
    have hA1 : A ^ (-1 * (j : ℂ)) = A⁻¹ ^ j := by
      rw [neg_one_mul, Complex.cpow_neg, Complex.cpow_natCast, inv_pow]
    have key : W ^ ((1 / 2 : ℂ) * k * k) * (W ^ ((1 / 2 : ℂ) * j * j) * v ((k + (N + d) - j) % (N + d))) =
        W ^ (j * k) := by
      by_cases hjk : j ≤ k
      · have e3 : (k + (N + d) - j) % (N + d) = k - j := by
          rw [show k + (N + d) - j = (k - j) + (N + d) by omega, Nat.add_mod_right, Nat.mod_eq_of_lt (by omega)]
        have e4 : v (k - j) = W ^ (-(1 / 2 : ℂ) * ((k - j : ℕ) : ℂ) * ((k - j : ℕ) : ℂ)) := by
          simp only [hv]; rw [if_pos (by omega)]
        rw [e3, e4]
        apply chirp_identity hW
        rw [Nat.cast_sub hjk]
      · have e3 : (k + (N + d) - j) % (N + d) = k + (N + d) - j := Nat.mod_eq_of_lt (by omega)
        have e4 : v (k + (N + d) - j) = W ^ (-(1 / 2 : ℂ) * ((j - k : ℕ) : ℂ) * ((j - k : ℕ) : ℂ)) := by
          simp only [hv]; rw [if_neg (by omega), if_neg (by omega)]
          rw [show N + d - (k + (N + d) - j) = j - k by omega]
        rw [e3, e4]
        apply chirp_identity hW
        rw [Nat.cast_sub (by omega)]; ring
    rw [hyj, hA1, mul_pow, ← pow_mul, mul_comm k j, ← key]
    ring
  obtain ⟨r', e10, l10, r10⟩ := fill_spec (off := 0) (cnt := M) (b := result)
    (f := fun n => do
            let v ← V2.rd n
            return W ^ ((1 / 2 : ℂ) * n * n) * v / L)
    (fun k => (Spec.poly deg c).eval (A⁻¹ * W ^ k))
    (fun i _ h2 => by
      rw [Nat.zero_add] at h2
      have := val i h2
      simp only [r9 i (by omega), Option.bind_eq_bind, Option.bind_some]
      rw [← this]; rfl) (Or.inl (by omega))
  refine ⟨r', ?_, l10, fun i hi => ?_, fun j hj => by rw [r10 j, if_neg (by omega)]⟩
  · unfold poly_chirpz
    have hM0 : M ≠ 0 := by omega
    simp only [if_neg hM0, ← hN, hL, Option.bind_eq_bind, Option.bind_some, hpf, hpi]
    simp only [Option.bind_eq_bind] at e1 e8 e10
    rw [e1, Option.bind_some, e2, Option.bind_some, e3, Option.bind_some, e4, Option.bind_some, e5,
      Option.bind_some, e6, Option.bind_some, e7, Option.bind_some, e8, Option.bind_some, e9,
      Option.bind_some, e10]; rfl
  · rw [Nat.zero_add, r10 i, if_pos (by omega)]

/-- Bad arguments of `poly_chirpz` are rejected, `result` is not touched. -/
theorem C13_chirpz_invalid (deg M : ℕ) (p result : Option (Buf ℂ)) (A W : ℂ)
    (h : p = none ∨ M = 0 ∨ result = none) :
    poly_chirpz deg p A W M result = some (EC_INVALID_ARGUMENT, result) := by
  unfold poly_chirpz
  rcases p with _ | p
  · rfl
  · by_cases hM : M = 0
    · simp [hM]
    · rcases result with _ | r
      · simp
      · simp [hM] at h

example : (Buf.ofFn 4 (fun i => (i : ℂ))).Holds 0 (3 + 1) (fun i => (i : ℂ)) ∧ (3 : ℕ) + 10 < 3 ^ 32 ∧
    10 ≤ (Buf.malloc 10 : Buf ℂ).len := ⟨Buf.holds_ofFn _ _, by norm_num, by simp⟩

end FNFT

import Verif.Model.Resample
import Verif.Proofs.KissTop
/-!
# Execution of `misc_resample`
-/
namespace FNFT
open Finset Kiss

/-- The signed frequency index of bin `i`. -/
def freqIdx (D i : ℕ) : ℤ := if i < D / 2 then i else (i : ℤ) - D

theorem resampleFreq_ok (D : ℕ) (eps_t : ℝ) :
    ∃ b, resampleFreq D eps_t = some b ∧ ∀ j, j < D → b.rd j = some ((freqIdx D j : ℝ) / (D * eps_t)) := by
  obtain ⟨b1, e1, l1, r1⟩ := fill_spec (off := 0) (cnt := D / 2) (b := (Buf.malloc D : Buf ℝ))
    (f := fun i => some ((i : ℝ) / (D * eps_t))) (fun i => (i : ℝ) / (D * eps_t))
    (fun _ _ _ => rfl) (Or.inl (by simp; omega))
  obtain ⟨b2, e2, l2, r2⟩ := fill_spec (off := D / 2) (cnt := D - D / 2) (b := b1)
    (f := fun i => some (((i : ℝ) - D) / (D * eps_t))) (fun i => ((i : ℝ) - D) / (D * eps_t))
    (fun _ _ _ => rfl) (Or.inl (by rw [l1]; simp; omega))
  refine ⟨b2, ?_, ?_⟩
  · unfold resampleFreq
    simp only [e1, Option.bind_eq_bind, Option.bind_some]
    exact e2
  · intro j hj
    rw [r2 j, r1 j, freqIdx]
    by_cases h : j < D / 2
    · rw [if_neg (by omega), if_pos (by omega), if_pos h]; push_cast; rfl
    · rw [if_pos (by omega), if_neg h]; push_cast; rfl

/-- What `misc_resample` writes. -/
noncomputable def resampled (D : ℕ) (eps_t delta : ℝ) (x : ℕ → ℂ) (j : ℕ) : ℂ :=
  (∑ k ∈ range D, (∑ i ∈ range D, x i * zeta D false ^ (i * k)) *
      Complex.exp (2 * Complex.I * Real.pi * delta * (((freqIdx D k : ℝ) / (D * eps_t) : ℝ) : ℂ)) *
      zeta D true ^ (k * j)) / D

theorem misc_resample_ok (D : ℕ) (hD : 3 ≤ D) (hlt : D < 2 * 3 ^ 32) (eps_t delta : ℝ) (he : eps_t ≠ 0)
    (q q_new : Buf ℂ) (x : ℕ → ℂ) (hq : q.Holds 0 D x) (hn : D ≤ q_new.len) :
    ∃ r, misc_resample D eps_t (some q) delta (some q_new) = some (SUCCESS, some r) ∧
      r.len = q_new.len ∧ r.Holds 0 D (resampled D eps_t delta x) ∧
      ∀ j, D ≤ j → r.rd j = q_new.rd j := by
  obtain ⟨pf, hpf, hpf'⟩ := mkPlan_fwd D (by omega) hlt
  obtain ⟨pi, hpi, hpi'⟩ := mkPlan_inv D (by omega) hlt
  obtain ⟨b1, e1, l1, r1⟩ := fill_spec (off := 0) (cnt := D) (b := (Buf.malloc D : Buf ℂ))
    (f := fun i => q.rd i) x (fun i _ h => by simpa using hq i (by omega)) (Or.inl (by simp))
  obtain ⟨Y, e2, l2, r2, -⟩ := fft_spec hpf' b1 (Buf.malloc D) x
    (fun j hj => by rw [r1 j, if_pos (by omega)]) (by simp)
  obtain ⟨F, e3, r3⟩ := resampleFreq_ok D eps_t
  set y : ℕ → ℂ := fun k => (∑ i ∈ range D, x i * zeta D false ^ (i * k)) with hy
  set g : ℕ → ℂ := fun k => y k *
    Complex.exp (2 * Complex.I * Real.pi * delta * (((freqIdx D k : ℝ) / (D * eps_t) : ℝ) : ℂ)) with hg
  have key := forLoop_inv (n := D) (s := Y) (body := fun i (b : Buf ℂ) => (do
              let v ← b.rd i
              let f ← F.rd i
              b.wr i (v * Complex.exp (2 * Complex.I * Real.pi * delta * f))))
    (fun k b => b.len = D ∧ ∀ j, j < D → b.rd j = some (if j < k then g j else y j)) ?_ ?_
  · obtain ⟨Z, e4, l4, r4⟩ := key
    obtain ⟨W, e5, l5, r5, -⟩ := fft_spec hpi' Z b1 g
      (fun j hj => by rw [r4 j hj, if_pos hj]) (by rw [l1]; simp)
    obtain ⟨r, e6, l6, r6⟩ := fill_spec (off := 0) (cnt := D) (b := q_new)
      (f := fun i => do
              let v ← W.rd i
              return v / D) (resampled D eps_t delta x)
      (fun i _ h => by
        rw [r5 i (by omega)]; rfl) (Or.inl (by omega))
    refine ⟨r, ?_, l6, ?_, ?_⟩
    · unfold misc_resample
      simp only [if_neg (show ¬ D ≤ 2 by omega), if_neg he, hpf, hpi, e1, e2, e3,
        Option.bind_eq_bind, Option.bind_some]
      simp only [Option.bind_eq_bind] at e4 e6
      rw [e4, Option.bind_some, e5, Option.bind_some, e6]; rfl
    · intro j hj
      rw [Nat.zero_add, r6 j, if_pos (by omega)]
    · intro j hj
      rw [r6 j, if_neg (by omega)]
  · refine ⟨by rw [l2]; simp, fun j hj => ?_⟩
    rw [if_neg (by omega)]; exact r2 j hj
  · rintro i b hi ⟨hl, hb⟩
    refine ⟨b.set i (g i), ?_, by simp [hl], ?_⟩
    · simp only [hb i hi, r3 i hi, Option.bind_eq_bind, Option.bind_some]
      rw [if_neg (by omega)]
      exact Buf.wr_eq _ (by omega)
    · intro j hj
      rw [Buf.rd_set _ (by omega)]
      split_ifs with h1 h2 h2
      · rw [h1]
      · omega
      · rw [hb j hj, if_pos (by omega)]
      · rw [hb j hj, if_neg (by omega)]

end FNFT

import Verif.Model.Specfact
import Verif.Spec.Specfact
import Verif.Proofs.KissTop
import Verif.Proofs.PolyRev
/-!
# `poly_specfact`
-/
namespace FNFT
open Kiss Complex Finset

/-- The logarithm of the modulus. -/
noncomputable def sfLg (kappa : ℤ) (v : ℂ) : ℝ := Real.log (Spec.sfSq kappa v) / 2

theorem sfLog_ok {kappa : ℤ} (hk : kappa = 0 ∨ kappa = 1 ∨ kappa = -1) {v : ℂ} (hv : 0 < Spec.sfSq kappa v) : sfLog kappa v = some (sfLg kappa v : ℂ) := by
  unfold sfLog sfLg
  unfold Spec.sfSq at hv ⊢
  rcases hk with h | h | h <;> subst h
  · simp only [if_true] at hv ⊢
    have h0 : ‖v‖ ≠ 0 := fun h => by rw [h] at hv; norm_num at hv
    rw [if_neg h0, Real.log_pow]
    congr 1
    rw [← ofReal_log (norm_nonneg _)]
    push_cast
    ring
  · simp only [one_ne_zero, if_false] at hv ⊢
    have e : (1 : ℤ) ≠ -1 := by norm_num
    simp only [e, if_false]
    have h1 : 1 - ((1 : ℤ) : ℝ) * (‖v‖ * ‖v‖) = 1 - ((1 : ℤ) : ℝ) * ‖v‖ ^ 2 := by ring
    rw [h1, if_neg hv.ne', ← ofReal_log hv.le]
    push_cast
    congr 1
    norm_num
    ring
  · have e : (-1 : ℤ) ≠ 0 := by norm_num
    simp only [e, if_false, if_true] at hv ⊢
    have h1 : 1 + ‖v‖ * ‖v‖ = 1 - ((-1 : ℤ) : ℝ) * ‖v‖ ^ 2 := by push_cast; ring
    rw [h1, ← ofReal_log hv.le]
    push_cast
    congr 1
    norm_num
    ring

/-- The discrete Hilbert transform. -/
noncomputable def sfY (N : ℕ) (x : ℕ → ℂ) (i : ℕ) : ℂ :=
  ∑ k ∈ range N, (∑ j ∈ range N, x j * zeta N false ^ (j * k)) * sfHilbert N k * zeta N true ^ (k * i)

/-- All coefficients of the spectral factor (before conjugation). -/
noncomputable def sfC (N : ℕ) (x : ℕ → ℂ) (k : ℕ) : ℂ :=
  ∑ i ∈ range N, exp (x i - I * sfY N x i) / N * zeta N true ^ (i * k)

theorem sfMain_ok {deg N : ℕ} {poly result : Buf ℂ} {p : ℕ → ℂ} {kappa : ℤ} (hk : kappa = 0 ∨ kappa = 1 ∨ kappa = -1) (hp : poly.Holds 0 (deg + 1) p)
    (hN : deg + 1 ≤ N) (hres : deg + 1 ≤ result.len) {pf pi : Plan} (hpf : PlanOK pf N false) (hpi : PlanOK pi N true) {v : ℕ → ℂ}
    (hv : ∀ i, i < N → ∑ j ∈ range (deg + 1), p j * zeta N false ^ (j * i) = v i) (hpos : ∀ i, i < N → 0 < Spec.sfSq kappa (v i)) :
    ∃ r, sfMain deg poly kappa N pf pi result = some r ∧ r.len = result.len ∧
      ∀ j, r.rd j = if j ≤ deg then some ((starRingEnd ℂ) (sfC N (fun i => (sfLg kappa (v i) : ℂ)) (deg - j))) else result.rd j := by
  set x : ℕ → ℂ := fun i => (sfLg kappa (v i) : ℂ) with hx
  obtain ⟨b1, a1, a2, a3⟩ := fill_spec (off := 0) (cnt := deg + 1) (b := (Buf.malloc N : Buf ℂ)) (f := fun i => poly.rd i) p
    (fun i _ h => by simpa using hp i (by omega)) (Or.inl (by simp; omega))
  obtain ⟨b2, c1, c2, c3⟩ := fill_spec (off := deg + 1) (cnt := N - (deg + 1)) (b := b1) (f := fun _ => some 0) (fun _ => (0 : ℂ)) (fun _ _ _ => rfl)
    (Or.inl (by rw [a2]; simp; omega))
  have l2 : b2.len = N := by rw [c2, a2]; simp
  obtain ⟨o1, d1, d2, d3, -⟩ := fft_spec hpf b2 (Buf.malloc N) (fun j => if j < deg + 1 then p j else 0) (by
    intro j hj
    rw [c3 j, a3 j]
    by_cases h : j < deg + 1
    · rw [if_neg (by omega), if_pos (by omega), if_pos h]
    · rw [if_pos (by omega), if_neg h]) (by simp)
  have d4 : ∀ i, i < N → o1.rd i = some (v i) := by
    intro i hi
    rw [d3 i hi, ← hv i hi]
    congr 1
    have : ∀ j, (if j < deg + 1 then p j else 0) * zeta N false ^ (j * i) = if j < deg + 1 then p j * zeta N false ^ (j * i) else 0 := by
      intro j; split <;> simp
    simp only [this]
    rw [← Finset.sum_filter]
    refine Finset.sum_congr ?_ fun _ _ => rfl
    ext j
    simp only [mem_filter, mem_range]
    omega
  obtain ⟨bx, e1, e2, e3⟩ := fill_spec (off := 0) (cnt := N) (b := (Buf.malloc N : Buf ℂ)) (f := fun i => do
    let v ← o1.rd i
    sfLog kappa v) x (by
      intro i _ hi
      rw [d4 i (by omega)]
      exact sfLog_ok hk (hpos i (by omega))) (Or.inl (by simp))
  have hbx : ∀ i, i < N → bx.rd i = some (x i) := fun i hi => by rw [e3 i, if_pos (by omega)]
  obtain ⟨b3, f1, f2, f3, -⟩ := fft_spec hpf bx b2 x hbx (by omega)
  obtain ⟨b4, g1, g2, g3⟩ := forLoop_inv (n := N) (s := b3) (body := fun i (b : Buf ℂ) => do
      let v ← b.rd i
      b.wr i (v * sfHilbert N i))
    (fun i (b : Buf ℂ) => b.len = b3.len ∧ ∀ k, k < N → b.rd k = some (if k < i then (∑ j ∈ range N, x j * zeta N false ^ (j * k)) * sfHilbert N k
      else ∑ j ∈ range N, x j * zeta N false ^ (j * k)))
    ⟨rfl, fun k hk => by rw [f3 k hk, if_neg (by omega)]⟩ (by
      rintro i b hi ⟨g1, g2⟩
      have r := g2 i hi
      rw [if_neg (lt_irrefl _)] at r
      simp only [r, Option.bind_eq_bind, Option.bind_some]
      obtain ⟨c, w1, w2, w3, w4⟩ := Buf.wr_spec ((∑ j ∈ range N, x j * zeta N false ^ (j * i)) * sfHilbert N i) (show i < b.len by omega)
      refine ⟨c, w1, by omega, fun j hj => ?_⟩
      by_cases hji : j = i
      · rw [hji, w3, if_pos (by omega)]
      · rw [w4 j hji, g2 j hj]
        by_cases h : j < i
        · rw [if_pos h, if_pos (by omega)]
        · rw [if_neg h, if_neg (by omega)])
  obtain ⟨o2, h1, h2, h3, -⟩ := fft_spec hpi b4 o1 (fun k => (∑ j ∈ range N, x j * zeta N false ^ (j * k)) * sfHilbert N k)
    (fun k hk => by rw [g3 k hk, if_pos hk]) (by rw [d2]; simp)
  obtain ⟨b5, i1, i2, i3⟩ := fill_spec (off := 0) (cnt := N) (b := b4) (f := fun i => do
    let x ← bx.rd i
    let y ← o2.rd i
    return exp (x - I * y) / N) (fun i => exp (x i - I * sfY N x i) / N) (by
      intro i _ hi
      rw [hbx i (by omega), h3 i (by omega)]
      rfl) (Or.inl (by omega))
  obtain ⟨o3, j1, j2, j3, -⟩ := fft_spec hpi b5 o2 (fun i => exp (x i - I * sfY N x i) / N)
    (fun k hk => by rw [i3 k, if_pos (by omega)]) (by rw [h2, d2]; simp)
  obtain ⟨r, k1, k2, k3⟩ := fill_spec (off := 0) (cnt := deg + 1) (b := result) (f := fun i => do
    let v ← o3.rd (deg - i)
    return (starRingEnd ℂ) v) (fun j => (starRingEnd ℂ) (sfC N x (deg - j))) (by
      intro i _ hi
      rw [j3 (deg - i) (by omega)]
      rfl) (Or.inl (by omega))
  refine ⟨r, ?_, k2, ?_⟩
  · unfold sfMain
    rw [a1]
    simp only [Option.bind_eq_bind] at e1 g1 i1 k1 ⊢
    simp only [Option.bind_some, c1, d1]
    rw [e1]
    simp only [Option.bind_some, f1]
    rw [g1]
    simp only [Option.bind_some, h1]
    rw [i1]
    simp only [Option.bind_some, j1]
    exact k1
  · intro j
    rw [k3 j]
    by_cases h : j ≤ deg
    · rw [if_pos (by omega), if_pos h]
    · rw [if_neg (by omega), if_neg h]

end FNFT

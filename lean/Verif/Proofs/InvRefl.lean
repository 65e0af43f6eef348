import Verif.Proofs.InvMixed
import Verif.Props.Finv
/-!
# The transfer matrix for a reflection coefficient
-/
namespace FNFT
open Kiss Complex Finset

theorem zetaF (M : ℕ) : zeta M false = (exp (2 * Real.pi * I / M))⁻¹ := by
  rw [← exp_neg]
  unfold zeta sgn
  congr 1
  push_cast
  simp
  try ring

/-- Both phase factors are `-2 T1`. -/
theorem invPhase_ok {eps T0 T1 : ℝ} {D : ℕ} {o : InvOpts} (he : eps * ((D : ℝ) - 1) = T1 - T0) (hd : o.disc = .D2SPLIT2A ∨ o.disc = .D2SPLIT2_MODAL)
    (hc : o.cs = .REFLECTION_COEFFICIENT ∨ o.cs = .B_OF_XI) : invPhase eps D T0 T1 o = some (.ok (-2 * T1)) := by
  unfold invPhase
  rcases hc with h | h <;> rcases hd with h' | h' <;> rw [h, h'] <;>
    simp [nse_phase_factor_rho, nse_phase_factor_b, nse_boundary_coeff, nse_to_akns, akns_boundary_coeff, nse_degree, akns_degree, SUCCESS] <;> linarith

/-- The values after the boundary conditions have been removed. -/
noncomputable def invVal (XI0 XI1 : ℝ) (M : ℕ) (phase : ℝ) (cf : ℕ → ℂ) (i : ℕ) : ℂ := cf i * exp (-I * (invXi XI0 XI1 M i : ℂ) * phase)

theorem invReorder_ok {M : ℕ} {cs : Buf ℂ} {cf : ℕ → ℂ} {XI0 XI1 phase : ℝ} (hc : cs.Holds 0 M cf) (hM : 2 ≤ M) (hev : M % 2 = 0) :
    ∃ cs' ro, invReorder M cs XI0 XI1 phase = some (cs', ro) ∧ cs'.len = cs.len ∧ cs'.Holds 0 M (invVal XI0 XI1 M phase cf) ∧
      ro.Holds 0 M (fun i => invVal XI0 XI1 M phase cf ((i + (M / 2 - 1)) % M)) := by
  set v := invVal XI0 XI1 M phase cf with hv
  have hlen : M ≤ cs.len := by
    have := Buf.rd_lt (hc (M - 1) (by omega))
    omega
  obtain ⟨c1, a1, a2, a3⟩ := forLoop_inv (n := M) (s := cs) (body := fun i (b : Buf ℂ) => do
      let v ← b.rd i
      b.wr i (v * exp (-I * ((XI0 + i * ((XI1 - XI0) / ((M : ℝ) - 1)) : ℝ) : ℂ) * phase)))
    (fun i (b : Buf ℂ) => b.len = cs.len ∧ ∀ j, j < M → b.rd j = some (if j < i then v j else cf j))
    ⟨rfl, fun j hj => by have := hc j hj; rw [Nat.zero_add] at this; simpa using this⟩ (by
      rintro i b hi ⟨g1, g2⟩
      have r := g2 i hi
      rw [if_neg (lt_irrefl _)] at r
      simp only [r, Option.bind_eq_bind, Option.bind_some]
      obtain ⟨c, w1, w2, w3, w4⟩ := Buf.wr_spec (cf i * exp (-I * ((XI0 + i * ((XI1 - XI0) / ((M : ℝ) - 1)) : ℝ) : ℂ) * phase)) (show i < b.len by omega)
      refine ⟨c, w1, by omega, fun j hj => ?_⟩
      by_cases hji : j = i
      · rw [hji, w3, if_pos (by omega)]; rfl
      · rw [w4 j hji, g2 j hj]
        by_cases h : j < i
        · rw [if_pos h, if_pos (by omega)]
        · rw [if_neg h, if_neg (by omega)])
  have hc1 : c1.Holds 0 M v := fun j hj => by rw [Nat.zero_add, a3 j hj, if_pos hj]
  obtain ⟨r1, b1, b2, b3⟩ := fill_spec (off := 0) (cnt := M / 2 + 1) (b := (Buf.malloc M : Buf ℂ)) (f := fun i => c1.rd (i + (M / 2 - 1)))
    (fun i => v ((i + (M / 2 - 1)) % M)) (by
      intro i _ hi
      have := a3 (i + (M / 2 - 1)) (by omega)
      rw [if_pos (by omega)] at this
      rw [this, Nat.mod_eq_of_lt (by omega)]) (Or.inl (by simp; omega))
  obtain ⟨r2, d1, d2, d3⟩ := fill_spec (off := M / 2 + 1) (cnt := M - (M / 2 + 1)) (b := r1) (f := fun i => c1.rd (i - (M / 2 + 1)))
    (fun i => v ((i + (M / 2 - 1)) % M)) (by
      intro i h1 hi
      have := a3 (i - (M / 2 + 1)) (by omega)
      rw [if_pos (by omega)] at this
      rw [this]
      congr 2
      rw [show i + (M / 2 - 1) = i - (M / 2 + 1) + M by omega, Nat.add_mod_right, Nat.mod_eq_of_lt (by omega)]) (Or.inl (by rw [b2]; simp; omega))
  refine ⟨c1, r2, ?_, a2, hc1, ?_⟩
  · unfold invReorder
    dsimp only
    simp only [Option.bind_eq_bind] at a1 ⊢
    rw [a1]
    simp only [Option.bind_some]
    rw [b1]
    simp only [Option.bind_some]
    rw [d1]
    rfl
  · intro i hi
    rw [Nat.zero_add, d3 i]
    by_cases h : M / 2 + 1 ≤ i
    · rw [if_pos (by omega)]
    · rw [if_neg (by omega), b3 i, if_pos (by omega)]

/-- The points of the unit circle that belong to the frequencies of the grid. -/
def GridOK (XI0 XI1 eps : ℝ) (M : ℕ) : Prop :=
  ∀ j, j < M → exp (2 * I * (invXi XI0 XI1 M j : ℂ) * eps) = -exp (2 * Real.pi * I / M) ^ (j + 1)

theorem wpow {M : ℕ} (hM : 1 ≤ M) : exp (2 * Real.pi * I / M) ^ M = 1 := by
  rw [← exp_nat_mul, mul_div_cancel₀ _ (by exact_mod_cast (by omega : M ≠ 0)), exp_two_pi_mul_I]

theorem whalf {M : ℕ} (hM : 2 ≤ M) (hev : M % 2 = 0) : exp (2 * Real.pi * I / M) ^ (M / 2) = -1 := by
  obtain ⟨m, rfl⟩ : ∃ m, M = 2 * m := ⟨M / 2, by omega⟩
  have hm : (m : ℂ) ≠ 0 := by exact_mod_cast (by omega : m ≠ 0)
  rw [← exp_nat_mul, show 2 * m / 2 = m by omega, ← exp_pi_mul_I]
  congr 1
  push_cast
  field_simp

/-- The reordered values are those of the interpolating polynomial at the powers of `exp(2 pi i/M)`. -/
theorem grid_eval {M : ℕ} (hM : 2 ≤ M) (hev : M % 2 = 0) {XI0 XI1 eps : ℝ} (hg : GridOK XI0 XI1 eps M) {P : Polynomial ℂ} {v : ℕ → ℂ}
    (hP : ∀ j, j < M → P.eval (exp (2 * I * (invXi XI0 XI1 M j : ℂ) * eps)) = v j) (i : ℕ) :
    v ((i + (M / 2 - 1)) % M) = P.eval (exp (2 * Real.pi * I / M) ^ i) := by
  rw [← hP _ (Nat.mod_lt _ (by omega)), hg _ (Nat.mod_lt _ (by omega)), ← neg_one_mul, ← whalf hM hev, ← pow_add]
  congr 1
  have key : ∀ n, exp (2 * Real.pi * I / M) ^ (n % M) = exp (2 * Real.pi * I / M) ^ n := by
    intro n
    conv_rhs => rw [← Nat.div_add_mod n M, pow_add, pow_mul, wpow (by omega), one_pow, one_mul]
  rw [show M / 2 + ((i + (M / 2 - 1)) % M + 1) = (M / 2 + 1) + (i + (M / 2 - 1)) % M by ring, pow_add, key, ← pow_add,
    show M / 2 + 1 + (i + (M / 2 - 1)) = i + M by omega, pow_add, wpow (by omega), mul_one]

theorem eval_lt {P : Polynomial ℂ} {M : ℕ} (hP : P.degree < M) (z : ℂ) : P.eval z = ∑ m ∈ range M, P.coeff m * z ^ m := by
  by_cases h : P = 0
  · simp [h]
  · exact Polynomial.eval_eq_sum_range' ((Polynomial.natDegree_lt_iff_degree_lt h).mpr hP) z

/-- Interpolation: the coefficients by a Fourier transform. -/
theorem interp_coeff {M : ℕ} {P : Polynomial ℂ} (hP : P.degree < M) {k : ℕ} (hk : k < M) :
    ∑ j ∈ range M, P.eval (exp (2 * Real.pi * I / M) ^ j) * zeta M false ^ (j * k) = M * P.coeff k := by
  have hz : zeta M true = exp (2 * Real.pi * I / M) := by
    have := zeta_not M false
    rw [Bool.not_false, zetaF, inv_inv] at this
    exact this
  rw [← dft_inv true P.coeff hk]
  refine Finset.sum_congr rfl fun j _ => ?_
  rw [eval_lt hP, hz]
  simp only [Bool.not_true]
  congr 1
  refine Finset.sum_congr rfl fun m _ => ?_
  rw [← pow_mul, mul_comm j m]

theorem invCoeffs_ok {M D : ℕ} {cs : Buf ℂ} {cf : ℕ → ℂ} {XI0 XI1 eps T0 T1 : ℝ} {o : InvOpts} (hc : cs.Holds 0 M cf) (hM : 2 ≤ M) (hlt : M < 2 * 3 ^ 32)
    (hev : M % 2 = 0) (he : eps = (T1 - T0) / ((D : ℝ) - 1)) (hD : 2 ≤ D) (hd : o.disc = .D2SPLIT2A ∨ o.disc = .D2SPLIT2_MODAL)
    (hcs : o.cs = .REFLECTION_COEFFICIENT ∨ o.cs = .B_OF_XI) (hg : GridOK XI0 XI1 eps M) {P : Polynomial ℂ} (hP : P.degree < M)
    (hPv : ∀ j, j < M → P.eval (exp (2 * I * (invXi XI0 XI1 M j : ℂ) * eps)) = invVal XI0 XI1 M (-2 * T1) cf j) :
    ∃ cs' b, invCoeffs M cs XI0 XI1 D T0 T1 o = some (.ok (cs', b)) ∧ cs'.len = cs.len ∧ cs'.Holds 0 M (invVal XI0 XI1 M (-2 * T1) cf) ∧
      b.Holds 0 M (fun k => M * P.coeff k) := by
  obtain ⟨cs', ro, a1, a2, a3, a4⟩ := invReorder_ok (XI0 := XI0) (XI1 := XI1) (phase := -2 * T1) hc hM hev
  obtain ⟨pf, p1, p2⟩ := mkPlan_fwd M (by omega) hlt
  obtain ⟨b, f1, f2, f3, -⟩ := fft_spec p2 ro (Buf.malloc M) _ (fun j hj => by have := a4 j hj; rwa [Nat.zero_add] at this) (by simp)
  refine ⟨cs', b, ?_, a2, a3, ?_⟩
  · unfold invCoeffs invRemove
    rw [← he, invPhase_ok (by
      rw [he]
      have : (D : ℝ) - 1 ≠ 0 := by
        have : (2 : ℝ) ≤ D := by exact_mod_cast hD
        linarith
      field_simp) hd hcs]
    simp only [Option.bind_eq_bind, Option.bind_some, a1, Option.pure_def, p1, f1]
  · intro k hk
    dsimp only
    rw [Nat.zero_add, f3 k hk, ← interp_coeff hP hk]
    congr 1
    refine Finset.sum_congr rfl fun j _ => ?_
    rw [grid_eval hM hev hg hPv]

/-- The entry (1,2) of the transfer matrix (it is not used by the inverse scattering). -/
noncomputable def invRow (M D : ℕ) (kappa : ℤ) (P : Polynomial ℂ) (i : ℕ) : ℂ :=
  if i < invI0 D M then 0 else -(kappa : ℂ) * (starRingEnd ℂ) (P.coeff (M - 1 + i - D))

theorem invFillB_ok {M D : ℕ} {b tm : Buf ℂ} {P : Polynomial ℂ} {kappa : ℤ} (hM : 2 ≤ M) (hDM : D ≤ M) (hb : b.Holds 0 M (fun k => M * P.coeff k))
    (hP : P.degree < M) (htm : tm.len = 4 * (D + 1)) :
    ∃ tm', invFillB M D b kappa tm = some tm' ∧ tm'.len = tm.len ∧ ∀ j, tm'.rd j =
      if D + 1 ≤ j ∧ j < 2 * (D + 1) then some (invRow M D kappa P (j - (D + 1)))
      else if 2 * (D + 1) ≤ j ∧ j < 3 * (D + 1) then some (P.coeff (D - (j - 2 * (D + 1)))) else tm.rd j := by
  have hMc : (M : ℂ) ≠ 0 := by exact_mod_cast (by omega : M ≠ 0)
  have hi0 : invI0 D M ≤ 1 ∧ D + 1 - invI0 D M ≤ M ∧ (invI0 D M = 0 → D < M) ∧ (invI0 D M = 1 → D = M) := by
    unfold invI0; split <;> omega
  obtain ⟨i1, i2, i3, i4⟩ := hi0
  set i0 := invI0 D M with hi0
  obtain ⟨t1, a1, a2, a3⟩ := fill_spec (off := D + 1) (cnt := i0) (b := tm) (f := fun _ => some 0) (fun _ => (0 : ℂ)) (fun _ _ _ => rfl) (Or.inl (by omega))
  obtain ⟨t2, b1, b2, b3⟩ := fill_spec (off := 2 * (D + 1)) (cnt := i0) (b := t1) (f := fun _ => some 0) (fun _ => (0 : ℂ)) (fun _ _ _ => rfl) (Or.inl (by omega))
  obtain ⟨t3, c1, c2, c3⟩ := fill_spec (off := D + 1 + i0) (cnt := D + 1 - i0) (b := t2) (f := fun j => do
    let v ← b.rd (M - 1 + (j - (D + 1)) - D)
    return -(kappa : ℂ) * (starRingEnd ℂ) (v / M)) (fun j => invRow M D kappa P (j - (D + 1))) (by
      intro j h1 h2
      have r := hb (M - 1 + (j - (D + 1)) - D) (by omega)
      rw [Nat.zero_add] at r
      rw [r]
      simp only [Option.bind_eq_bind, Option.bind_some]
      unfold invRow
      rw [if_neg (by omega), mul_div_cancel_left₀ _ hMc]
      rfl) (Or.inl (by omega))
  obtain ⟨t4, d1, d2, d3⟩ := fill_spec (off := 2 * (D + 1) + i0) (cnt := D + 1 - i0) (b := t3) (f := fun j => do
    let v ← b.rd (D - (j - 2 * (D + 1)))
    return v / M) (fun j => P.coeff (D - (j - 2 * (D + 1)))) (by
      intro j h1 h2
      have r := hb (D - (j - 2 * (D + 1))) (by omega)
      rw [Nat.zero_add] at r
      rw [r]
      simp only [Option.bind_eq_bind, Option.bind_some]
      rw [mul_div_cancel_left₀ _ hMc]
      rfl) (Or.inl (by omega))
  refine ⟨t4, ?_, by omega, ?_⟩
  · unfold invFillB
    dsimp only
    rw [← hi0, a1]
    simp only [Option.bind_eq_bind] at c1 d1 ⊢
    simp only [Option.bind_some, b1, c1, d1]
  · intro j
    rw [d3 j, c3 j, b3 j, a3 j]
    by_cases h1 : D + 1 ≤ j ∧ j < 2 * (D + 1)
    · rw [if_pos h1, if_neg (by omega)]
      by_cases h : D + 1 + i0 ≤ j
      · rw [if_pos (by omega)]
      · rw [if_neg (by omega), if_neg (by omega), if_pos (by omega)]
        unfold invRow
        rw [if_pos (by omega)]
    · rw [if_neg h1]
      by_cases h2 : 2 * (D + 1) ≤ j ∧ j < 3 * (D + 1)
      · rw [if_pos h2]
        by_cases h : 2 * (D + 1) + i0 ≤ j
        · rw [if_pos (by omega)]
        · rw [if_neg (by omega), if_neg (by omega), if_pos (by omega)]
          rw [Polynomial.coeff_eq_zero_of_degree_lt (lt_of_lt_of_le hP (by exact_mod_cast (by omega : M ≤ D - (j - 2 * (D + 1)))))]
      · rw [if_neg h2, if_neg (by omega), if_neg (by omega), if_neg (by omega), if_neg (by omega)]

theorem invTfRefl_ok {M D : ℕ} {cs tm : Buf ℂ} {cf : ℕ → ℂ} {XI0 XI1 eps T0 T1 : ℝ} {kappa : ℤ} {o : InvOpts} (hc : cs.Holds 0 M cf) (hM : 2 ≤ M)
    (hlt : M < 2 * 3 ^ 32) (hev : M % 2 = 0) (he : eps = (T1 - T0) / ((D : ℝ) - 1)) (hD : 2 ≤ D) (hDM : D ≤ M)
    (hd : o.disc = .D2SPLIT2A ∨ o.disc = .D2SPLIT2_MODAL)
    (hcs : o.cs = .REFLECTION_COEFFICIENT ∨ o.cs = .B_OF_XI) (hg : GridOK XI0 XI1 eps M) {P : Polynomial ℂ} (hP : P.degree < M)
    (hPv : ∀ j, j < M → P.eval (exp (2 * I * (invXi XI0 XI1 M j : ℂ) * eps)) = invVal XI0 XI1 M (-2 * T1) cf j) (htm : tm.len = 4 * (D + 1)) :
    ∃ cs' tm' x, invTfRefl M cs XI0 XI1 D T0 T1 D tm kappa o = some ⟨SUCCESS, cs', tm'⟩ ∧ cs'.len = cs.len ∧ cs'.Holds 0 M (invVal XI0 XI1 M (-2 * T1) cf) ∧
      tm'.Holds 0 (4 * (D + 1)) x ∧ (∀ j, j ≤ D → x j = if j = D then 1 else 0) ∧ ∀ j, j ≤ D → x (2 * (D + 1) + j) = P.coeff (D - j) := by
  obtain ⟨cs', b, a1, a2, a3, a4⟩ := invCoeffs_ok hc hM hlt hev he hD hd hcs hg hP hPv
  obtain ⟨t1, b1, b2, b3⟩ := fill_spec (off := 0) (cnt := D + 1) (b := tm) (f := fun _ => some 0) (fun _ => (0 : ℂ)) (fun _ _ _ => rfl) (Or.inl (by omega))
  obtain ⟨t2, c1, c2, c3⟩ := fill_spec (off := 3 * (D + 1)) (cnt := D + 1) (b := t1) (f := fun _ => some 0) (fun _ => (0 : ℂ)) (fun _ _ _ => rfl) (Or.inl (by omega))
  obtain ⟨t3, d1, d2, d3⟩ := invFillB_ok (kappa := kappa) (tm := t2) hM hDM a4 hP (by omega)
  obtain ⟨t4, e1, e2, e3, e4⟩ := Buf.wr_spec (b := t3) (1 : ℂ) (show D < t3.len by omega)
  obtain ⟨t5, f1, f2, f3, f4⟩ := Buf.wr_spec (b := t4) (1 : ℂ) (show 3 * (D + 1) < t4.len by omega)
  refine ⟨cs', t5, fun j => if j ≤ D then (if j = D then 1 else 0) else if j < 2 * (D + 1) then invRow M D kappa P (j - (D + 1))
    else if j < 3 * (D + 1) then P.coeff (D - (j - 2 * (D + 1))) else if j = 3 * (D + 1) then 1 else 0, ?_, a2, a3, ?_, ?_, ?_⟩
  · unfold invTfRefl
    simp only [a1, b1, c1, d1, e1, f1, Option.bind_eq_bind, Option.bind_some]
    rfl
  · intro j hj
    rw [Nat.zero_add]
    dsimp only
    by_cases h3 : j = 3 * (D + 1)
    · rw [h3, f3, if_neg (by omega), if_neg (by omega), if_neg (by omega), if_pos rfl]
    rw [f4 j h3]
    by_cases hD' : j = D
    · rw [hD', e3, if_pos le_rfl, if_pos rfl]
    rw [e4 j hD', d3 j, c3 j, b3 j]
    by_cases k1 : j ≤ D
    · rw [if_neg (by omega), if_neg (by omega), if_neg (by omega), if_pos (by omega), if_pos k1, if_neg hD']
    by_cases k2 : j < 2 * (D + 1)
    · rw [if_pos (by omega), if_neg k1, if_pos k2]
    by_cases k3 : j < 3 * (D + 1)
    · rw [if_neg (by omega), if_pos (by omega), if_neg k1, if_neg k2, if_pos k3]
    · rw [if_neg (by omega), if_neg (by omega), if_pos (by omega), if_neg k1, if_neg k2, if_neg k3, if_neg h3]
  · intro j hj
    dsimp only
    rw [if_pos hj]
  · intro j hj
    dsimp only
    rw [if_neg (by omega), if_neg (by omega), if_pos (by omega)]
    congr 1
    omega

end FNFT

import Verif.Proofs.InvB
/-!
# C71: `fnft_nsev_inverse` for `b(xi)` and `B(tau)` without bound states
-/
namespace FNFT
open Complex
open Spec

/-- `A` is the polynomial of which `poly_specfact` returns the coefficients for the polynomial of degree at most `deg` with the coefficients of `B` (see C66). -/
def Spec.SpecFactor (deg over : ℕ) (kappa : ℤ) (B A : Polynomial ℂ) : Prop :=
  A.natDegree ≤ deg ∧ ∀ pb rb : Buf ℂ, pb.Holds 0 (deg + 1) (fun j => B.coeff (deg - j)) → deg + 1 ≤ rb.len →
    ∃ r, poly_specfact deg (some pb) (some rb) over kappa = some (SUCCESS, some r) ∧ r.Holds 0 (deg + 1) (fun j => A.coeff (deg - j))

theorem poly_rev {deg : ℕ} {B : Polynomial ℂ} (hB : B.natDegree ≤ deg) : Spec.poly deg (fun j => B.coeff (deg - j)) = B := by
  ext m
  rw [Spec.poly_coeff]
  by_cases h : m ≤ deg
  · rw [if_pos h, show deg - (deg - m) = m by omega]
  · rw [if_neg h, Polynomial.coeff_eq_zero_of_natDegree_lt (by omega)]

/-- C71: the spectral factor exists and is unique. -/
theorem specFactor_exists {deg over : ℕ} (hdeg : 1 ≤ deg) (hover : 1 ≤ over) (hsz : (deg + 1) * over ≤ 3 ^ 32) {kappa : ℤ} (hkap : kappa = 1 ∨ kappa = -1)
    {B : Polynomial ℂ} (hB : B.natDegree ≤ deg) (hpos : ∀ z : ℂ, ‖z‖ = 1 → 0 < 1 - kappa * ‖B.eval z‖ ^ 2) :
    ∃ A, SpecFactor deg over kappa B A ∧ ∀ pb rb : Buf ℂ, pb.Holds 0 (deg + 1) (fun j => B.coeff (deg - j)) → deg + 1 ≤ rb.len →
      ∃ r, poly_specfact deg (some pb) (some rb) over kappa = some (SUCCESS, some r) ∧ r.len = rb.len ∧
        ∀ j, r.rd j = if j ≤ deg then some (A.coeff (deg - j)) else rb.rd j := by
  have hk0 : kappa ≠ 0 := by rcases hkap with h | h <;> omega
  obtain ⟨N, F, -, -, -, -, h, -⟩ := C66_specfact deg over hdeg hover hsz kappa (by tauto) (fun j => B.coeff (deg - j)) (fun z hz => by
    rw [poly_rev hB, Spec.sfSq, if_neg hk0]; exact hpos z hz)
  have hA : ∀ j, j ≤ deg → (Spec.poly deg (fun j => F.coeff (deg - j))).coeff (deg - j) = F.coeff (deg - j) := by
    intro j hj
    rw [Spec.poly_coeff, if_pos (by omega), show deg - (deg - (deg - j)) = deg - j by omega]
  have hdegA : (Spec.poly deg (fun j => F.coeff (deg - j))).natDegree ≤ deg := by
    rw [Polynomial.natDegree_le_iff_coeff_eq_zero]
    intro m hm
    rw [Spec.poly_coeff, if_neg (by omega)]
  have key : ∀ pb rb : Buf ℂ, pb.Holds 0 (deg + 1) (fun j => B.coeff (deg - j)) → deg + 1 ≤ rb.len →
      ∃ r, poly_specfact deg (some pb) (some rb) over kappa = some (SUCCESS, some r) ∧ r.len = rb.len ∧
        ∀ j, r.rd j = if j ≤ deg then some ((Spec.poly deg (fun j => F.coeff (deg - j))).coeff (deg - j)) else rb.rd j := by
    intro pb rb hp hr
    obtain ⟨r, r1, r2, r3⟩ := h pb rb hp hr
    refine ⟨r, r1, r2, fun j => ?_⟩
    rw [r3 j]
    by_cases hj : j ≤ deg
    · rw [if_pos hj, if_pos hj, hA j hj]
    · rw [if_neg hj, if_neg hj]
  refine ⟨_, ⟨hdegA, ?_⟩, key⟩
  intro pb rb hp hr
  obtain ⟨r, r1, r2, r3⟩ := key pb rb hp hr
  exact ⟨r, r1, fun j hj => by rw [Nat.zero_add, r3 j, if_pos (by omega)]⟩

variable {k M : ℕ} {cs q : Buf ℂ} {cf : ℕ → ℂ} {T0 T1 eps : ℝ} {o : InvOpts}

theorem invTfB_ok {M D : ℕ} {cs : Buf ℂ} {cf : ℕ → ℂ} {XI0 XI1 eps T0 T1 : ℝ} {kappa : ℤ} {o : InvOpts} (hc : cs.Holds 0 M cf) (hM : 2 ≤ M)
    (hlt : M < 2 * 3 ^ 32) (hev : M % 2 = 0) (he : eps = (T1 - T0) / ((D : ℝ) - 1)) (hD : 2 ≤ D) (hDM : D ≤ M)
    (hd : o.disc = .D2SPLIT2A ∨ o.disc = .D2SPLIT2_MODAL)
    (hcs : o.cs = .B_OF_XI) (hg : GridOK XI0 XI1 eps M) {P : Polynomial ℂ} (hP : P.degree < M)
    (hPv : ∀ j, j < M → P.eval (exp (2 * I * (invXi XI0 XI1 M j : ℂ) * eps)) = invVal XI0 XI1 M (-2 * T1) cf j) {A B : Polynomial ℂ}
    (hB : ∀ m, B.coeff m = if m ≤ D then P.coeff m else 0)
    (hA2 : ∀ pb rb : Buf ℂ, pb.Holds 0 (D + 1) (fun j => B.coeff (D - j)) → D + 1 ≤ rb.len →
      ∃ r, poly_specfact D (some pb) (some rb) o.over kappa = some (SUCCESS, some r) ∧ r.len = rb.len ∧
        ∀ j, r.rd j = if j ≤ D then some (A.coeff (D - j)) else rb.rd j) :
    ∃ cs' tm' x, invTfB M cs XI0 XI1 D T0 T1 D (Buf.malloc (4 * (D + 1))) kappa o = some ⟨SUCCESS, cs', tm'⟩ ∧ cs'.len = cs.len ∧
      cs'.Holds 0 M (invVal XI0 XI1 M (-2 * T1) cf) ∧
      tm'.Holds 0 (4 * (D + 1)) x ∧ (∀ m, m ≤ D → x (D - m) = A.coeff m) ∧ ∀ m, m ≤ D → x (2 * (D + 1) + (D - m)) = B.coeff m := by
  obtain ⟨cs', b, a1, a2, a3, a4⟩ := invCoeffs_ok (XI0 := XI0) (XI1 := XI1) hc hM hlt hev he hD hd (Or.inr hcs) hg hP hPv
  obtain ⟨t1, b1, b2, b3⟩ := invFillB_ok (kappa := kappa) (D := D) (tm := Buf.malloc (4 * (D + 1))) hM hDM a4 hP (by simp)
  have hl : t1.len = 4 * (D + 1) := by rw [b2]; simp
  obtain ⟨r, r1, r2, r3⟩ := hA2 (t1.view (2 * (D + 1))) t1 (by
    intro j hj
    rw [rd_view, Nat.zero_add, b3, if_neg (by omega), if_pos (by omega)]
    dsimp only
    rw [hB, if_pos (by omega), show D - (2 * (D + 1) + j - 2 * (D + 1)) = D - j by omega]) (by omega)
  obtain ⟨t2, c1, c2, c3⟩ := fill_spec (off := 3 * (D + 1)) (cnt := D + 1) (b := r) (f := fun j => r.rd (D - (j - 3 * (D + 1))))
    (fun j => A.coeff (D - (D - (j - 3 * (D + 1))))) (fun i _ _ => by rw [r3, if_pos (by omega)]) (Or.inl (by omega))
  refine ⟨cs', t2, fun j => if j ≤ D then A.coeff (D - j) else if j < 2 * (D + 1) then invRow M D kappa P (j - (D + 1))
    else if j < 3 * (D + 1) then P.coeff (D - (j - 2 * (D + 1))) else A.coeff (D - (D - (j - 3 * (D + 1)))), ?_, a2, a3, ?_, ?_, ?_⟩
  · unfold invTfB
    simp only [a1, b1, r1, Option.bind_eq_bind, Option.bind_some]
    rw [if_neg (by simp)]
    simp only [c1, Option.bind_some]
    rfl
  · intro j hj
    rw [Nat.zero_add, c3 j, r3 j, b3 j]
    dsimp only
    by_cases k1 : j ≤ D
    · rw [if_neg (by omega), if_pos k1, if_pos k1]
    by_cases k2 : j < 2 * (D + 1)
    · rw [if_neg (by omega), if_neg k1, if_pos (by omega), if_neg k1, if_pos k2]
    by_cases k3 : j < 3 * (D + 1)
    · rw [if_neg (by omega), if_neg k1, if_neg (by omega), if_pos (by omega), if_neg k1, if_neg k2, if_pos k3]
    · rw [if_pos (by omega), if_neg k1, if_neg k2, if_neg k3]
  · intro m hm
    dsimp only
    rw [if_pos (by omega), show D - (D - m) = m by omega]
  · intro m hm
    dsimp only
    rw [if_neg (by omega), if_neg (by omega), if_pos (by omega), hB, if_pos hm]
    congr 1
    omega

/-- C71: `B_OF_XI`. Let `P` be the polynomial of degree less than `M` with the values `b(ξ_j) exp(2 i ξ_j T1)` at the points `z_j = exp(2 i ξ_j ε)`, let `B` be the polynomial with its first
`D+1` coefficients, and assume that `1 - kappa |B|²` is positive on the unit circle. Then with the spectral factor `A` of `B` that `poly_specfact` returns, if `A(0) ≠ 0`, the call
returns the signal of the layered medium with `b/a = B/A` up to terms of order `z^D`, see `InvFrom`. The array with `b` is overwritten. -/
theorem C71_b_of_xi (h : InvCall k M cs q cf T0 T1 eps o) (hc : o.cs = .B_OF_XI) (hlt : M < 2 * 3 ^ 32) (hover : 1 ≤ o.over) (hsz : (2 ^ k + 1) * o.over ≤ 3 ^ 32)
    (XI : ℝ × ℝ) (hXI : ∃ Y, fnft_nsev_inverse_XI (2 ^ k) (some (T0, T1)) M (some Y) o.disc = some (SUCCESS, some XI)) (P : Polynomial ℂ) (hP : Interpolates M XI eps T1 cf P)
    (B : Polynomial ℂ) (hB : ∀ m, B.coeff m = if m ≤ 2 ^ k then P.coeff m else 0) (kappa : ℤ) (hkap : kappa = 1 ∨ kappa = -1)
    (hpos : ∀ z : ℂ, ‖z‖ = 1 → 0 < 1 - kappa * ‖B.eval z‖ ^ 2) :
    ∃ A, SpecFactor (2 ^ k) o.over kappa B A ∧ (A.coeff 0 ≠ 0 →
      InvFrom k M cs q (some XI) T0 T1 eps kappa o A B fun cs' => cs'.len = cs.len ∧
        cs'.Holds 0 M (fun j => cf j * exp (2 * I * ((XI.1 + j * ((XI.2 - XI.1) / ((M : ℝ) - 1)) : ℝ) : ℂ) * T1))) := by
  obtain ⟨h2, hM⟩ := InvCall_two h
  have hg := InvCall_grid h hXI
  have hval : ∀ j, invVal XI.1 XI.2 M (-2 * T1) cf j = cf j * exp (2 * I * ((XI.1 + j * ((XI.2 - XI.1) / ((M : ℝ) - 1)) : ℝ) : ℂ) * T1) := by
    intro j
    unfold invVal invXi
    congr 2
    push_cast
    ring
  have hBd : B.natDegree ≤ 2 ^ k := by
    rw [Polynomial.natDegree_le_iff_coeff_eq_zero]
    intro m hm
    rw [hB, if_neg (by omega)]
  obtain ⟨A, hA, hA2⟩ := specFactor_exists (by omega) hover hsz hkap hBd hpos
  refine ⟨A, hA, fun hA0 => ?_⟩
  obtain ⟨cs', tm, x, a1, a2, a3, a4, a5, a6⟩ := invTfB_ok (XI0 := XI.1) (XI1 := XI.2) (kappa := kappa) (D := 2 ^ k) h.hcs hM hlt h.hev h.he h2 h.hDM h.hd hc hg hP.1
    (fun j hj => by rw [hval]; exact hP.2 j hj) hB hA2
  have htr : invTransfer M cs XI 0 (Buf.malloc 0) (2 ^ k) T0 T1 (2 ^ k) kappa o = some ⟨SUCCESS, cs', tm⟩ := by
    unfold invTransfer
    rw [hc]
    simp only [a1, Option.bind_eq_bind, Option.bind_some]
    rfl
  exact inv_from (XI := some XI) h (Or.inl (by simp)) hkap htr a4 hA0 a5 a6 ⟨a2, fun j hj => by rw [a3 j hj, hval]⟩

/-- The transfer matrix from `a_coeffs` and `b_coeffs`. -/
theorem invFillAB_ok {D : ℕ} (hD : 2 ≤ D) {a b tm : Buf ℂ} {A B : Polynomial ℂ} {kappa : ℤ} (ha : a.Holds 0 D (fun j => A.coeff (D - 1 - j)))
    (hb : b.Holds 0 D (fun j => B.coeff (D - 1 - j))) (hA : A.coeff D = 0) (hB : B.coeff D = 0) (htm : tm.len = 4 * (D + 1)) :
    ∃ tm' x, invFillAB D a b kappa tm = some tm' ∧ tm'.Holds 0 (4 * (D + 1)) x ∧ (∀ m, m ≤ D → x (D - m) = A.coeff m) ∧
      ∀ m, m ≤ D → x (2 * (D + 1) + (D - m)) = B.coeff m := by
  have ha' : ∀ j, j < D → a.rd j = some (A.coeff (D - 1 - j)) := fun j hj => by have := ha j hj; rwa [Nat.zero_add] at this
  have hb' : ∀ j, j < D → b.rd j = some (B.coeff (D - 1 - j)) := fun j hj => by have := hb j hj; rwa [Nat.zero_add] at this
  obtain ⟨t1, a1, a2, a3⟩ := fill_spec (off := 1) (cnt := D) (b := tm) (f := fun j => a.rd (j - 1)) (fun j => A.coeff (D - 1 - (j - 1)))
    (fun i _ _ => ha' _ (by omega)) (Or.inl (by omega))
  obtain ⟨t2, b1, b2, b3⟩ := fill_spec (off := D + 1) (cnt := D) (b := t1) (f := fun j => do
    let v ← b.rd (D - 1 - (j - (D + 1)))
    return -(kappa : ℂ) * (starRingEnd ℂ) v) (fun j => -(kappa : ℂ) * (starRingEnd ℂ) (B.coeff (D - 1 - (D - 1 - (j - (D + 1))))))
    (fun i _ _ => by simp only [hb' _ (show D - 1 - (i - (D + 1)) < D by omega)]; rfl) (Or.inl (by omega))
  obtain ⟨t3, c1, c2, c3⟩ := fill_spec (off := 2 * (D + 1) + 1) (cnt := D) (b := t2) (f := fun j => b.rd (j - (2 * (D + 1) + 1)))
    (fun j => B.coeff (D - 1 - (j - (2 * (D + 1) + 1)))) (fun i _ _ => hb' _ (by omega)) (Or.inl (by omega))
  obtain ⟨t4, d1, d2, d3⟩ := fill_spec (off := 3 * (D + 1)) (cnt := D) (b := t3) (f := fun j => a.rd (D - 1 - (j - 3 * (D + 1))))
    (fun j => A.coeff (D - 1 - (D - 1 - (j - 3 * (D + 1))))) (fun i _ _ => ha' _ (by omega)) (Or.inl (by omega))
  obtain ⟨t5, e1, e2, e3, e4⟩ := Buf.wr_spec (b := t4) (0 : ℂ) (show 0 < t4.len by omega)
  obtain ⟨t6, f1, f2, f3, f4⟩ := Buf.wr_spec (b := t5) (0 : ℂ) (show 2 * (D + 1) - 1 < t5.len by omega)
  obtain ⟨t7, g1, g2, g3, g4⟩ := Buf.wr_spec (b := t6) (0 : ℂ) (show 2 * (D + 1) < t6.len by omega)
  obtain ⟨t8, h1, h2, h3, h4⟩ := Buf.wr_spec (b := t7) (0 : ℂ) (show 4 * (D + 1) - 1 < t7.len by omega)
  refine ⟨t8, fun j => if j = 0 ∨ j = 2 * (D + 1) - 1 ∨ j = 2 * (D + 1) ∨ j = 4 * (D + 1) - 1 then 0
    else if j ≤ D then A.coeff (D - 1 - (j - 1)) else if j < 2 * (D + 1) then -(kappa : ℂ) * (starRingEnd ℂ) (B.coeff (D - 1 - (D - 1 - (j - (D + 1)))))
    else if j < 3 * (D + 1) then B.coeff (D - 1 - (j - (2 * (D + 1) + 1))) else A.coeff (D - 1 - (D - 1 - (j - 3 * (D + 1)))), ?_, ?_, ?_, ?_⟩
  · unfold invFillAB
    simp only [Option.bind_eq_bind] at b1
    simp only [a1, b1, c1, d1, e1, f1, g1, h1, Option.bind_eq_bind, Option.bind_some]
  · intro j hj
    rw [Nat.zero_add]
    dsimp only
    by_cases k4 : j = 4 * (D + 1) - 1
    · rw [k4, h3, if_pos (by omega)]
    rw [h4 j k4]
    by_cases k3 : j = 2 * (D + 1)
    · rw [k3, g3, if_pos (by omega)]
    rw [g4 j k3]
    by_cases k2 : j = 2 * (D + 1) - 1
    · rw [k2, f3, if_pos (by omega)]
    rw [f4 j k2]
    by_cases k1 : j = 0
    · rw [k1, e3, if_pos (by omega)]
    rw [e4 j k1, d3, c3, b3, a3, if_neg (by omega : ¬ (j = 0 ∨ _))]
    by_cases m1 : j ≤ D
    · rw [if_neg (by omega), if_neg (by omega), if_neg (by omega), if_pos (by omega), if_pos m1]
    by_cases m2 : j < 2 * (D + 1)
    · rw [if_neg (by omega), if_neg (by omega), if_pos (by omega), if_neg m1, if_pos m2]
    by_cases m3 : j < 3 * (D + 1)
    · rw [if_neg (by omega), if_pos (by omega), if_neg m1, if_neg m2, if_pos m3]
    · rw [if_pos (by omega), if_neg m1, if_neg m2, if_neg m3]
  · intro m hm
    dsimp only
    by_cases h0 : m = D
    · rw [if_pos (by omega), h0, hA]
    · rw [if_neg (by omega), if_pos (by omega)]
      congr 1
      omega
  · intro m hm
    dsimp only
    by_cases h0 : m = D
    · rw [if_pos (by omega), h0, hB]
    · rw [if_neg (by omega), if_neg (by omega), if_neg (by omega), if_pos (by omega)]
      congr 1
      omega

theorem invTfTau_ok {D : ℕ} {cs : Buf ℂ} {cf : ℕ → ℂ} {eps T0 T1 : ℝ} {kappa : ℤ} {o : InvOpts} (hc : cs.Holds 0 D cf) (hT : T0 = -T1)
    (he : eps = (T1 - T0) / ((D : ℝ) - 1)) (hD : 2 ≤ D) (hd : o.disc = .D2SPLIT2A ∨ o.disc = .D2SPLIT2_MODAL) (hm : o.meth = .DEFAULT)
    {A B : Polynomial ℂ} (hB : ∀ m, B.coeff m = if m < D then 2 * eps * (if m = 0 ∨ m = D - 1 then 1 / 2 else 1) * cf (D - 1 - m) else 0) (hA : A.natDegree ≤ D - 1)
    (hA2 : ∀ pb rb : Buf ℂ, pb.Holds 0 (D - 1 + 1) (fun j => B.coeff (D - 1 - j)) → D - 1 + 1 ≤ rb.len →
      ∃ r, poly_specfact (D - 1) (some pb) (some rb) o.over kappa = some (SUCCESS, some r) ∧ r.len = rb.len ∧
        ∀ j, r.rd j = if j ≤ D - 1 then some (A.coeff (D - 1 - j)) else rb.rd j) :
    ∃ tm' x, invTfTau D cs D T0 T1 (Buf.malloc (4 * (D + 1))) kappa o = some ⟨SUCCESS, cs, tm'⟩ ∧
      tm'.Holds 0 (4 * (D + 1)) x ∧ (∀ m, m ≤ D → x (D - m) = A.coeff m) ∧ ∀ m, m ≤ D → x (2 * (D + 1) + (D - m)) = B.coeff m := by
  have hdeg : nse_degree o.disc = 1 := by rcases hd with h | h <;> rw [h] <;> decide
  obtain ⟨b1, a1, a2, a3⟩ := fill_spec (off := 0) (cnt := D) (b := (Buf.malloc D : Buf ℂ)) (f := fun i => do
      let v ← cs.rd i
      return 2 * ((eps : ℝ) : ℂ) * v / (((nse_degree o.disc : ℕ) : ℝ) : ℂ)) (fun i => 2 * eps * cf i) (fun i _ hi => by
    have := hc i (by omega)
    rw [Nat.zero_add] at this
    rw [this, hdeg]
    simp) (Or.inl (by simp))
  have hl : b1.len = D := by rw [a2]; simp
  obtain ⟨b2, b21, b22, b23, b24⟩ := Buf.wr_spec (b := b1) (2 * (eps : ℂ) * cf 0 * 0.5) (show 0 < b1.len by omega)
  obtain ⟨b3, b31, b32, b33, b34⟩ := Buf.wr_spec (b := b2) (2 * (eps : ℂ) * cf (D - 1) * 0.5) (show D - 1 < b2.len by omega)
  have hb3 : b3.Holds 0 D (fun j => B.coeff (D - 1 - j)) := by
    intro j hj
    rw [Nat.zero_add]
    dsimp only
    rw [hB, if_pos (by omega), show D - 1 - (D - 1 - j) = j by omega]
    by_cases h1 : j = D - 1
    · rw [h1, b33, if_pos (by omega)]
      congr 1; norm_num; ring
    rw [b34 j h1]
    by_cases h0 : j = 0
    · rw [h0, b23, if_pos (by omega)]
      congr 1; norm_num; ring
    rw [b24 j h0, a3, if_pos (by omega), if_neg (by omega), mul_one]
  have e1 : D - 1 + 1 = D := by omega
  rw [e1] at hA2
  obtain ⟨r, r1, r2, r3⟩ := hA2 b3 (Buf.malloc D) hb3 (by simp)
  obtain ⟨tm, x, t1, t2, t3, t4⟩ := invFillAB_ok (kappa := kappa) (tm := Buf.malloc (4 * (D + 1))) (A := A) (B := B) hD (a := r) (b := b3) (fun j hj => by
    rw [Nat.zero_add, r3, if_pos (by omega)]) hb3 (Polynomial.coeff_eq_zero_of_natDegree_lt (by omega)) (by rw [hB, if_neg (by omega)]) (by simp)
  refine ⟨tm, x, ?_, t2, t3, t4⟩
  unfold invTfTau
  rw [if_neg (by simp), if_neg (by simp [hT]), if_neg (by simp [hm]), ← he]
  simp only [Option.bind_eq_bind] at a1
  simp only [a1, Option.bind_eq_bind, Option.bind_some]
  rw [a3, if_pos (by omega)]
  simp only [Option.bind_some, b21]
  rw [b24 _ (by omega), a3, if_pos (by omega)]
  simp only [Option.bind_some, b31, r1]
  rw [if_neg (by simp)]
  simp only [t1, Option.bind_some]
  rfl

/-- C71: `B_OF_TAU`. The interval is symmetric and `M = D`; let `B` be the polynomial with the coefficients `2 ε B(τ_{D-1}), ..., 2 ε B(τ_0)` (lowest power first), where the first and the
last one are halved (the trapezoidal rule for the Fourier integral), and assume that `1 - kappa |B|²` is positive on the unit circle. Then with the spectral factor `A` of `B` that
`poly_specfact` returns, if `A(0) ≠ 0`, the call returns the signal of the layered medium with `b/a = B/A` up to terms of order `z^D`. The array with the samples of `B(τ)` is not
changed. -/
theorem C71_b_of_tau (h : InvCall k (2 ^ k) cs q cf T0 T1 eps o) (hc : o.cs = .B_OF_TAU) (hT : T0 = -T1) (hm : o.meth = .DEFAULT) (hover : 1 ≤ o.over)
    (hsz : 2 ^ k * o.over ≤ 3 ^ 32) (XI : Option (ℝ × ℝ)) (B : Polynomial ℂ)
    (hB : ∀ m, B.coeff m = if m < 2 ^ k then 2 * eps * (if m = 0 ∨ m = 2 ^ k - 1 then 1 / 2 else 1) * cf (2 ^ k - 1 - m) else 0) (kappa : ℤ) (hkap : kappa = 1 ∨ kappa = -1)
    (hpos : ∀ z : ℂ, ‖z‖ = 1 → 0 < 1 - kappa * ‖B.eval z‖ ^ 2) :
    ∃ A, SpecFactor (2 ^ k - 1) o.over kappa B A ∧ (A.coeff 0 ≠ 0 → InvFrom k (2 ^ k) cs q XI T0 T1 eps kappa o A B fun cs' => cs' = cs) := by
  obtain ⟨h2, -⟩ := InvCall_two h
  have hBd : B.natDegree ≤ 2 ^ k - 1 := by
    rw [Polynomial.natDegree_le_iff_coeff_eq_zero]
    intro m hm
    rw [hB, if_neg (by omega)]
  obtain ⟨A, hA, hA2⟩ := specFactor_exists (deg := 2 ^ k - 1) (by omega) hover (by rw [Nat.sub_add_cancel (by omega)]; exact hsz) hkap hBd hpos
  refine ⟨A, hA, fun hA0 => ?_⟩
  obtain ⟨tm, x, a1, a2, a3, a4⟩ := invTfTau_ok (kappa := kappa) (D := 2 ^ k) h.hcs hT h.he h2 h.hd hm hB hA.1 hA2
  have htr : invTransfer (2 ^ k) cs (XI.getD (0, 0)) 0 (Buf.malloc 0) (2 ^ k) T0 T1 (2 ^ k) kappa o = some ⟨SUCCESS, cs, tm⟩ := by
    unfold invTransfer
    rw [hc]
    simp only [a1, Option.bind_eq_bind, Option.bind_some]
    rfl
  exact inv_from (XI := XI) h (Or.inr hc) hkap htr a2 hA0 a3 a4 rfl

/-- C71: for `B_OF_TAU`, calls with `M ≠ D`, an interval that is not symmetric, or another inversion method are rejected; nothing is changed. -/
theorem C71_b_of_tau_rejects (hk : 1 ≤ k) (hDM : 2 ^ k ≤ M) (hev : M % 2 = 0) (hT : T0 < T1) (hd : o.disc = .D2SPLIT2A ∨ o.disc = .D2SPLIT2_MODAL) (hc : o.cs = .B_OF_TAU)
    (hbad : M ≠ 2 ^ k ∨ T0 ≠ -T1 ∨ o.meth ≠ .DEFAULT) (XI : Option (ℝ × ℝ)) (kappa : ℤ) (hkap : kappa = 1 ∨ kappa = -1) (g : Garbage) :
    fnft_nsev_inverse M (some cs) XI 0 none none (2 ^ k) (some q) (some (T0, T1)) kappa o g = some ⟨E_SUBROUTINE EC_INVALID_ARGUMENT, some cs, some q⟩ := by
  have h2 : 2 ≤ 2 ^ k := calc 2 = 2 ^ 1 := rfl
    _ ≤ 2 ^ k := Nat.pow_le_pow_right (by norm_num) hk
  have hdeg : nse_degree o.disc = 1 := by rcases hd with h | h <;> rw [h] <;> decide
  have ht : invTfTau M cs (2 ^ k) T0 T1 (Buf.malloc (4 * (2 ^ k + 1))) kappa o = some ⟨EC_INVALID_ARGUMENT, cs, Buf.malloc (4 * (2 ^ k + 1))⟩ := by
    unfold invTfTau
    rcases hbad with h | h | h
    · rw [if_pos h]
    · rw [if_pos h]; split_ifs <;> rfl
    · rw [if_pos h]; split_ifs <;> rfl
  have hcont : invCont M cs (XI.getD (0, 0)) 0 (Buf.malloc 0) (2 ^ k) q T0 T1 kappa o = some (E_SUBROUTINE EC_INVALID_ARGUMENT, cs, q) := by
    unfold invCont
    rw [hdeg, Nat.mul_one]
    dsimp only
    rw [if_neg (by omega)]
    unfold invTransfer
    rw [hc]
    have hchk : chk EC_INVALID_ARGUMENT = E_SUBROUTINE EC_INVALID_ARGUMENT := by unfold chk; rw [if_neg (by decide)]
    simp only [ht, Option.bind_eq_bind, Option.bind_some, hchk]
    dsimp only [Option.pure_def, Option.bind_some]
    rw [if_pos (E_SUBROUTINE_ne (by decide))]
  rw [inverse_cont hev hDM hkap (fun h => absurd h (lt_irrefl 0)) (fun h => absurd h (lt_irrefl 0)) (fun h => absurd h (lt_irrefl 0)) rfl ⟨k, hk, rfl⟩ hT hd (Or.inr hc)]
  simp only [Option.getD_none, hcont, Option.bind_eq_bind, Option.bind_some]
  rw [if_pos (E_SUBROUTINE_ne (by decide))]
  rfl

/-- C71: the spectral factor of a monomial is a constant. -/
theorem specFactor_monomial {deg over : ℕ} (hdeg : 1 ≤ deg) (hover : 1 ≤ over) (hsz : (deg + 1) * over ≤ 3 ^ 32) {kappa : ℤ} (hkap : kappa = 1 ∨ kappa = -1) {β : ℂ} {m0 : ℕ}
    (hm0 : m0 ≤ deg) (hpos : 0 < 1 - kappa * ‖β‖ ^ 2) {A : Polynomial ℂ} (hA : SpecFactor deg over kappa (Polynomial.C β * Polynomial.X ^ m0) A) :
    A = Polynomial.C (Real.sqrt (1 - kappa * ‖β‖ ^ 2) : ℂ) := by
  have hcoef : ∀ m, (Polynomial.C β * Polynomial.X ^ m0).coeff m = if m = m0 then β else 0 := by
    intro m
    rw [Polynomial.coeff_C_mul, Polynomial.coeff_X_pow]
    split_ifs <;> simp
  have hs0 : Spec.sfSq kappa β = 1 - kappa * ‖β‖ ^ 2 := by
    unfold Spec.sfSq; rw [if_neg (by rcases hkap with h | h <;> omega)]
  obtain ⟨b, b1, b2⟩ : ∃ b : Buf ℂ, b.len = deg + 1 ∧ b.Holds 0 (deg + 1) (fun j => (Polynomial.C β * Polynomial.X ^ m0).coeff (deg - j)) := by
    obtain ⟨b, f1, f2, f3⟩ := fill_spec (off := 0) (cnt := deg + 1) (b := (Buf.malloc (deg + 1) : Buf ℂ)) (f := fun j => some ((Polynomial.C β * Polynomial.X ^ m0).coeff (deg - j)))
      (fun j => (Polynomial.C β * Polynomial.X ^ m0).coeff (deg - j)) (fun _ _ _ => rfl) (Or.inl (by simp))
    exact ⟨b, by rw [f2]; simp, fun j hj => by rw [Nat.zero_add, f3, if_pos (by omega)]⟩
  obtain ⟨r, r1, r2⟩ := hA.2 b b b2 (by omega)
  obtain ⟨r', r3, -, r4⟩ := C66_monomial deg over hdeg hover hsz kappa (by tauto) b b (deg - m0) (by omega) β (by
    intro j hj
    rw [b2 j hj]
    dsimp only
    rw [hcoef]
    by_cases h1 : j = deg - m0
    · rw [if_pos (by omega), if_pos h1]
    · rw [if_neg (by omega), if_neg h1]) (by omega) (by rw [hs0]; exact hpos)
  rw [r1] at r3
  injection r3 with r3
  injection r3 with _ r3
  injection r3 with r3
  subst r3
  ext m
  by_cases hmd : m ≤ deg
  · have := r2 (deg - m) (by omega)
    rw [Nat.zero_add, r4, if_pos (by omega)] at this
    injection this with this
    dsimp only at this
    rw [show deg - (deg - m) = m by omega, hs0] at this
    rw [← this, Polynomial.coeff_C]
    by_cases h0 : m = 0
    · rw [if_pos (by omega), if_pos h0]
    · rw [if_neg (by omega), if_neg h0]
  · rw [Polynomial.coeff_eq_zero_of_natDegree_lt (lt_of_le_of_lt hA.1 (by omega)), Polynomial.coeff_C, if_neg (by omega)]

/-- A medium with one layer that reflects. -/
theorem layers_single (Q R : ℕ → ℂ) (n0 : ℕ) (hQ : ∀ n, n ≠ n0 → Q n = 0) (hR : ∀ n, n ≠ n0 → R n = 0) : ∀ d,
    layers Q R d 0 0 = 1 ∧ layers Q R d 1 0 = if n0 < d then Polynomial.C (R n0) * Polynomial.X ^ (d - 1 - n0) else 0
  | 0 => by simp [layers]
  | d + 1 => by
    obtain ⟨h1, h2⟩ := layers_single Q R n0 hQ hR d
    have e0 : layers Q R (d + 1) 0 0 = layers Q R d 0 0 + Polynomial.C (Q d) * Polynomial.X * layers Q R d 1 0 := by
      simp [layers, lay, Matrix.mul_apply, Fin.sum_univ_two]
    have e1 : layers Q R (d + 1) 1 0 = Polynomial.C (R d) * layers Q R d 0 0 + Polynomial.X * layers Q R d 1 0 := by
      simp [layers, lay, Matrix.mul_apply, Fin.sum_univ_two]
    rw [e0, e1, h1, h2]
    by_cases hd : d = n0
    · subst hd
      simp
    · rw [hQ d hd, hR d hd]
      by_cases h : n0 < d
      · rw [if_pos h, if_pos (by omega)]
        refine ⟨by simp, ?_⟩
        rw [show d + 1 - 1 - n0 = (d - 1 - n0) + 1 by omega, pow_succ]
        simp
        ring
      · rw [if_neg h, if_neg (by omega)]
        simp

/-- The medium with one layer and the ratio `β z^(D-1-n0)/s`. -/
theorem scatters_single {kappa : ℤ} {d n0 : ℕ} (hn0 : n0 < d) {β : ℂ} {s : ℝ} (hsp : 0 < s) :
    Scatters kappa d (fun n => if n = n0 then β / (s : ℂ) else 0) (Polynomial.C (s : ℂ)) (Polynomial.C β * Polynomial.X ^ (d - 1 - n0)) := by
  have hsc : (s : ℂ) ≠ 0 := by exact_mod_cast hsp.ne'
  intro m hm
  obtain ⟨l1, l2⟩ := layers_single (fun n => -(kappa : ℂ) * (starRingEnd ℂ) (if n = n0 then β / (s : ℂ) else 0)) (fun n => if n = n0 then β / (s : ℂ) else 0) n0
    (fun n hn => by simp [hn]) (fun n hn => by simp [hn]) d
  rw [l1, l2, if_pos hn0, one_mul, mul_right_comm, ← Polynomial.C_mul, if_pos rfl, div_mul_cancel₀ _ hsc]

theorem regular_single {kappa : ℤ} {n0 : ℕ} {β : ℂ} (hpos : 0 < 1 - kappa * ‖β‖ ^ 2) (n : ℕ) :
    1 + (kappa : ℝ) * ‖if n = n0 then β / ((Real.sqrt (1 - kappa * ‖β‖ ^ 2) : ℝ) : ℂ) else 0‖ ^ 2 ≠ 0 := by
  by_cases h1 : n = n0
  · rw [if_pos h1, norm_div, norm_real, Real.norm_eq_abs, abs_of_pos (Real.sqrt_pos.mpr hpos), div_pow, Real.sq_sqrt hpos.le]
    have : 1 + (kappa : ℝ) * (‖β‖ ^ 2 / (1 - kappa * ‖β‖ ^ 2)) = 1 / (1 - kappa * ‖β‖ ^ 2) := by
      rw [eq_div_iff hpos.ne', add_mul, mul_assoc, div_mul_cancel₀ _ hpos.ne']; ring
    rw [this]
    exact one_div_ne_zero hpos.ne'
  · rw [if_neg h1]; simp

/-- C71: for `B_OF_TAU` with only one sample `B(τ_{n0})` that is not zero everything is exact: `β = 2 ε B(τ_{n0})` (the half of it at the ends), the reflection of the layer `n0` is
`β / sqrt(1 - kappa |β|²)`, and all other samples of the signal are those of a layer without reflection. -/
theorem C71_single (h : InvCall k (2 ^ k) cs q cf T0 T1 eps o) (hc : o.cs = .B_OF_TAU) (hT : T0 = -T1) (hm : o.meth = .DEFAULT) (hover : 1 ≤ o.over)
    (hsz : 2 ^ k * o.over ≤ 3 ^ 32) (XI : Option (ℝ × ℝ)) (n0 : ℕ) (hn0 : n0 < 2 ^ k) (hcf : ∀ j, j ≠ n0 → cf j = 0) (β : ℂ)
    (hβ : β = 2 * eps * (if n0 = 0 ∨ n0 = 2 ^ k - 1 then 1 / 2 else 1) * cf n0) (kappa : ℤ) (hkap : kappa = 1 ∨ kappa = -1) (hpos : 0 < 1 - kappa * ‖β‖ ^ 2) (g : Garbage) :
    ∃ q', fnft_nsev_inverse (2 ^ k) (some cs) XI 0 none none (2 ^ k) (some q) (some (T0, T1)) kappa o g = some ⟨SUCCESS, some cs, some q'⟩ ∧ q'.len = 2 ^ k ∧
      ∀ n, n < 2 ^ k → q'.rd n = some (Spec.recovered o.disc eps (if n = n0 then -(kappa : ℂ) * (starRingEnd ℂ) (β / (Real.sqrt (1 - kappa * ‖β‖ ^ 2) : ℂ)) else 0)) := by
  obtain ⟨h2, -⟩ := InvCall_two h
  have hcoef : ∀ m, (Polynomial.C β * Polynomial.X ^ (2 ^ k - 1 - n0)).coeff m = if m = 2 ^ k - 1 - n0 then β else 0 := by
    intro m
    rw [Polynomial.coeff_C_mul, Polynomial.coeff_X_pow]
    split_ifs <;> simp
  have hB : ∀ m, (Polynomial.C β * Polynomial.X ^ (2 ^ k - 1 - n0)).coeff m =
      if m < 2 ^ k then 2 * eps * (if m = 0 ∨ m = 2 ^ k - 1 then 1 / 2 else 1) * cf (2 ^ k - 1 - m) else 0 := by
    intro m
    rw [hcoef]
    by_cases h1 : m = 2 ^ k - 1 - n0
    · rw [if_pos h1, if_pos (by omega), show 2 ^ k - 1 - m = n0 by omega, hβ]
      congr 2
      by_cases h3 : n0 = 0 ∨ n0 = 2 ^ k - 1
      · rw [if_pos h3, if_pos (by omega)]
      · rw [if_neg h3, if_neg (by omega)]
    · rw [if_neg h1]
      by_cases h3 : m < 2 ^ k
      · rw [if_pos h3, hcf _ (by omega), mul_zero]
      · rw [if_neg h3]
  set s : ℝ := Real.sqrt (1 - kappa * ‖β‖ ^ 2) with hs
  have hsp : 0 < s := Real.sqrt_pos.mpr hpos
  obtain ⟨A, hA, hI⟩ := C71_b_of_tau h hc hT hm hover hsz XI _ hB kappa hkap (fun z hz => by
    rw [Polynomial.eval_mul, Polynomial.eval_C, Polynomial.eval_pow, Polynomial.eval_X, norm_mul, norm_pow, hz, one_pow, mul_one]; exact hpos)
  have hAe : A = Polynomial.C (s : ℂ) := specFactor_monomial (by omega) hover (by rw [Nat.sub_add_cancel (by omega)]; exact hsz) hkap (by omega) hpos hA
  obtain ⟨cs', q', c1, c2, c3, c4⟩ := (hI (by rw [hAe]; simpa using hsp.ne')).2 g (fun n => if n = n0 then β / (s : ℂ) else 0)
    (by rw [hAe]; exact scatters_single hn0 hsp) (fun n _ => regular_single hpos n)
  rw [c2] at c1
  refine ⟨q', c1, c3, fun n hn => ?_⟩
  rw [c4 n hn]
  by_cases h1 : n = n0
  · rw [if_pos h1, if_pos h1]
  · rw [if_neg h1, if_neg h1, map_zero, mul_zero]

/-- The hypotheses of C71 are met: two samples on [-1, 1], `B(τ_0) = 1/8`, `B(τ_1) = 0`, i.e. `β = 1/4`, in the focusing case. -/
example : InvCall 1 2 (Buf.ofList [1 / 8, 0]) (Buf.malloc 2) (fun j => if j = 0 then 1 / 8 else 0) (-1) 1 2 { inv_default_opts with cs := .B_OF_TAU } ∧
    (1 / 4 : ℂ) = 2 * ((2 : ℝ) : ℂ) * (if 0 = 0 ∨ 0 = 2 ^ 1 - 1 then 1 / 2 else 1) * (if 0 = 0 then 1 / 8 else 0) ∧ 0 < 1 - ((1 : ℤ) : ℝ) * ‖(1 / 4 : ℂ)‖ ^ 2 := by
  refine ⟨⟨le_rfl, le_rfl, rfl, by norm_num, by norm_num, by norm_num, Or.inl rfl, ?_, by simp⟩, by norm_num, by norm_num⟩
  intro i hi
  interval_cases i <;> simp [Buf.ofList, Buf.rd]

end FNFT

import Verif.Model.PolyFmult
import Verif.Proofs.KissTop
import Mathlib.Algebra.Polynomial.Eval.Degree
/-! `poly_fmult_two_polys`: FFT based product of two polynomials. -/
namespace FNFT
open Finset Kiss Polynomial

@[simp] theorem addO_some (a b : ℂ) : addO (some a) (some b) = some (a + b) := rfl
@[simp] theorem mulO_some (a b : ℂ) : mulO (some a) (some b) = some (a * b) := rfl
@[simp] theorem divO_some (a : ℂ) (n : ℕ) : divO (some a) n = some (a / n) := rfl

theorem twoPolysLen_spec (deg : ℕ) :
    ∃ r, twoPolysLen deg = some r ∧ 2 * deg + 1 ≤ r ∧ r < 2 * (2 * deg + 1) ∧ Smooth r ∧
      ∀ m, 2 * deg + 1 ≤ m → Smooth m → r ≤ m := by
  unfold twoPolysLen
  exact nextLen_spec (2 * (deg + 1) - 1) (by omega)

theorem twoPolysLen_mono {d d' r r' : ℕ} (h : d ≤ d') (h1 : twoPolysLen d = some r)
    (h2 : twoPolysLen d' = some r') : r ≤ r' := by
  obtain ⟨s, e, -, -, -, hm⟩ := twoPolysLen_spec d
  obtain ⟨s', e', hl, -, hs, -⟩ := twoPolysLen_spec d'
  rw [h1] at e; rw [h2] at e'; cases e; cases e'
  exact hm _ (by omega) hs

/-- Samples of a polynomial at the roots of unity. -/
noncomputable def spec (len : ℕ) (Q : ℂ[X]) : ℕ → ℂ := fun k => Q.eval (zeta len false ^ k)

theorem spec_eq {len : ℕ} {Q : ℂ[X]} (h : Q.natDegree < len) (k : ℕ) :
    spec len Q k = ∑ j ∈ range len, Q.coeff j * zeta len false ^ (j * k) := by
  rw [spec, eval_eq_sum_range' h]
  exact sum_congr rfl fun j _ => by rw [← pow_mul, mul_comm k j]

theorem spec_inv {len : ℕ} {Q : ℂ[X]} (h : Q.natDegree < len) {l : ℕ} (hl : l < len) :
    ∑ k ∈ range len, spec len Q k * zeta len true ^ (k * l) = len * Q.coeff l := by
  rw [← dft_inv false Q.coeff hl]
  exact sum_congr rfl fun k _ => by rw [spec_eq h]; rfl

/-- An operand is given either by its coefficients or by a spectrum that is still in the buffer. -/
def Operand (deg len : ℕ) (p : Option (Buf ℂ × ℕ)) (b : Buf ℂ) (P : ℂ[X]) : Prop :=
  P.natDegree ≤ deg ∧
  match p with
  | some (a, o) => a.Holds o (deg + 1) P.coeff
  | none => b.Holds 0 len (spec len P)

theorem loadFFT_spec {deg len : ℕ} {p : Option (Buf ℂ × ℕ)} {pf : Plan} {b0 dst : Buf ℂ} {P : ℂ[X]}
    (hpf : PlanOK pf len false) (hop : Operand deg len p dst P) (hlen : deg + 1 ≤ len)
    (h0 : len ≤ b0.len) (hd : len ≤ dst.len)
    (hz : ∀ j, deg + 1 ≤ j → j < len → b0.rd j = some 0) :
    ∃ b0' dst', loadFFT deg p pf b0 dst = some (b0', dst') ∧ b0'.len = b0.len ∧ dst'.len = dst.len ∧
      (∀ j, deg + 1 ≤ j → j < len → b0'.rd j = some 0) ∧ dst'.Holds 0 len (spec len P) := by
  obtain ⟨hdeg, hop⟩ := hop
  match p, hop with
  | none, hop => exact ⟨b0, dst, rfl, rfl, rfl, hz, hop⟩
  | some (a, o), hop =>
    obtain ⟨b0', e, l, r⟩ := fill_spec (off := 0) (cnt := deg + 1) (f := fun i => a.rd (o + i)) (b := b0)
      P.coeff (fun i _ hi => hop i (by omega)) (Or.inl (by omega))
    have hr : ∀ j, j < len → b0'.rd j = some (P.coeff j) := by
      intro j hj
      rw [r j]
      split_ifs with h
      · rfl
      · rw [hz j (by omega) hj, coeff_eq_zero_of_natDegree_lt (by omega)]
    obtain ⟨F, e', l', r', -⟩ := fft_spec hpf b0' dst P.coeff hr hd
    refine ⟨b0', F, ?_, l, l', ?_, ?_⟩
    · unfold loadFFT; dsimp only; rw [e, Option.bind_eq_bind, Option.bind_some, e']; rfl
    · intro j h1 h2; rw [r j, if_neg (by omega), hz j h1 h2]
    · intro k hk; rw [Nat.zero_add, r' k hk, spec_eq (by omega)]

/-- What a result region holds: nothing relevant, coefficients, or a spectrum. -/
inductive CellSt
  | empty
  | co (R : ℂ[X])
  | sp (R : ℂ[X])

def CellSt.Ok (deg len : ℕ) (b : Buf ℂ) (ro : ℕ) : CellSt → Prop
  | .empty => True
  | .co R => b.Holds ro (2 * deg + 1) R.coeff
  | .sp R => R.natDegree ≤ 2 * deg ∧ b.Holds ro len (spec len R)

/-- Effect of the mode. -/
noncomputable def CellSt.step : ℕ → CellSt → ℂ[X] → Option CellSt
  | 0, _, P => some (.co P)
  | 1, .co R, P => some (.co (R + P))
  | 2, _, P => some (.sp P)
  | 3, .sp R, P => some (.co (R + P))
  | 4, .sp R, P => some (.sp (R + P))
  | _, _, _ => none

/-- Number of result cells written in a mode. -/
def ext (deg len mode : ℕ) : ℕ := if mode = 2 ∨ mode = 3 ∨ mode = 4 then len else 2 * deg + 1

theorem twoPolys_spec {deg len mode : ℕ} {p1 p2 : Option (Buf ℂ × ℕ)} {res : Buf ℂ} {ro : ℕ}
    {pf pi : Plan} {B : Bufs} {P1 P2 : ℂ[X]} {st st' : CellSt}
    (hlen : twoPolysLen deg = some len) (hpf : PlanOK pf len false) (hpi : PlanOK pi len true)
    (hb0 : len ≤ B.b0.len) (hb1 : len ≤ B.b1.len) (hb2 : len ≤ B.b2.len)
    (h1 : Operand deg len p1 B.b1 P1) (h2 : Operand deg len p2 B.b2 P2)
    (hst : st.Ok deg len res ro) (hstep : st.step mode (P1 * P2) = some st')
    (hres : ro + ext deg len mode ≤ res.len) :
    ∃ res' B', twoPolys deg p1 p2 res ro pf pi B mode = some (res', B') ∧ res'.len = res.len ∧
      B'.b0.len = B.b0.len ∧ B'.b1.len = B.b1.len ∧ B'.b2.len = B.b2.len ∧
      B'.b2.Holds 0 len (spec len P2) ∧ st'.Ok deg len res' ro ∧
      ∀ j, (j < ro ∨ ro + ext deg len mode ≤ j) → res'.rd j = res.rd j := by
  obtain ⟨r, hr, hr1, hr2, -⟩ := twoPolysLen_spec deg
  rw [hlen] at hr; cases hr
  obtain ⟨b0, e0, l0, c0⟩ := fill_spec (off := deg + 1) (cnt := len - (deg + 1)) (f := fun _ => some (0 : ℂ))
    (b := B.b0) (fun _ => 0) (fun _ _ _ => rfl) (Or.inl (by omega))
  obtain ⟨b0', b1, e1, l1, m1, c1, s1⟩ := loadFFT_spec hpf h1 (b0 := b0) (by omega) (by omega) hb1
    (fun j h h' => by rw [c0, if_pos (by omega)])
  obtain ⟨b0'', b2, e2, l2, m2, c2, s2⟩ := loadFFT_spec hpf h2 (b0 := b0') (by omega) (by omega) hb2 c1
  have hmul : ∀ k, spec len (P1 * P2) k = spec len P1 k * spec len P2 k := fun k => by
    simp [spec]
  obtain ⟨b, e3, l3, c3⟩ := fill_spec (off := 0) (cnt := len) (f := fun i => mulO (b1.rd i) (b2.rd i))
    (b := b0'') (spec len (P1 * P2)) (fun i _ hi => by
      have a := s1 i (by omega); have a' := s2 i (by omega)
      rw [Nat.zero_add] at a a'
      rw [a, a', mulO_some, hmul]) (Or.inl (by omega))
  have hdeg : (P1 * P2).natDegree ≤ 2 * deg :=
    natDegree_mul_le.trans (by have := h1.1; have := h2.1; omega)
  have hb : ∀ k, k < len → b.rd k = some (spec len (P1 * P2) k) := fun k hk => by
    rw [c3, if_pos (by omega)]
  have hlen0 : (len : ℂ) ≠ 0 := by
    have : len ≠ 0 := by omega
    exact_mod_cast this
  -- inverse transform
  have hfin : ∀ (c0 : Buf ℂ) (R : ℂ[X]), R.natDegree ≤ 2 * deg →
      (∀ k, k < len → c0.rd k = some (spec len R k)) →
      ∃ F, fft pi c0 b1 = some F ∧ F.len = b1.len ∧
        ∀ j, j < 2 * deg + 1 → divO (F.rd j) len = some (R.coeff j) := by
    intro c0 R hR hc
    obtain ⟨F, e, l, v, -⟩ := fft_spec hpi c0 b1 (spec len R) hc (by omega)
    refine ⟨F, e, l, fun j hj => ?_⟩
    rw [v j (by omega), spec_inv (by omega) (by omega), divO_some, mul_div_cancel_left₀ _ hlen0]
  have main : ∀ res' b' b1' , (do
      let c ← combine mode len ro res b
      let f ← finish mode len deg ro pi c.1 c.2 b1
      return (f.1, (⟨c.2, f.2, b2⟩ : Bufs))) = some (res', ⟨b', b1', b2⟩) →
      twoPolys deg p1 p2 res ro pf pi B mode = some (res', ⟨b', b1', b2⟩) := by
    intro res' b' b1' h
    unfold twoPolys
    simp only [hlen, e0, e1, e2, e3, Option.bind_eq_bind, Option.bind_some]
    exact h
  unfold CellSt.step at hstep
  split at hstep
  · -- mode 0
    cases hstep
    have hx : ext deg len 0 = 2 * deg + 1 := rfl
    rw [hx] at hres ⊢
    obtain ⟨F, ef, lf, vf⟩ := hfin b _ hdeg hb
    obtain ⟨r', er, lr, vr⟩ := fill_spec (off := ro) (cnt := 2 * deg + 1)
      (f := fun k => divO (F.rd (k - ro)) len) (b := res) (fun k => (P1 * P2).coeff (k - ro))
      (fun i hi hi' => vf _ (by omega)) (Or.inl hres)
    refine ⟨r', ⟨b, F, b2⟩, main _ _ _ ?_, lr, by simp only; omega, by simp only; omega, m2, s2, ?_, ?_⟩
    · simp [combine, finish, ef, er]
    · intro i hi; rw [vr, if_pos (by omega), Nat.add_sub_cancel_left]
    · intro j hj; rw [vr, if_neg (by omega)]
  · -- mode 1
    cases hstep
    rename_i R
    have hx : ext deg len 1 = 2 * deg + 1 := rfl
    rw [hx] at hres ⊢
    obtain ⟨F, ef, lf, vf⟩ := hfin b _ hdeg hb
    obtain ⟨r', er, lr, vr⟩ := fill_spec (off := ro) (cnt := 2 * deg + 1)
      (f := fun k => addO (res.rd k) (divO (F.rd (k - ro)) len)) (b := res)
      (fun k => (R + P1 * P2).coeff (k - ro))
      (fun i hi hi' => by
        have := hst (i - ro) (by omega)
        rw [show ro + (i - ro) = i by omega] at this
        rw [vf _ (by omega), this, addO_some, coeff_add]) (Or.inl hres)
    refine ⟨r', ⟨b, F, b2⟩, main _ _ _ ?_, lr, by simp only; omega, by simp only; omega, m2, s2, ?_, ?_⟩
    · simp [combine, finish, ef, er]
    · intro i hi; rw [vr, if_pos (by omega), Nat.add_sub_cancel_left]
    · intro j hj; rw [vr, if_neg (by omega)]
  · -- mode 2
    cases hstep
    have hx : ext deg len 2 = len := rfl
    rw [hx] at hres ⊢
    obtain ⟨r', er, lr, vr⟩ := fill_spec (off := ro) (cnt := len)
      (f := fun k => b.rd (k - ro)) (b := res)
      (fun k => spec len (P1 * P2) (k - ro))
      (fun i hi hi' => hb _ (by omega)) (Or.inl hres)
    refine ⟨r', ⟨b, b1, b2⟩, main _ _ _ ?_, lr, by simp only; omega, by simp only; omega, m2, s2,
      ⟨hdeg, ?_⟩, ?_⟩
    · simp [combine, finish, er]
    · intro i hi; rw [vr, if_pos (by omega), Nat.add_sub_cancel_left]
    · intro j hj; rw [vr, if_neg (by omega)]
  · -- mode 3
    cases hstep
    rename_i R
    have hx : ext deg len 3 = len := rfl
    rw [hx] at hres ⊢
    obtain ⟨c, ec, lc, vc⟩ := fill_spec (off := 0) (cnt := len)
      (f := fun i => addO (b.rd i) (res.rd (ro + i))) (b := b) (fun k => spec len (R + P1 * P2) k)
      (fun i hi hi' => by
        rw [hb i (by omega), hst.2 i (by omega), addO_some]; simp [spec, add_comm]) (Or.inl (by omega))
    obtain ⟨F, ef, lf, vf⟩ := hfin c (R + P1 * P2)
      ((natDegree_add_le _ _).trans (max_le hst.1 hdeg)) (fun k hk => by rw [vc, if_pos (by omega)])
    obtain ⟨r', er, lr, vr⟩ := fill_spec (off := ro) (cnt := 2 * deg + 1)
      (f := fun k => divO (F.rd (k - ro)) len) (b := res) (fun k => (R + P1 * P2).coeff (k - ro))
      (fun i hi hi' => vf _ (by omega)) (Or.inl (by omega))
    refine ⟨r', ⟨c, F, b2⟩, main _ _ _ ?_, lr, by simp only; omega, by simp only; omega, m2, s2, ?_, ?_⟩
    · simp [combine, finish, ec, ef, er]
    · intro i hi; rw [vr, if_pos (by omega), Nat.add_sub_cancel_left]
    · intro j hj; rw [vr, if_neg (by omega)]
  · -- mode 4
    cases hstep
    rename_i R
    have hx : ext deg len 4 = len := rfl
    rw [hx] at hres ⊢
    obtain ⟨r', er, lr, vr⟩ := fill_spec (off := ro) (cnt := len)
      (f := fun k => addO (res.rd k) (b.rd (k - ro))) (b := res)
      (fun k => spec len (R + P1 * P2) (k - ro))
      (fun i hi hi' => by
        have := hst.2 (i - ro) (by omega)
        rw [show ro + (i - ro) = i by omega] at this
        rw [hb _ (by omega), this, addO_some]; simp [spec]) (Or.inl hres)
    refine ⟨r', ⟨b, b1, b2⟩, main _ _ _ ?_, lr, by simp only; omega, by simp only; omega, m2, s2,
      ⟨(natDegree_add_le _ _).trans (max_le hst.1 hdeg), ?_⟩, ?_⟩
    · simp [combine, finish, er]
    · intro i hi; rw [vr, if_pos (by omega), Nat.add_sub_cancel_left]
    · intro j hj; rw [vr, if_neg (by omega)]
  · exact absurd hstep (by simp)

end FNFT

import Verif.Proofs.SeedGrid
import Verif.Proofs.InvSol
/-!
# The eigenfunctions of the seed potential and the Darboux transform in the code
-/
namespace FNFT
open Complex Spec

local notation "conj" => starRingEnd ℂ

theorem ks_eq (c l : ℂ) : -((‖c‖ * ‖c‖ : ℝ) : ℂ) - l * l = -(c * conj c) - l * l := by
  rw [mul_conj']; push_cast; ring

/-- The steps of the code are exact unless `l^2 = -|c|^2`. -/
theorem efFwd_eq {c l : ℂ} (h : c * conj c + l * l ≠ 0) (s : ℝ) (v : ℂ × ℂ) : efFwd l c s v = flow c l s v := by
  have hks : -((‖c‖ * ‖c‖ : ℝ) : ℂ) - l * l ≠ 0 := by
    rw [ks_eq]; intro h0; apply h; linear_combination -h0
  have hk : fK c l ≠ 0 := by
    intro h0
    have := fK_sq c l
    rw [h0] at this
    apply h; linear_combination this
  unfold efFwd efStep
  simp only
  rw [if_pos hks]
  have e : csqrt (-((‖c‖ * ‖c‖ : ℝ) : ℂ) - l * l) = fK c l := by rw [ks_eq]; rfl
  rw [e]
  unfold flow fS fC
  rw [if_neg hk]
  refine Prod.ext ?_ ?_ <;> dsimp only <;> ring

theorem efBwd_eq {c l : ℂ} (h : c * conj c + l * l ≠ 0) (s : ℝ) (v : ℂ × ℂ) : efBwd l c s v = some (flow c l (-s) v) := by
  have hks : -((‖c‖ * ‖c‖ : ℝ) : ℂ) - l * l ≠ 0 := by
    rw [ks_eq]; intro h0; apply h; linear_combination -h0
  have hk : fK c l ≠ 0 := by
    intro h0
    have := fK_sq c l
    rw [h0] at this
    apply h; linear_combination this
  have e : csqrt (-((‖c‖ * ‖c‖ : ℝ) : ℂ) - l * l) = fK c l := by rw [ks_eq]; rfl
  have hS : fS (fK c l) s = sinh (fK c l * s) / fK c l := by unfold fS; rw [if_neg hk]
  have hC : fC (fK c l) s = cosh (fK c l * s) := rfl
  have h1 := fCS (fK c l) s
  rw [fK_sq] at h1
  have hscl : (fC (fK c l) s - l * fS (fK c l) s * I) * (fC (fK c l) s + l * fS (fK c l) s * I) -
      (-conj c * fS (fK c l) s) * (c * fS (fK c l) s) = 1 := by
    linear_combination h1 - (l * l * (fS (fK c l) s * fS (fK c l) s)) * I_mul_I
  unfold efBwd efStep
  simp only
  rw [if_pos hks, e, ← hS, ← hC, hscl]
  rw [cdiv_ok one_ne_zero, cdiv_ok one_ne_zero]
  simp only [Option.bind_eq_bind, Option.bind_some, Option.pure_def, div_one]
  congr 1
  unfold flow
  rw [fC_neg, fS_neg]
  refine Prod.ext ?_ ?_ <;> dsimp only <;> ring

/-- Cells of the arrays of eigenfunctions that belong to the bound state `i`. -/
def EfHolds (K D : ℕ) (b : Buf ℂ) (i : ℕ) (P : ℕ → Prop) (F : ℕ → ℂ × ℂ) : Prop :=
  ∀ n, n < D → P n → b.rd (i * D + n) = some (F n).1 ∧ b.rd (i * D + K * D + n) = some (F n).2

theorem idx_ne {K D i j n m : ℕ} (hij : i ≠ j) (hi : i < K) (hj : j < K) (hn : n < D) (hm : m < D) :
    i * D + n ≠ j * D + m ∧ i * D + n ≠ j * D + K * D + m ∧ i * D + K * D + n ≠ j * D + m ∧ i * D + K * D + n ≠ j * D + K * D + m := by
  have hK : ∀ a, a < K → a * D + D ≤ K * D := fun a ha => by
    have : (a + 1) * D ≤ K * D := Nat.mul_le_mul_right D ha
    nlinarith
  have h1 := hK i hi
  have h2 := hK j hj
  rcases Nat.lt_or_gt_of_ne hij with h | h
  · have : (i + 1) * D ≤ j * D := Nat.mul_le_mul_right D h
    have h3 : (i + 1) * D = i * D + D := by ring
    refine ⟨?_, ?_, ?_, ?_⟩ <;> omega
  · have : (j + 1) * D ≤ i * D := Nat.mul_le_mul_right D h
    have h3 : (j + 1) * D = j * D + D := by ring
    refine ⟨?_, ?_, ?_, ?_⟩ <;> omega

/-- Two writes for the bound state `i`. -/
theorem ef_wr {K D i n : ℕ} {b : Buf ℂ} (hl : b.len = D * K * 2) (hi : i < K) (hn : n < D) (w : ℂ × ℂ) :
    ∃ b1 b2, b.wr (i * D + n) w.1 = some b1 ∧ b1.wr (i * D + K * D + n) w.2 = some b2 ∧ b2.len = D * K * 2 ∧
      b2.rd (i * D + n) = some w.1 ∧ b2.rd (i * D + K * D + n) = some w.2 ∧
      ∀ p, p ≠ i * D + n → p ≠ i * D + K * D + n → b2.rd p = b.rd p := by
  have h1 : i * D + D ≤ K * D := by
    have : (i + 1) * D ≤ K * D := Nat.mul_le_mul_right D hi
    nlinarith
  have h2 : D * K * 2 = K * D + K * D := by ring
  obtain ⟨b1, a1, a2, a3, a4⟩ := Buf.wr_spec (b := b) (i := i * D + n) w.1 (by rw [hl]; omega)
  obtain ⟨b2, c1, c2, c3, c4⟩ := Buf.wr_spec (b := b1) (i := i * D + K * D + n) w.2 (by rw [a2, hl]; omega)
  refine ⟨b1, b2, a1, c1, by rw [c2, a2, hl], ?_, c3, fun p p1 p2 => by rw [c4 p p2, a4 p p1]⟩
  rw [c4 _ (by omega), a3]

theorem efPhi_ok {K D i : ℕ} {l : ℂ} {q b : Buf ℂ} {qf : ℕ → ℂ} {T0 h : ℝ} (hq : q.Holds 0 D qf) (hD : 2 ≤ D) (hi : i < K) (hb : b.len = D * K * 2)
    (hk : ∀ n, n < D → qf n * conj (qf n) + l * l ≠ 0) :
    ∃ b', efPhi K i l D q T0 h b = some b' ∧ b'.len = D * K * 2 ∧
      EfHolds K D b' i (fun _ => True) (fwdSeq h qf l (exp (-I * l * T0), 0) 0) ∧
      ∀ j n, j ≠ i → j < K → n < D → b'.rd (j * D + n) = b.rd (j * D + n) ∧ b'.rd (j * D + K * D + n) = b.rd (j * D + K * D + n) := by
  obtain ⟨b1, b2, w1, w2, hl2, r1, r2, ro⟩ := ef_wr hb hi (by omega : 0 < D) (exp (-I * l * T0), 0)
  rw [Nat.add_zero] at w1 r1 ro
  rw [Nat.add_zero] at w2 r2 ro
  unfold efPhi
  dsimp only at w1 w2
  simp only [w1, w2, Option.bind_eq_bind, Option.bind_some]
  obtain ⟨b', h1, h2, h3, h4⟩ := forLoop_inv (n := D - 1) (s := b2) (body := fun m (phi : Buf ℂ) => do
    let v1 ← phi.rd (i * D + m)
    let v2 ← phi.rd (i * D + K * D + m)
    let q0 ← q.rd m
    let q1 ← q.rd (m + 1)
    let w := efFwd l q1 h (efFwd l q0 h (v1, v2))
    let phi ← phi.wr (i * D + (m + 1)) w.1
    phi.wr (i * D + K * D + (m + 1)) w.2)
    (fun m (c : Buf ℂ) => c.len = D * K * 2 ∧ EfHolds K D c i (fun n => n ≤ m) (fwdSeq h qf l (exp (-I * l * T0), 0) 0) ∧
      ∀ j n, j ≠ i → j < K → n < D → c.rd (j * D + n) = b.rd (j * D + n) ∧ c.rd (j * D + K * D + n) = b.rd (j * D + K * D + n))
    ⟨hl2, fun n hn hn0 => by
      obtain rfl : n = 0 := by omega
      rw [Nat.add_zero, Nat.add_zero]; exact ⟨r1, r2⟩, fun j n hj hjK hn => by
      have e1 := idx_ne hj hjK hi hn (by omega : 0 < D)
      rw [Nat.add_zero, Nat.add_zero] at e1
      exact ⟨ro _ e1.1 e1.2.1, ro _ e1.2.2.1 e1.2.2.2⟩⟩ (by
      rintro m c hm ⟨g1, g2, g3⟩
      obtain ⟨e1, e2⟩ := g2 m (by omega) le_rfl
      have q0 := hq m (by omega)
      have q1 := hq (m + 1) (by omega)
      rw [Nat.zero_add] at q0 q1
      obtain ⟨c1, c2, w1, w2, l2, s1, s2, so⟩ := ef_wr g1 hi (by omega : m + 1 < D) (fwd2 h qf l m (fwdSeq h qf l (exp (-I * l * T0), 0) 0 m))
      refine ⟨c2, ?_, l2, ?_, ?_⟩
      · simp only [e1, e2, q0, q1, Option.bind_eq_bind, Option.bind_some]
        rw [efFwd_eq (hk m (by omega)), efFwd_eq (hk (m + 1) (by omega))]
        show (c.wr _ (fwd2 h qf l m (fwdSeq h qf l (exp (-I * l * T0), 0) 0 m)).1).bind _ = _
        rw [w1]
        exact w2
      · intro n hn hnm
        by_cases en : n = m + 1
        · rw [en]
          have : fwdSeq h qf l (exp (-I * l * T0), 0) 0 (m + 1) = fwd2 h qf l m (fwdSeq h qf l (exp (-I * l * T0), 0) 0 m) := by
            show fwd2 h qf l (0 + m) _ = _; rw [Nat.zero_add]
          rw [this]; exact ⟨s1, s2⟩
        · have h1 : i * D + D ≤ K * D := by
            have : (i + 1) * D ≤ K * D := Nat.mul_le_mul_right D hi
            nlinarith
          rw [so _ (by omega) (by omega), so _ (by omega) (by omega)]
          exact g2 n hn (by omega)
      · intro j n hj hjK hn
        have e3 := idx_ne hj hjK hi hn (by omega : m + 1 < D)
        rw [so _ e3.1 e3.2.1, so _ e3.2.2.1 e3.2.2.2]
        exact g3 j n hj hjK hn)
  exact ⟨b', h1, h2, fun n hn _ => h3 n hn (by omega), h4⟩

theorem efPsi_ok {K D i : ℕ} {l : ℂ} {q b : Buf ℂ} {qf : ℕ → ℂ} {T1 h : ℝ} (hq : q.Holds 0 D qf) (hD : 2 ≤ D) (hi : i < K) (hb : b.len = D * K * 2)
    (hk : ∀ n, n < D → qf n * conj (qf n) + l * l ≠ 0) :
    ∃ b', efPsi K i l D q T1 h b = some b' ∧ b'.len = D * K * 2 ∧
      EfHolds K D b' i (fun _ => True) (fun n => segB l (halfL h qf n (D - 1 - n)) (0, exp (I * l * T1))) ∧
      ∀ j n, j ≠ i → j < K → n < D → b'.rd (j * D + n) = b.rd (j * D + n) ∧ b'.rd (j * D + K * D + n) = b.rd (j * D + K * D + n) := by
  obtain ⟨b1, b2, w1, w2, hl2, r1, r2, ro⟩ := ef_wr hb hi (by omega : D - 1 < D) ((0 : ℂ), exp (I * l * T1))
  unfold efPsi
  dsimp only at w1 w2
  simp only [w1, w2, Option.bind_eq_bind, Option.bind_some]
  obtain ⟨b', h1, h2, h3, h4⟩ := forLoop_inv (n := D - 1) (s := b2) (body := fun m (psi : Buf ℂ) => do
    let v1 ← psi.rd (i * D + (D - 1 - m))
    let v2 ← psi.rd (i * D + K * D + (D - 1 - m))
    let q1 ← q.rd (D - 1 - m)
    let q0 ← q.rd (D - 1 - m - 1)
    let w ← efBwd l q1 h (v1, v2)
    let w ← efBwd l q0 h w
    let psi ← psi.wr (i * D + (D - 1 - m - 1)) w.1
    psi.wr (i * D + K * D + (D - 1 - m - 1)) w.2)
    (fun m (c : Buf ℂ) => c.len = D * K * 2 ∧
      EfHolds K D c i (fun n => D - 1 - m ≤ n) (fun n => segB l (halfL h qf n (D - 1 - n)) (0, exp (I * l * T1))) ∧
      ∀ j n, j ≠ i → j < K → n < D → c.rd (j * D + n) = b.rd (j * D + n) ∧ c.rd (j * D + K * D + n) = b.rd (j * D + K * D + n))
    ⟨hl2, fun n hn hn0 => by
      obtain rfl : n = D - 1 := by omega
      dsimp only; rw [Nat.sub_self]; exact ⟨r1, r2⟩, fun j n hj hjK hn => by
      have e1 := idx_ne hj hjK hi hn (by omega : D - 1 < D)
      exact ⟨ro _ e1.1 e1.2.1, ro _ e1.2.2.1 e1.2.2.2⟩⟩ (by
      rintro m c hm ⟨g1, g2, g3⟩
      obtain ⟨k, hk1⟩ : ∃ k, D - 1 - m = k + 1 := ⟨D - 1 - m - 1, by omega⟩
      have hk2 : D - 1 - m - 1 = k := by omega
      have hk3 : D - 1 - k = m + 1 := by omega
      have hk4 : D - 1 - (k + 1) = m := by omega
      obtain ⟨e1, e2⟩ := g2 (k + 1) (by omega) (by omega)
      dsimp only at e1 e2
      rw [hk4] at e1 e2
      have q0 := hq k (by omega)
      have q1 := hq (k + 1) (by omega)
      rw [Nat.zero_add] at q0 q1
      obtain ⟨c1, c2, w1, w2, l2, s1, s2, so⟩ := ef_wr g1 hi (by omega : k < D) (segB l (halfL h qf k (m + 1)) (0, exp (I * l * T1)))
      refine ⟨c2, ?_, l2, ?_, ?_⟩
      · rw [hk1, Nat.add_sub_cancel]
        simp only [e1, e2, q0, q1, Option.bind_eq_bind, Option.bind_some]
        rw [efBwd_eq (hk (k + 1) (by omega))]
        simp only [Option.bind_some]
        rw [efBwd_eq (hk k (by omega))]
        simp only [Option.bind_some]
        show (c.wr _ (segB l (halfL h qf k (m + 1)) (0, exp (I * l * T1))).1).bind _ = _
        rw [w1]
        exact w2
      · intro n hn hnm
        by_cases en : n = k
        · rw [en]; dsimp only; rw [hk3]
          exact ⟨s1, s2⟩
        · have h1 : i * D + D ≤ K * D := by
            have : (i + 1) * D ≤ K * D := Nat.mul_le_mul_right D hi
            nlinarith
          rw [so _ (by omega) (by omega), so _ (by omega) (by omega)]
          exact g2 n hn (by omega)
      · intro j n hj hjK hn
        have e3 := idx_ne hj hjK hi hn (by omega : k < D)
        rw [so _ e3.1 e3.2.1, so _ e3.2.2.1 e3.2.2.2]
        exact g3 j n hj hjK hn)
  exact ⟨b', h1, h2, fun n hn _ => h3 n hn (by omega), h4⟩

/-- A loop over the bound states that fills one pair of rows each. -/
theorem ef_loop {K D : ℕ} {bs : Buf ℂ} {lf : ℕ → ℂ} (hbs : bs.Holds 0 K lf) (f : ℕ → ℂ → Buf ℂ → Option (Buf ℂ)) (F : ℂ → ℕ → ℂ × ℂ)
    (hf : ∀ i b, i < K → b.len = D * K * 2 → ∃ b', f i (lf i) b = some b' ∧ b'.len = D * K * 2 ∧ EfHolds K D b' i (fun _ => True) (F (lf i)) ∧
      ∀ j n, j ≠ i → j < K → n < D → b'.rd (j * D + n) = b.rd (j * D + n) ∧ b'.rd (j * D + K * D + n) = b.rd (j * D + K * D + n)) :
    ∃ b', forLoop K (fun i (phi : Buf ℂ) => do
      let l ← bs.rd i
      f i l phi) (Buf.malloc (D * K * 2)) = some b' ∧ ∀ i, i < K → EfHolds K D b' i (fun _ => True) (F (lf i)) := by
  obtain ⟨b', h1, _, h2⟩ := forLoop_inv (n := K) (s := (Buf.malloc (D * K * 2) : Buf ℂ)) (body := fun i (phi : Buf ℂ) => do
      let l ← bs.rd i
      f i l phi) (fun k (c : Buf ℂ) => c.len = D * K * 2 ∧ ∀ i, i < k → i < K → EfHolds K D c i (fun _ => True) (F (lf i))) ⟨by simp, fun i hi => by omega⟩ (by
      rintro k c hk ⟨g1, g2⟩
      obtain ⟨b', e1, e2, e3, e4⟩ := hf k c hk g1
      have eb := hbs k hk
      rw [Nat.zero_add] at eb
      refine ⟨b', ?_, e2, fun i hi hiK => ?_⟩
      · simp only [eb, Option.bind_eq_bind, Option.bind_some]; exact e1
      · by_cases ik : i = k
        · rw [ik]; exact e3
        · intro n hn hT
          obtain ⟨a1, a2⟩ := e4 i n ik hiK hn
          rw [a1, a2]
          exact g2 i (by omega) hiK n hn hT)
  exact ⟨b', h1, fun i hi => h2 i hi hi⟩

theorem invEigen_ok {K D : ℕ} {bs q : Buf ℂ} {lf qf : ℕ → ℂ} {T0 T1 : ℝ} (hbs : bs.Holds 0 K lf) (hq : q.Holds 0 D qf) (hD : 2 ≤ D)
    (hk : ∀ i n, i < K → n < D → qf n * conj (qf n) + lf i * lf i ≠ 0) :
    ∃ E, invEigen K bs D q T0 T1 = some E ∧
      (∀ i, i < K → EfHolds K D E.1 i (fun _ => True) (fwdSeq ((T1 - T0) / ((D : ℝ) - 1) / 2) qf (lf i) (exp (-I * lf i * T0), 0) 0)) ∧
      ∀ i, i < K → EfHolds K D E.2 i (fun _ => True) (fun n => segB (lf i) (halfL ((T1 - T0) / ((D : ℝ) - 1) / 2) qf n (D - 1 - n)) (0, exp (I * lf i * T1))) := by
  obtain ⟨phi, p1, p2⟩ := ef_loop hbs (fun i l b => efPhi K i l D q T0 ((T1 - T0) / ((D : ℝ) - 1) / 2) b)
    (fun l => fwdSeq ((T1 - T0) / ((D : ℝ) - 1) / 2) qf l (exp (-I * l * T0), 0) 0) (fun i b hi hb => efPhi_ok hq hD hi hb (fun n hn => hk i n hi hn))
  obtain ⟨psi, s1, s2⟩ := ef_loop hbs (fun i l b => efPsi K i l D q T1 ((T1 - T0) / ((D : ℝ) - 1) / 2) b)
    (fun l n => segB l (halfL ((T1 - T0) / ((D : ℝ) - 1) / 2) qf n (D - 1 - n)) (0, exp (I * l * T1))) (fun i b hi hb => efPsi_ok hq hD hi hb (fun n hn => hk i n hi hn))
  refine ⟨(phi, psi), ?_, p2, s2⟩
  unfold invEigen
  simp only [Option.bind_eq_bind] at p1 s1
  dsimp only
  simp only [Option.bind_eq_bind, p1, s1, Option.bind_some]
  rfl

end FNFT

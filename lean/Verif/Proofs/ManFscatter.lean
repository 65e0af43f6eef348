import Verif.Proofs.ManExp
import Verif.Proofs.AknsFscatter
import Verif.Props.MiscNum
import Mathlib.Tactic.IntervalCases
/-!
# `manakov_fscatter` multiplies the sample matrices
-/
namespace FNFT
open Finset Polynomial

theorem manTab_wf {d : ManDisc} {tab : Tab} (h : manTab d = some tab) : tab.wfN 9 (man_degree d) = true := by
  cases d <;> simp only [manTab, Option.some.injEq, reduceCtorEq] at h <;> subst h <;> decide +kernel

theorem manTab_degree {d : ManDisc} {tab : Tab} (h : manTab d = some tab) :
    man_degree d ≠ 0 ∧ man_degree d ≤ 14 ∧ man_upsampling_factor d ≠ 0 ∧ tab.zero = false := by
  cases d <;> simp only [manTab, Option.some.injEq, reduceCtorEq] at h <;> subst h <;> decide

theorem manLoopLen_eq (D : ℕ) (d : ManDisc) : manLoopLen D d = D := by
  cases d <;> simp [manLoopLen, manIsFTES, man_upsampling_factor]

/-- Odd coefficients of the loop body of `FTES4_suzuki` are zero. -/
theorem look_odd (env : ℕ → ℕ → ℂ) (l : List Asg) (acc : List (ℕ × ℕ × ℂ))
    (hl : (l.all fun a => a.k % 2 == 0 || decide (a.rhs = .num 0)) = true)
    (hacc : ∀ t k, k % 2 = 1 → look acc t k = 0) :
    ∀ t k, k % 2 = 1 → look (runVals env l acc) t k = 0 := by
  induction l generalizing acc with
  | nil => exact hacc
  | cons a l ih =>
    simp only [List.all_cons, Bool.and_eq_true, Bool.or_eq_true, beq_iff_eq, decide_eq_true_eq] at hl
    refine ih _ hl.2 ?_
    intro t k hk
    simp only [look]
    split_ifs with h
    · rcases hl.1 with h1 | h1
      · omega
      · rw [h1]; simp [Ex.val]
    · exact hacc t k hk

theorem suzuki_odd (env : ℕ → ℕ → ℂ) (t k : ℕ) (hk : k % 2 = 1) :
    look (runVals env manTabFTES4_suzuki.asg []) t k = 0 :=
  look_odd env _ [] (by decide +kernel) (fun _ _ _ => rfl) t k hk

/-- The coefficients after the loop body, matrix by matrix. -/
noncomputable def manCoef (d : ManDisc) (tab : Tab) (env : ℕ → ℕ → ℂ) (k : ℕ) : Spec.M3 :=
  if d = .FTES4_suzuki then
    Refl.matOf (env 3) * Refl.matOf (fun t => look (runVals env tab.asg []) t k) * Refl.matOf (env 4)
  else Refl.matOf (fun t => look (runVals env tab.asg []) t k)

theorem stores_ofFn (e : ℕ → ℂ) : Spec.Stores (Buf.ofFn 9 e) (Refl.matOf e) := by
  intro i j
  rw [Buf.rd_ofFn (by have := i.2; have := j.2; omega)]
  simp only [Refl.matOf, Matrix.of_apply]
  congr 2
  ring

theorem manMultE_ok (base : ℕ → ℕ) (E1 E2 : ℕ → ℂ) (j : ℕ) (p : Buf ℂ) (c : ℕ → ℂ)
    (hinj : ∀ t t', t < 9 → t' < 9 → base t + j = base t' + j → t = t') (hlen : ∀ t, t < 9 → base t + j < p.len)
    (hp : ∀ t, t < 9 → p.rd (base t + j) = some (c t)) :
    ∃ p', manMultE base E1 E2 j p = some p' ∧ p'.len = p.len ∧
      (∀ a b : Fin 3, p'.rd (base (3 * a + b) + j) =
        some ((Refl.matOf E1 * Refl.matOf c * Refl.matOf E2) a b)) ∧
      ∀ l, (∀ t, t < 9 → l ≠ base t + j) → p'.rd l = p.rd l := by
  obtain ⟨P, h1, h2, h3⟩ := forLoop_inv (n := 9) (body := fun t (P : Buf ℂ) => do
      let v ← p.rd (base t + j)
      P.wr t v) (s := Buf.malloc 9)
    (fun n P => P.len = 9 ∧ ∀ t, t < n → P.rd t = some (c t))
    ⟨rfl, fun t ht => absurd ht (Nat.not_lt_zero t)⟩
    (by
      rintro n P hn ⟨g1, g2⟩
      obtain ⟨P', w1, w2, w3, w4⟩ := Buf.wr_spec (b := P) (i := n) (v := c n) (by omega)
      refine ⟨P', by simp only [hp n hn, Option.bind_eq_bind, Option.bind_some, w1], by omega, ?_⟩
      intro t ht
      by_cases e : t = n
      · subst e; exact w3
      · rw [w4 t e]; exact g2 t (by omega))
  have hP : Spec.Stores P (Refl.matOf c) := by
    intro a b
    rw [h3 _ (by have := a.2; have := b.2; omega)]
    simp only [Refl.matOf, Matrix.of_apply]
    congr 2; ring
  obtain ⟨b1, m1, m2, m3, -⟩ := C19_matrix_mult (Refl.matOf E1) (Refl.matOf c) (Buf.ofFn 9 E1) P (Buf.malloc 9)
    (stores_ofFn E1) hP (by simp)
  obtain ⟨b2, n1, n2, n3, -⟩ := C19_matrix_mult (Refl.matOf E1 * Refl.matOf c) (Refl.matOf E2) b1 (Buf.ofFn 9 E2)
    (Buf.malloc 9) m2 (stores_ofFn E2) (by simp)
  set R := Refl.matOf E1 * Refl.matOf c * Refl.matOf E2 with hR
  have hb2 : ∀ t, t < 9 → ∃ v, b2.rd t = some v := by
    intro t ht
    have := n2 ⟨t / 3, by omega⟩ ⟨t % 3, by omega⟩
    simp only at this
    rw [show t / 3 * 3 + t % 3 = t by omega] at this
    exact ⟨_, this⟩
  choose! v hv using hb2
  obtain ⟨p', q1, q2, q3, q4⟩ := forLoop_inv (n := 9) (body := fun t (p : Buf ℂ) => do
      let v ← b2.rd t
      p.wr (base t + j) v) (s := p)
    (fun n p' => p'.len = p.len ∧ (∀ t, t < n → p'.rd (base t + j) = some (v t)) ∧
      ∀ l, (∀ t, t < n → l ≠ base t + j) → p'.rd l = p.rd l)
    ⟨rfl, fun t ht => absurd ht (Nat.not_lt_zero t), fun _ _ => rfl⟩
    (by
      rintro n p1 hn ⟨g1, g2, g3⟩
      obtain ⟨p2, w1, w2, w3, w4⟩ := Buf.wr_spec (b := p1) (i := base n + j) (v := v n) (by rw [g1]; exact hlen n hn)
      refine ⟨p2, by simp only [hv n hn, Option.bind_eq_bind, Option.bind_some, w1], by omega, ?_, ?_⟩
      · intro t ht
        by_cases e : t = n
        · subst e; exact w3
        · rw [w4 _ (fun h => e (hinj t n (by omega) hn h))]; exact g2 t (by omega)
      · intro l hl
        rw [w4 l (hl n (by omega)), g3 l fun t ht => hl t (by omega)])
  refine ⟨p', ?_, q2, ?_, q4⟩
  · rw [manMultE]
    rw [h1, Option.bind_eq_bind, Option.bind_some, m1, Option.bind_eq_bind, Option.bind_some, n1]
    exact q1
  · intro a b
    have ha := a.2
    have hb := b.2
    rw [q3 _ (by omega), ← hv _ (by omega), ← n2 a b]
    congr 1; ring

theorem addr_lt' {N D n s t k : ℕ} (hs : s < D) (ht : t < N) (hk : k < n) : (t * D + s) * n + k < N * (D * n) := by
  have h1 : t * D + s + 1 ≤ N * D := by
    calc t * D + s + 1 ≤ t * D + D := by omega
      _ = (t + 1) * D := by ring
      _ ≤ N * D := Nat.mul_le_mul_right _ (by omega)
  calc (t * D + s) * n + k < (t * D + s) * n + n := by omega
    _ = (t * D + s + 1) * n := by ring
    _ ≤ N * D * n := Nat.mul_le_mul_right _ h1
    _ = N * (D * n) := by ring

/-- The end of the loop body. -/
theorem manPost_ok (d : ManDisc) (tab : Tab) (htab : manTab d = some tab) (base : ℕ → ℕ) (env : ℕ → ℕ → ℂ) (p : Buf ℂ)
    (hinj : ∀ t k t' k', t < 9 → k ≤ man_degree d → t' < 9 → k' ≤ man_degree d → base t + k = base t' + k' → t = t' ∧ k = k')
    (hlen : ∀ t k, t < 9 → k ≤ man_degree d → base t + k < p.len)
    (hp : ∀ t k, t < 9 → k ≤ man_degree d → p.rd (base t + k) = some (look (runVals env tab.asg []) t k)) :
    ∃ p', manPost d base env p = some p' ∧ p'.len = p.len ∧
      (∀ (a b : Fin 3) k, k ≤ man_degree d → p'.rd (base (3 * a + b) + k) = some (manCoef d tab env k a b)) ∧
      ∀ l, (∀ t k, t < 9 → k ≤ man_degree d → l ≠ base t + k) → p'.rd l = p.rd l := by
  by_cases hd : d = .FTES4_suzuki
  · subst hd
    simp only [manTab, Option.some.injEq] at htab
    subst htab
    have hdeg : man_degree .FTES4_suzuki = 14 := rfl
    simp only [hdeg] at hinj hlen hp ⊢
    rw [manPost, if_pos rfl]
    obtain ⟨p', h1, h2, h3, h4, h5⟩ := forLoop_inv (n := 8) (body := fun j p => manMultE base (env 3) (env 4) (2 * j) p) (s := p)
      (fun n p' => p'.len = p.len ∧
        (∀ (a b : Fin 3) j, j < n → p'.rd (base (3 * a + b) + 2 * j) = some (manCoef .FTES4_suzuki manTabFTES4_suzuki env (2 * j) a b)) ∧
        (∀ t k, t < 9 → k ≤ 14 → (∀ j, j < n → k ≠ 2 * j) →
          p'.rd (base t + k) = some (look (runVals env manTabFTES4_suzuki.asg []) t k)) ∧
        ∀ l, (∀ t k, t < 9 → k ≤ 14 → l ≠ base t + k) → p'.rd l = p.rd l)
      ⟨rfl, fun a b j hj => absurd hj (Nat.not_lt_zero j), fun t k ht hk _ => hp t k ht hk, fun _ _ => rfl⟩
      (by
        rintro n p1 hn ⟨g1, g2, g3, g4⟩
        obtain ⟨p2, m1, m2, m3, m4⟩ := manMultE_ok base (env 3) (env 4) (2 * n) p1
          (fun t => look (runVals env manTabFTES4_suzuki.asg []) t (2 * n))
          (fun t t' ht ht' h => (hinj t _ t' _ ht (by omega) ht' (by omega) h).1)
          (fun t ht => by rw [g1]; exact hlen t _ ht (by omega))
          (fun t ht => g3 t (2 * n) ht (by omega) (fun j hj => by omega))
        refine ⟨p2, m1, by omega, ?_, ?_, ?_⟩
        · intro a b j hj
          by_cases e : j = n
          · subst e
            rw [m3 a b, manCoef, if_pos rfl]
          · rw [m4, g2 a b j (by omega)]
            intro t ht h
            have ha := a.2
            have hb := b.2
            have := (hinj _ _ _ _ (by omega) (by omega) ht (by omega) h).2
            omega
        · intro t k ht hk hne
          rw [m4, g3 t k ht hk fun j hj => hne j (by omega)]
          intro t' ht' h
          have := (hinj _ _ _ _ ht hk ht' (by omega) h).2
          exact hne n (by omega) this
        · intro l hl
          rw [m4 l fun t ht => hl t _ ht (by omega), g4 l hl])
    refine ⟨p', h1, h2, ?_, h5⟩
    intro a b k hk
    have ha := a.2
    have hb := b.2
    rcases Nat.mod_two_eq_zero_or_one k with e | e
    · rw [show k = 2 * (k / 2) by omega]
      exact h3 a b (k / 2) (by omega)
    · rw [h4 _ k (by omega) hk (fun j hj => by omega), suzuki_odd env _ _ e, manCoef, if_pos rfl]
      have : (fun t => look (runVals env manTabFTES4_suzuki.asg []) t k) = fun _ => 0 := by
        funext t; exact suzuki_odd env t k e
      rw [this]
      have : Refl.matOf (fun _ => (0 : ℂ)) = 0 := by ext i j; rfl
      rw [this]; simp
  · refine ⟨p, by rw [manPost, if_neg hd], rfl, ?_, fun _ _ => rfl⟩
    intro a b k hk
    rw [hp _ k (by have := a.2; have := b.2; omega) hk, manCoef, if_neg hd]
    rfl

/-- The samples a loop iteration looks at. -/
def manNb (d : ManDisc) (D : ℕ) (q : ℕ → ℂ) (i : ℕ) : ℂ × ℂ × ℂ :=
  if manIsFTES d then (q (i - 1), q i, q (min (i + 1) (D - 1))) else (q i, q i, q i)

theorem manSamples_ok (d : ManDisc) (D : ℕ) (q : Buf ℂ) (qf : ℕ → ℂ) (hq : q.Holds 0 D qf) (i : ℕ) (hi : i < D) :
    manSamples d D i q = some (manNb d D qf i) := by
  have hr : ∀ j, j < D → q.rd j = some (qf j) := fun j hj => by simpa using hq j hj
  rw [manSamples, manNb]
  split_ifs
  · rw [manNeigh, hr i hi]
    rw [hr (if i = 0 then i else i - 1) (by split_ifs <;> omega), hr (if i = D - 1 then i else i + 1) (by split_ifs <;> omega)]
    simp only [Option.bind_eq_bind, Option.bind_some, Option.pure_def]
    congr 2
    · congr 1; split_ifs <;> omega
    · congr 2; split_ifs <;> omega
  · rw [hr i hi]; rfl

/-- The sample loop. -/
theorem manLoop_ok (d : ManDisc) (tab : Tab) (htab : manTab d = some tab) (eps : ℝ) (kappa : ℤ) (D : ℕ)
    (q1 q2 : Buf ℂ) (f1 f2 : ℕ → ℂ) (hq1 : q1.Holds 0 D f1) (hq2 : q2.Holds 0 D f2)
    (p : Buf ℂ) (hlen : 9 * (D * (man_degree d + 1)) ≤ p.len) :
    ∃ p', forLoop D (manSample d tab (man_degree d) eps kappa D D q1 q2) p = some p' ∧ p'.len = p.len ∧
      ∀ (a b : Fin 3) s k, s < D → k ≤ man_degree d →
        p'.rd (((3 * a + b) * D + s) * (man_degree d + 1) + k) =
          some (manCoef d tab (manEnv tab eps kappa (manNb d D f1 (D - 1 - s)) (manNb d D f2 (D - 1 - s))) k a b) := by
  set deg := man_degree d with hdeg
  have hw := manTab_wf htab
  rw [← hdeg] at hw
  obtain ⟨-, -, -, hz⟩ := manTab_degree htab
  set env : ℕ → ℕ → ℕ → ℂ := fun i => manEnv tab eps kappa (manNb d D f1 i) (manNb d D f2 i) with henv
  obtain ⟨p', h1, h2, h3⟩ := forLoop_inv (n := D) (body := manSample d tab deg eps kappa D D q1 q2) (s := p)
    (fun n p' => p'.len = p.len ∧
      ∀ (a b : Fin 3) s k, s < n → k ≤ deg →
        p'.rd (((3 * a + b) * D + s) * (deg + 1) + k) = some (manCoef d tab (env (D - 1 - s)) k a b))
    ⟨rfl, fun a b s k hs => absurd hs (Nat.not_lt_zero s)⟩
    (by
      rintro n p1 hn ⟨hl, hdone⟩
      have hinj : ∀ t k t' k', t < 9 → k ≤ deg → t' < 9 → k' ≤ deg →
          (t * D + n) * (deg + 1) + k = (t' * D + n) * (deg + 1) + k' → t = t' ∧ k = k' := by
        intro t k t' k' _ hk _ hk' he
        have := addr_inj hn hn (show k < deg + 1 by omega) (show k' < deg + 1 by omega) he
        exact ⟨this.1, this.2.2⟩
      have hin : ∀ t k, t < 9 → k ≤ deg → (t * D + n) * (deg + 1) + k < p1.len := by
        intro t k ht hk
        have := addr_lt' hn ht (show k < deg + 1 by omega); omega
      obtain ⟨p2, g1, g2, g3, g4⟩ := Tab.exec hw (fun t => (t * D + n) * (deg + 1)) (env (D - 1 - n)) p1 hinj hin
        (fun h => by rw [hz] at h; cases h)
      obtain ⟨p3, k1, k2, k3, k4⟩ := manPost_ok d tab htab (fun t => (t * D + n) * (deg + 1)) (env (D - 1 - n)) p2 hinj
        (fun t k ht hk => by rw [g2]; exact hin t k ht hk) g3
      refine ⟨p3, ?_, by omega, ?_⟩
      · rw [manSample, manSamples_ok d D q1 f1 hq1 _ (by omega), manSamples_ok d D q2 f2 hq2 _ (by omega)]
        simp only [Option.bind_eq_bind, Option.bind_some]
        rw [show manEnv tab eps kappa (manNb d D f1 (D - 1 - n)) (manNb d D f2 (D - 1 - n)) = env (D - 1 - n) from rfl, g1]
        exact k1
      · intro a b s k hs hk
        have ha := a.2
        have hb := b.2
        rcases Nat.lt_succ_iff_lt_or_eq.mp hs with h | h
        · rw [← hdone a b s k h hk]
          have hne : ∀ t k', t < 9 → k' ≤ deg →
              ((3 * (a : ℕ) + b) * D + s) * (deg + 1) + k ≠ (t * D + n) * (deg + 1) + k' := by
            intro t' k' _ hk' he
            have := addr_inj (show s < D by omega) hn (show k < deg + 1 by omega) (show k' < deg + 1 by omega) he
            omega
          rw [k4 _ hne, g4 _ hne]
        · subst h; exact k3 a b k hk)
  exact ⟨p', h1, h2, h3⟩

/-- Polynomial matrix of a sample. -/
noncomputable def sampleP3 (d : ManDisc) (tab : Tab) (env : ℕ → ℕ → ℂ) : Matrix (Fin 3) (Fin 3) ℂ[X] :=
  Matrix.of fun a b => Spec.poly (man_degree d) (fun k => manCoef d tab env k a b)

/-- `manakov_fscatter` on valid arguments. -/
theorem man_fscatter_ok (d : ManDisc) (tab : Tab) (htab : manTab d = some tab) (D : ℕ) (hD : 2 ≤ D)
    (hD' : D ≤ 2147483647) (kappa : ℤ) (hκ : |kappa| = 1)
    (q1 q2 : Buf ℂ) (f1 f2 : ℕ → ℂ) (hq1 : q1.Holds 0 D f1) (hq2 : q2.Holds 0 D f2)
    (eps : ℝ) (heps : 0 < eps) (result : Buf ℂ) (L : ℕ) (hL : man_fscatter_numel D d = some L) (hlen : L ≤ result.len)
    (dg : ℕ) (Wp : Option ℤ) :
    ∃ R, man_fscatter D (some q1) (some q2) kappa eps (some result) (some dg) Wp d = some R ∧
      R.ret = some SUCCESS ∧ R.deg = D * man_degree d ∧ R.result.len = result.len ∧ (Wp = none → R.W = 0) ∧
      ∃ y, R.result.Holds 0 (9 * (D * man_degree d + 1)) y ∧
        C ((2 : ℂ) ^ R.W) • Spec.pmat 3 (D * man_degree d) (D * man_degree d + 1) 0 y =
          ((List.range D).map fun s => sampleP3 d tab
            (manEnv tab eps kappa (manNb d D f1 (D - 1 - s)) (manNb d D f2 (D - 1 - s)))).prod ∧
        (Wp.isSome = true → (∃ i, i < 9 * (D * man_degree d + 1) ∧ y i ≠ 0) →
          (∃ i, i < 9 * (D * man_degree d + 1) ∧ 1 ≤ ‖y i‖) ∧ ∀ i, i < 9 * (D * man_degree d + 1) → ‖y i‖ < 2) := by
  obtain ⟨hd0, hd1, hup, -⟩ := manTab_degree htab
  have hLoop : manLoopLen D d = D := manLoopLen_eq D d
  have hup' : man_upsampling_factor d ≤ 2 := by cases d <;> simp [man_upsampling_factor]
  set deg := man_degree d with hdeg
  have hL' : poly_fmult_numel 9 deg D = some L := by
    rw [man_fscatter_numel, ← hdeg] at hL; simpa only [if_neg hd0] using hL
  have hup1 : D ≤ D * man_upsampling_factor d := Nat.le_mul_of_pos_right _ (by omega)
  have hup2 : D * man_upsampling_factor d ≤ D * 2 := Nat.mul_le_mul_left _ hup'
  obtain ⟨k, hk, hk1, hk2⟩ := nextpow2_spec D (by omega) (by omega)
  obtain ⟨k', hk', hk1', hk2'⟩ := nextpow2_spec (D * man_upsampling_factor d) (by omega) (by omega)
  obtain ⟨len, hlen1⟩ : ∃ len, len = 9 * (deg + 1) * 2 ^ k' := ⟨_, rfl⟩
  have hnum : man_fscatter_numel (D * man_upsampling_factor d) d = some len := by
    rw [man_fscatter_numel]
    simp only [← hdeg, if_neg hd0]
    rw [poly_fmult_numel, hk', hlen1]; rfl
  rw [poly_fmult_numel, hk, Option.map_some, Option.some_inj] at hL'
  have hkk : 2 ^ k ≤ 2 ^ k' := by
    have : 2 ^ k < 2 ^ (k' + 1) := by rw [pow_succ]; omega
    exact Nat.pow_le_pow_right (by norm_num) (Nat.lt_succ_iff.mp ((Nat.pow_lt_pow_iff_right (by norm_num)).mp this))
  have hLl : L ≤ len := by
    rw [← hL', hlen1]
    exact Nat.mul_le_mul_left _ hkk
  have hLD : 9 * (D * (deg + 1)) ≤ L := by
    rw [← hL']
    calc 9 * (D * (deg + 1)) ≤ 9 * (2 ^ k * (deg + 1)) := Nat.mul_le_mul_left _ (Nat.mul_le_mul_right _ hk1)
      _ = _ := by ring
  have hL0 : len ≠ 0 := by
    have : 0 < D * (deg + 1) := Nat.mul_pos (by omega) (by omega)
    omega
  obtain ⟨p1, l1, l2, l3⟩ := manLoop_ok d tab htab eps kappa D q1 q2 f1 f2 hq1 hq2 (Buf.malloc len)
    (by rw [← hdeg]; simp only [Buf.malloc_len]; omega)
  rw [Buf.malloc_len] at l2
  rw [← hdeg] at l1 l3
  set x : ℕ → ℂ := fun j => (p1.rd j).getD 0 with hx
  set env : ℕ → ℕ → ℕ → ℂ := fun i => manEnv tab eps kappa (manNb d D f1 i) (manNb d D f2 i) with henv
  have hxh : p1.Holds 0 (9 * (D * (deg + 1))) x := by
    intro j hj
    rw [Nat.zero_add]
    have hk : j % (deg + 1) < deg + 1 := Nat.mod_lt _ (by omega)
    have h1 : j / (deg + 1) < 9 * D := by
      rw [Nat.div_lt_iff_lt_mul (by omega)]; rw [mul_assoc]; exact hj
    have hs : j / (deg + 1) % D < D := Nat.mod_lt _ (by omega)
    have ht : j / (deg + 1) / D < 9 := by rw [Nat.div_lt_iff_lt_mul (by omega)]; exact h1
    obtain ⟨t, ht'⟩ : ∃ t, t = j / (deg + 1) / D := ⟨_, rfl⟩
    have e : (t * D + j / (deg + 1) % D) * (deg + 1) + j % (deg + 1) = j := by
      rw [ht', mul_comm (j / (deg + 1) / D), Nat.div_add_mod, mul_comm, Nat.div_add_mod]
    have := l3 ⟨t / 3, by omega⟩ ⟨t % 3, by omega⟩ _ _ hs (Nat.le_of_lt_succ hk)
    simp only at this
    rw [show 3 * (t / 3) + t % 3 = t by omega, e] at this
    simp only [hx, this, Option.getD_some]
  obtain ⟨f, r1, r2, r3, r4, y, r5, r6, r7, r8⟩ := C16_fmult3x3 deg D hD (by omega)
    (by calc 2 * deg * D ≤ 2 * 14 * 2147483647 := Nat.mul_le_mul (by omega) hD'
          _ < 3 ^ 32 := by norm_num) p1 result L (by rw [poly_fmult_numel, hk, ← hL']; rfl) (by omega) hlen x hxh Wp.isSome
  refine ⟨⟨some SUCCESS, f.deg, if Wp.isSome then f.W else Wp.getD 0, f.result⟩, ?_, rfl, r3, r4, ?_, y, r5, ?_, r8⟩
  · rw [man_fscatter, if_neg (by omega)]
    simp only [if_neg (not_le.mpr heps), hκ, ne_eq, not_true_eq_false, if_false]
    rw [man_fscatter_main, if_neg hup, hnum]
    simp only [Option.bind_eq_bind, Option.bind_some, if_neg hL0, htab, ← hdeg, hLoop, l1, r1, r2]
    simp
  · rintro rfl; simp
  · have hWW : (if Wp.isSome then f.W else Wp.getD 0) = f.W := by
      cases Wp with
      | none => simpa using (r7 rfl).symm
      | some w => simp
    simp only [hWW]
    rw [r6]
    congr 1
    refine List.map_congr_left fun s hs => ?_
    have hs' : s < D := List.mem_range.mp hs
    ext1 a b
    simp only [Spec.pmat, sampleP3, Matrix.of_apply]
    refine Spec.poly_congr fun k hk => ?_
    have := l3 a b s k hs' hk
    simp only [hx]
    rw [show (3 * (a : ℕ) + b) * (D * (deg + 1)) + s * (deg + 1) + k = ((3 * (a : ℕ) + b) * D + s) * (deg + 1) + k by ring] 
    rw [this, Option.getD_some]

end FNFT

import Verif.Proofs.ManExp
import Verif.Model.ManScatter
import Verif.Props.MiscNum
import Verif.Proofs.ManFscatter
import Verif.Proofs.AknsScatter
/-!
# `manakov_scatter_matrix` multiplies exact matrix exponentials
-/
namespace FNFT
open Complex
local notation "mexp" => NormedSpace.exp

section
variable {κ : ℤ} {q1 q2 : ℂ} (h : ¬ (q1 = 0 ∧ q2 = 0)) (lam : ℂ)
include h

theorem manM_P : (Spec.manA lam + Spec.manB κ q1 q2) * manP q1 q2 = manP q1 q2 * (Spec.manA lam + Spec.manB κ q1 q2) := by
  have h0 := qq_ne h
  unfold manP Spec.manB Spec.manA
  generalize (starRingEnd ℂ) q1 = a at *
  generalize (starRingEnd ℂ) q2 = b at *
  obtain ⟨S, hS⟩ : ∃ S, S = q1 * a + q2 * b := ⟨_, rfl⟩
  rw [← hS] at h0 ⊢
  ext i j
  fin_cases i <;> fin_cases j <;> simp [Matrix.mul_apply, Fin.sum_univ_three] <;> field_simp <;> (subst hS; ring)

theorem manM_Q : (Spec.manA lam + Spec.manB κ q1 q2) * (1 - manP q1 q2) = (I * lam) • (1 - manP q1 q2) := by
  have h0 := qq_ne h
  unfold manP Spec.manB Spec.manA
  generalize (starRingEnd ℂ) q1 = a at *
  generalize (starRingEnd ℂ) q2 = b at *
  obtain ⟨S, hS⟩ : ∃ S, S = q1 * a + q2 * b := ⟨_, rfl⟩
  rw [← hS] at h0 ⊢
  ext i j
  fin_cases i <;> fin_cases j <;> simp [Matrix.mul_apply, Fin.sum_univ_three] <;> field_simp <;> (subst hS; ring)

theorem manM_sq : (Spec.manA lam + Spec.manB κ q1 q2) * (Spec.manA lam + Spec.manB κ q1 q2) * manP q1 q2 =
    (-(lam * lam + κ * q1 * (starRingEnd ℂ) q1 + κ * q2 * (starRingEnd ℂ) q2)) • manP q1 q2 := by
  have h0 := qq_ne h
  unfold manP Spec.manB Spec.manA
  generalize (starRingEnd ℂ) q1 = a at *
  generalize (starRingEnd ℂ) q2 = b at *
  obtain ⟨S, hS⟩ : ∃ S, S = q1 * a + q2 * b := ⟨_, rfl⟩
  rw [← hS] at h0 ⊢
  have hI : ∀ x : ℂ, I * x * (I * x) = -(x * x) := fun x => by linear_combination x * x * I_sq
  ext i j
  fin_cases i <;> fin_cases j <;> simp [Matrix.mul_apply, Fin.sum_univ_three, hI] <;> field_simp <;> (try simp only [I_sq]) <;>
    (subst hS; ring)

/-- `exp (c (A + B))`. -/
theorem exp_manM (c w : ℂ) (hw : w ^ 2 = c ^ 2 * (lam * lam + κ * q1 * (starRingEnd ℂ) q1 + κ * q2 * (starRingEnd ℂ) q2)) :
    mexp (c • (Spec.manA lam + Spec.manB κ q1 q2)) =
      exp (c * (I * lam)) • (1 - manP q1 q2) + cos w • manP q1 q2 +
        csinc w • (c • ((Spec.manA lam + Spec.manB κ q1 q2) * manP q1 q2)) := by
  obtain ⟨M, hM⟩ : ∃ M, M = Spec.manA lam + Spec.manB κ q1 q2 := ⟨_, rfl⟩
  obtain ⟨P, hPd⟩ : ∃ P, P = manP q1 q2 := ⟨_, rfl⟩
  have hP := manP_sq h
  have h1 := manM_P (κ := κ) h lam
  have h2 := manM_Q (κ := κ) h lam
  have h3 := manM_sq (κ := κ) h lam
  rw [← hM, ← hPd] at h1 h2 h3
  rw [← hPd] at hP
  rw [← hM, ← hPd]
  have hQ : (1 - P) * (1 - P) = 1 - P := by
    rw [mul_sub, sub_mul, sub_mul, hP]; simp
  have hPQ : P * (1 - P) = 0 := by rw [mul_sub, hP]; simp
  have hQP : (1 - P) * P = 0 := by rw [sub_mul, hP]; simp
  have hMP : (M * P) * (M * P) = M * M * P := by
    rw [mul_assoc, ← mul_assoc P, ← h1, mul_assoc M P, hP, ← mul_assoc]
  have hsplit : c • M = c • (M * P) + (c * (I * lam)) • (1 - P) := by
    rw [mul_smul, ← h2, ← smul_add, ← mul_add]
    simp
  have e1 := exp_of_idem (c • (M * P)) P w hP (by rw [mul_smul_comm, ← mul_assoc, ← h1, mul_assoc, hP])
    (by rw [smul_mul_smul_comm, hMP, h3, smul_smul, hw]; congr 1; ring)
  have e2 := exp_smul_idem (1 - P) (c * (I * lam)) hQ
  have hz1 : c • (M * P) * ((c * (I * lam)) • (1 - P)) = 0 := by
    rw [smul_mul_smul_comm, mul_assoc, hPQ, mul_zero, smul_zero]
  have hz2 : ((c * (I * lam)) • (1 - P)) * c • (M * P) = 0 := by
    rw [smul_mul_smul_comm, h1, ← mul_assoc (1 - P) P M, hQP, zero_mul, smul_zero]
  rw [hsplit, Matrix.exp_add_of_commute _ _ (by rw [Commute, SemiconjBy, hz1, hz2]), e1, e2]
  have e3 : (1 : Spec.M3) - (1 - P) = P := by abel
  rw [e3]
  have e4 : M * P * (1 - P) = 0 := by rw [mul_assoc, hPQ, mul_zero]
  have e5 : M * P * P = M * P := by rw [mul_assoc, hP]
  simp only [add_mul, mul_add, smul_mul_assoc, mul_smul_comm, hP, hPQ, hQP, hQ, e4, e5, smul_zero, add_zero, zero_add]
  abel
end

theorem manU_BO_some {κ : ℤ} {eps : ℝ} (he : 0 < eps) {q1 q2 lam : ℂ}
    (hx : (‖q1‖ < EPSILON ∧ ‖q2‖ < EPSILON) ∨
      lam * lam + κ * q1 * (starRingEnd ℂ) q1 + κ * q2 * (starRingEnd ℂ) q2 ≠ 0) :
    ∃ U, manU_BO q1 q2 lam eps κ = some U ∧
      Refl.matOf U = mexp ((eps : ℂ) • (Spec.manA lam + Spec.manB κ (Spec.manTrunc q1 q2).1 (Spec.manTrunc q1 q2).2)) := by
  by_cases h : ‖q1‖ < EPSILON ∧ ‖q2‖ < EPSILON
  · rw [manU_BO, if_pos h, manTrunc_tiny h]
    refine ⟨_, rfl, ?_⟩
    simp only [manB_zero, add_zero]
    have hd : (eps : ℂ) • Spec.manA lam = Matrix.diagonal ![-I * lam * eps, I * lam * eps, I * lam * eps] := by
      ext i j
      fin_cases i <;> fin_cases j <;> simp [Spec.manA] <;> ring
    rw [hd, Matrix.exp_diagonal]
    ext i j
    fin_cases i <;> fin_cases j <;> simp [Refl.matOf, ← Complex.exp_eq_exp_ℂ]
  · have hx' := hx.resolve_left h
    have hne : ¬ (q1 = 0 ∧ q2 = 0) := by
      rintro ⟨rfl, rfl⟩
      exact h (by simp [EPSILON])
    have h0 := qq_ne hne
    have hk : csqrt (lam * lam + κ * q1 * (starRingEnd ℂ) q1 + κ * q2 * (starRingEnd ℂ) q2) ≠ 0 := fun h => hx' (csqrt_eq_zero.mp h)
    rw [manU_BO, if_neg h, manTrunc_not h]
    simp only [if_neg hk]
    refine ⟨_, rfl, ?_⟩
    obtain ⟨x1, hx1⟩ : ∃ x1, x1 = csqrt (lam * lam + κ * q1 * (starRingEnd ℂ) q1 + κ * q2 * (starRingEnd ℂ) q2) := ⟨_, rfl⟩
    have hx12 : x1 ^ 2 = lam * lam + κ * q1 * (starRingEnd ℂ) q1 + κ * q2 * (starRingEnd ℂ) q2 := by rw [hx1, csqrt_sq]
    rw [← hx1] at hk ⊢
    have he' : (eps : ℂ) ≠ 0 := by exact_mod_cast he.ne'
    rw [exp_manM hne lam eps (eps * x1) (by rw [mul_pow, hx12]), csinc, if_neg (mul_ne_zero he' hk), Complex.sinh_mul_I,
      Complex.cosh_mul_I]
    generalize sin (eps * x1) = s
    generalize cos (eps * x1) = c
    rw [show (eps : ℂ) * lam * I = eps * (I * lam) by ring]
    generalize exp (eps * (I * lam)) = E
    unfold manP Spec.manB Spec.manA
    generalize (starRingEnd ℂ) q1 = a at *
    generalize (starRingEnd ℂ) q2 = b at *
    obtain ⟨S, hS⟩ : ∃ S, S = q1 * a + q2 * b := ⟨_, rfl⟩
    rw [← hS] at h0 ⊢
    clear hx12 hx1 hx hx' h
    ext i j
    fin_cases i <;> fin_cases j <;> simp [Refl.matOf, Matrix.mul_apply, Fin.sum_univ_three] <;> field_simp <;> (try simp only [I_sq]) <;> try (subst hS; ring)

theorem manScat_loop (D : ℕ) (q1 q2 : Buf ℂ) (f1 f2 : ℕ → ℂ) (hq1 : q1.Holds 0 D f1) (hq2 : q2.Holds 0 D f2)
    {h : ℝ} (hh : 0 < h) {κ : ℤ} (l : ℂ)
    (hx : ∀ n, n < D → (‖f1 n‖ < EPSILON ∧ ‖f2 n‖ < EPSILON) ∨
      l * l + κ * f1 n * (starRingEnd ℂ) (f1 n) + κ * f2 n * (starRingEnd ℂ) (f2 n) ≠ 0) :
    ∃ H, forLoop D (manScatStep q1 q2 l h κ) manId = some H ∧ H.len = 9 ∧
      Spec.Stores H (Spec.chain (fun n => Spec.manStep κ h l (f1 n) (f2 n)) D) := by
  obtain ⟨H, h1, h2, h3⟩ := forLoop_inv (n := D) (body := manScatStep q1 q2 l h κ) (s := manId)
    (fun n H => H.len = 9 ∧ Spec.Stores H (Spec.chain (fun n => Spec.manStep κ h l (f1 n) (f2 n)) n))
    ⟨rfl, by
      have := stores_ofFn (fun c => if c = 0 ∨ c = 4 ∨ c = 8 then (1 : ℂ) else 0)
      rw [matOf_one] at this
      rw [chain_zero]
      exact this⟩
    (by
      rintro n H hn ⟨g1, g2⟩
      have r1 : q1.rd n = some (f1 n) := by simpa using hq1 n hn
      have r2 : q2.rd n = some (f2 n) := by simpa using hq2 n hn
      obtain ⟨U, u1, u2⟩ := manU_BO_some hh (hx n hn)
      obtain ⟨H', m1, m2, m3, -⟩ := C19_matrix_mult (Refl.matOf U) _ (Buf.ofFn 9 U) H (Buf.malloc 9) (stores_ofFn U) g2 (by simp)
      refine ⟨H', ?_, by simpa using m3, ?_⟩
      · simp only [manScatStep, r1, r2, u1, Option.bind_eq_bind, Option.bind_some, m1]
      · rw [chain_succ]
        rw [u2] at m2
        exact m2)
  exact ⟨H, h1, h2, h3⟩

theorem manCopy9_ok (H : Buf ℂ) (M : Spec.M3) (hH : Spec.Stores H M) (off : ℕ) (r : Buf ℂ) (hr : off + 9 ≤ r.len) :
    ∃ r', manCopy9 H off r = some r' ∧ r'.len = r.len ∧ (∀ a b : Fin 3, r'.rd (off + (3 * a + b)) = some (M a b)) ∧
      ∀ j, (j < off ∨ off + 9 ≤ j) → r'.rd j = r.rd j := by
  have hb : ∀ t, t < 9 → ∃ v, H.rd t = some v := by
    intro t ht
    have := hH ⟨t / 3, by omega⟩ ⟨t % 3, by omega⟩
    simp only at this
    rw [show t / 3 * 3 + t % 3 = t by omega] at this
    exact ⟨_, this⟩
  choose! v hv using hb
  obtain ⟨r', h1, h2, h3, h4⟩ := forLoop_inv (n := 9) (body := fun t (r : Buf ℂ) => do
      let v ← H.rd t
      r.wr (off + t) v) (s := r)
    (fun n r' => r'.len = r.len ∧ (∀ t, t < n → r'.rd (off + t) = some (v t)) ∧
      ∀ j, (j < off ∨ off + 9 ≤ j) → r'.rd j = r.rd j)
    ⟨rfl, fun t ht => absurd ht (Nat.not_lt_zero t), fun _ _ => rfl⟩
    (by
      rintro n p1 hn ⟨g1, g2, g3⟩
      obtain ⟨p2, w1, w2, w3, w4⟩ := Buf.wr_spec (b := p1) (i := off + n) (v := v n) (by omega)
      refine ⟨p2, by simp only [hv n hn, Option.bind_eq_bind, Option.bind_some, w1], by omega, ?_, ?_⟩
      · intro t ht
        by_cases e : t = n
        · subst e; exact w3
        · rw [w4 _ (by omega)]; exact g2 t (by omega)
      · intro l hl
        rw [w4 l (by omega), g3 l hl])
  refine ⟨r', h1, h2, ?_, h4⟩
  intro a b
  have ha := a.2
  have hb := b.2
  rw [h3 _ (by omega), ← hv _ (by omega), ← hH a b]
  congr 1; ring

theorem manScat_lambda_loop (half : Bool) (D K : ℕ) (q1 q2 lambda : Buf ℂ) (f1 f2 lf : ℕ → ℂ) (hq1 : q1.Holds 0 D f1)
    (hq2 : q2.Holds 0 D f2) (hl : lambda.Holds 0 K lf) {h : ℝ} (hh : 0 < h) {κ : ℤ}
    (hx : ∀ i, i < K → ∀ n, n < D → (‖f1 n‖ < EPSILON ∧ ‖f2 n‖ < EPSILON) ∨
      (if half then lf i / 2 else lf i) * (if half then lf i / 2 else lf i) + κ * f1 n * (starRingEnd ℂ) (f1 n) +
        κ * f2 n * (starRingEnd ℂ) (f2 n) ≠ 0)
    (r : Buf ℂ) (hr : 9 * K ≤ r.len) :
    ∃ r', forLoop K (manScatLambda half D q1 q2 h κ lambda) r = some r' ∧ r'.len = r.len ∧
      (∀ i, i < K → ∀ a b : Fin 3, r'.rd (9 * i + (3 * a + b)) =
        some (Spec.chain (fun n => Spec.manStep κ h (if half then lf i / 2 else lf i) (f1 n) (f2 n)) D a b)) ∧
      ∀ j, 9 * K ≤ j → r'.rd j = r.rd j := by
  refine forLoop_inv (n := K) (body := manScatLambda half D q1 q2 h κ lambda) (s := r)
    (fun k r' => r'.len = r.len ∧
      (∀ i, i < k → ∀ a b : Fin 3, r'.rd (9 * i + (3 * a + b)) =
        some (Spec.chain (fun n => Spec.manStep κ h (if half then lf i / 2 else lf i) (f1 n) (f2 n)) D a b)) ∧
      ∀ j, 9 * k ≤ j → r'.rd j = r.rd j)
    ⟨rfl, fun t ht => absurd ht (Nat.not_lt_zero t), fun _ _ => rfl⟩ ?_
  rintro k p1 hk ⟨g1, g2, g3⟩
  have rl : lambda.rd k = some (lf k) := by simpa using hl k hk
  obtain ⟨H, s1, s2, s3⟩ := manScat_loop D q1 q2 f1 f2 hq1 hq2 hh (if half then lf k / 2 else lf k) (hx k hk)
  obtain ⟨p2, c1, c2, c3, c4⟩ := manCopy9_ok H _ s3 (9 * k) p1 (by omega)
  refine ⟨p2, ?_, by omega, ?_, ?_⟩
  · simp only [manScatLambda, rl, s1, Option.bind_eq_bind, Option.bind_some, c1]
  · intro i hi a b
    have ha := a.2
    have hb := b.2
    by_cases e : i = k
    · subst e; exact c3 a b
    · rw [c4 _ (by omega)]; exact g2 i (by omega) a b
  · intro j hj
    rw [c4 j (by omega), g3 j (by omega)]

end FNFT

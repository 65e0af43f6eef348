import Verif.Proofs.SincDeriv
import Verif.Proofs.AknsScatTop
/-!
# Derivatives of the one-step propagators with respect to `lambda`
-/
namespace FNFT
open Complex Matrix AknsDisc

local notation "mexp" => NormedSpace.exp

/-- Derivative of the determinant in direction `X'`. -/
def Spec.detD (X X' : Spec.M2) : ℂ := X' 0 0 * X 1 1 + X 0 0 * X' 1 1 - (X' 0 1 * X 1 0 + X 0 1 * X' 1 0)

/-- Derivative of the matrix exponential of a traceless matrix; `w² = det X`. -/
noncomputable def dexp (X X' : Spec.M2) (w : ℂ) : Spec.M2 :=
  (-csinc w * (Spec.detD X X' / 2)) • (1 : Spec.M2) + (csincD w * (Spec.detD X X' / (2 * w))) • X + csinc w • X'

theorem exp_hasDerivAt {X : ℂ → Spec.M2} {X' : Spec.M2} {l w : ℂ} (ht : ∀ z, X z 1 1 = -X z 0 0)
    (hX : ∀ i j, HasDerivAt (fun z => X z i j) (X' i j) l) (h0 : (X l).det ≠ 0) (hw : w ^ 2 = (X l).det) (i j : Fin 2) :
    HasDerivAt (fun z => mexp (X z) i j) (dexp (X l) X' w i j) l := by
  have hd : HasDerivAt (fun z => (X z).det) (Spec.detD (X l) X') l := by
    have := ((hX 0 0).mul (hX 1 1)).sub ((hX 0 1).mul (hX 1 0))
    exact hda this (fun y => by rw [Matrix.det_fin_two]; rfl) rfl
  obtain ⟨h1, h2⟩ := cosq_hasDerivAt hd h0 hw
  have h3 := (h1.mul (hasDerivAt_const l ((1 : Spec.M2) i j))).add (h2.mul (hX i j))
  refine hda h3 (fun y => ?_) ?_
  · rw [exp_traceless (ht y)]; simp
  · have e : csinc (csqrt (X l).det) = csinc w := (csinc_sq (by rw [csqrt_sq, hw])).1
    simp only [dexp, Matrix.add_apply, Matrix.smul_apply, smul_eq_mul, e]
    ring

/-- Error bound of the computed derivatives. -/
noncomputable def Spec.derivTol (X X' : Spec.M2) (i j : Fin 2) : ℝ :=
  1e-33 * (‖Spec.detD X X'‖ / 2 + ‖Spec.detD X X'‖ / (2 * ‖X.det‖) * ‖X i j‖ + ‖X' i j‖) +
    4e-19 * (‖Spec.detD X X'‖ / (2 * Real.sqrt ‖X.det‖) * ‖X i j‖)

/-- `V` is the derivative of `exp (X z)` at `z = l`, up to the tolerance, and exactly if `|det X| ≥ 1`. -/
def Spec.NearDeriv (V : Spec.M2) (X : ℂ → Spec.M2) (l : ℂ) : Prop :=
  ∃ X' F' : Spec.M2, (∀ i j, HasDerivAt (fun z => X z i j) (X' i j) l) ∧
    (∀ i j, HasDerivAt (fun z => mexp (X z) i j) (F' i j) l) ∧
    (∀ i j, ‖V i j - F' i j‖ ≤ Spec.derivTol (X l) X' i j) ∧ (1 ≤ ‖(X l).det‖ → V = F')

theorem norm_of_sq {w z : ℂ} (h : w ^ 2 = z) : ‖w‖ = Real.sqrt ‖z‖ := by
  rw [← h, norm_pow, Real.sqrt_sq (norm_nonneg _)]

theorem CSINC_derivative_eq {w : ℂ} (h : 1 ≤ ‖w‖) : misc_CSINC_derivative w = csincD w ∧ misc_CSINC w = csinc w := by
  have h2 : misc_CSINC w = csinc w := misc_CSINC_eq (Or.inl (by norm_num at h ⊢; linarith))
  exact ⟨by rw [misc_CSINC_derivative, if_pos h, h2, csincD], h2⟩

/-- Derivative block of `U_BO_d`. -/
theorem dBO_near (q r l h : ℂ) (h0 : (h • Spec.aknsP q r l).det ≠ 0) :
    Spec.NearDeriv (dBO q r l h) (fun z => h • Spec.aknsP q r z) l := by
  have hdet : (h • Spec.aknsP q r l).det = -(h ^ 2 * (q * r - l * l)) := by
    rw [Matrix.det_fin_two]; simp [Spec.aknsP]; linear_combination (-h ^ 2 * l ^ 2) * I_mul_I
  have hh : h ≠ 0 := by rintro rfl; apply h0; rw [hdet]; ring
  have hks : q * r - l * l ≠ 0 := by intro e; apply h0; rw [hdet, e]; ring
  have hk : csqrt (q * r - l * l) ≠ 0 := by rw [Ne, csqrt_eq_zero]; exact hks
  have hk2 := csqrt_sq (q * r - l * l)
  set w := I * csqrt (q * r - l * l) * h with hw
  have hw2 : w ^ 2 = (h • Spec.aknsP q r l).det := by
    rw [hdet, hw, mul_pow, mul_pow, hk2, I_sq]; ring
  have hw0 : w ≠ 0 := by rw [hw]; exact mul_ne_zero (mul_ne_zero I_ne_zero hk) hh
  have hcos : cosh (csqrt (q * r - l * l) * h) = cos w := by rw [← cos_mul_I, hw]; congr 1; ring
  have hw' : I * h * csqrt (q * r - l * l) = w := by rw [hw]; ring
  set X' : Spec.M2 := h • !![-I, 0; 0, I] with hX'
  have hX : ∀ i j, HasDerivAt (fun z => (h • Spec.aknsP q r z) i j) (X' i j) l := by
    intro i j
    fin_cases i <;> fin_cases j
    · exact hda ((hasDerivAt_id l).const_mul (h * -I)) (fun y => by simp [Spec.aknsP]; ring) (by simp [hX'])
    · exact hda (hasDerivAt_const l (h * q)) (fun y => by simp [Spec.aknsP]) (by simp [hX'])
    · exact hda (hasDerivAt_const l (h * r)) (fun y => by simp [Spec.aknsP]) (by simp [hX'])
    · exact hda ((hasDerivAt_id l).const_mul (h * I)) (fun y => by simp [Spec.aknsP]; ring) (by simp [hX'])
  have hD : Spec.detD (h • Spec.aknsP q r l) X' = 2 * h ^ 2 * l := by
    simp [Spec.detD, Spec.aknsP, hX']; linear_combination (-2 * h ^ 2 * l) * I_mul_I
  have hcd : csincD w = (cos w - csinc w) / w := rfl
  have hq : ∀ x : ℂ, x / w * (2 * h ^ 2 * l / (2 * w)) = -x * l / (q * r - l * l) := by
    intro x
    have : w * (2 * w) = -(2 * h ^ 2 * (q * r - l * l)) := by linear_combination 2 * (hw2.trans hdet)
    rw [div_mul_div_comm, this]
    field_simp
  set e := misc_CSINC w - csinc w with he
  set e' := misc_CSINC_derivative w - csincD w with he'
  -- entrywise differences
  have d00 : dBO q r l h 0 0 - dexp (h • Spec.aknsP q r l) X' w 0 0 = -(l * h + I + (l * l * I) / (q * r - l * l)) * (h * e) := by
    simp only [dBO, dexp, hD, Matrix.add_apply, Matrix.smul_apply, hcos, ← hw, hcd, hq, smul_eq_mul]
    simp [Spec.aknsP, hX', he]
    field_simp
    ring
  have d11 : dBO q r l h 1 1 - dexp (h • Spec.aknsP q r l) X' w 1 1 = -(l * h - I - (l * l * I) / (q * r - l * l)) * (h * e) := by
    simp only [dBO, dexp, hD, Matrix.add_apply, Matrix.smul_apply, hcos, ← hw, hcd, hq, smul_eq_mul]
    simp [Spec.aknsP, hX', he]
    field_simp
    ring
  have hod : misc_CSINC_derivative w * I * l * h * h / csqrt (q * r - l * l) - csincD w * I * l * h * h / csqrt (q * r - l * l) =
      e' * (I * l * h * h / csqrt (q * r - l * l)) := by rw [he']; ring
  have hqq : ∀ x : ℂ, csincD w * (2 * h ^ 2 * l / (2 * w)) * (h * x) = -x * (csincD w * I * l * h * h / csqrt (q * r - l * l)) := by
    intro x
    generalize csincD w = c
    rw [hw]
    clear_value w
    generalize csqrt (q * r - l * l) = k at hk
    field_simp
    linear_combination (c * l * x) * I_sq
  have d01 : dBO q r l h 0 1 - dexp (h • Spec.aknsP q r l) X' w 0 1 = -q * (e' * (I * l * h * h / csqrt (q * r - l * l))) := by
    rw [← hod]
    simp only [dBO, dexp, hD, Matrix.add_apply, Matrix.smul_apply, hw', smul_eq_mul]
    simp [Spec.aknsP, hX']
    linear_combination -hqq q
  have d10 : dBO q r l h 1 0 - dexp (h • Spec.aknsP q r l) X' w 1 0 = -r * (e' * (I * l * h * h / csqrt (q * r - l * l))) := by
    rw [← hod]
    simp only [dBO, dexp, hD, Matrix.add_apply, Matrix.smul_apply, hw', smul_eq_mul]
    simp [Spec.aknsP, hX']
    linear_combination -hqq r
  have he1 : ‖e‖ ≤ 1e-33 := misc_CSINC_near w
  have he2 : ‖e'‖ ≤ 4e-19 := CSINC_derivative_near w hw0
  refine ⟨X', dexp (h • Spec.aknsP q r l) X' w, hX, exp_hasDerivAt (fun z => by simp [Spec.aknsP]) hX h0 hw2, ?_, ?_⟩
  · -- sizes
    have hn1 : ‖Spec.detD (h • Spec.aknsP q r l) X'‖ / 2 = ‖h‖ ^ 2 * ‖l‖ := by
      rw [hD, norm_mul, norm_mul, norm_pow]; simp; ring
    have hn2 : ‖Spec.detD (h • Spec.aknsP q r l) X'‖ / (2 * ‖(h • Spec.aknsP q r l).det‖) = ‖l‖ / ‖q * r - l * l‖ := by
      have hh' : ‖h‖ ≠ 0 := by simpa using hh
      have hks' : ‖q * r - l * l‖ ≠ 0 := by simpa using hks
      rw [hD, hdet, norm_neg, norm_mul, norm_mul, norm_mul, norm_pow]
      simp only [Complex.norm_ofNat]
      field_simp
    have hn3 : ‖Spec.detD (h • Spec.aknsP q r l) X'‖ / (2 * Real.sqrt ‖(h • Spec.aknsP q r l).det‖) = ‖h‖ * ‖l‖ / ‖csqrt (q * r - l * l)‖ := by
      have hh' : ‖h‖ ≠ 0 := by simpa using hh
      have hk' : ‖csqrt (q * r - l * l)‖ ≠ 0 := by simpa using hk
      rw [← norm_of_sq hw2, hD, hw, norm_mul, norm_mul, norm_mul, norm_mul, norm_pow, norm_I]
      simp only [Complex.norm_ofNat]
      field_simp
    have hT : ∀ i j, 0 ≤ 4e-19 * (‖h‖ * ‖l‖ / ‖csqrt (q * r - l * l)‖ * ‖(h • Spec.aknsP q r l) i j‖) := by
      intro i j; positivity
    have hT2 : ∀ i j, 0 ≤ 1e-33 * (‖h‖ ^ 2 * ‖l‖ + ‖l‖ / ‖q * r - l * l‖ * ‖(h • Spec.aknsP q r l) i j‖ + ‖X' i j‖) := by
      intro i j; positivity
    have diag : ∀ σ : ℂ, ‖σ‖ = 1 → ‖-(l * h + σ * I + σ * (l * l * I) / (q * r - l * l)) * (h * e)‖ ≤
        1e-33 * (‖h‖ ^ 2 * ‖l‖ + ‖l‖ / ‖q * r - l * l‖ * (‖h‖ * ‖l‖) + ‖h‖) := by
      intro σ hσ
      rw [norm_mul, norm_neg, norm_mul]
      have : ‖l * h + σ * I + σ * (l * l * I) / (q * r - l * l)‖ ≤ ‖l‖ * ‖h‖ + 1 + ‖l‖ * ‖l‖ / ‖q * r - l * l‖ := by
        refine (norm_add_le _ _).trans (add_le_add ((norm_add_le _ _).trans (add_le_add ?_ ?_)) ?_)
        · rw [norm_mul]
        · rw [norm_mul, hσ, norm_I, one_mul]
        · rw [norm_div, norm_mul, norm_mul, norm_mul, norm_I, hσ, one_mul, mul_one]
      calc _ ≤ (‖l‖ * ‖h‖ + 1 + ‖l‖ * ‖l‖ / ‖q * r - l * l‖) * (‖h‖ * 1e-33) := by gcongr
        _ = _ := by ring
    have off : ∀ x : ℂ, ‖-x * (e' * (I * l * h * h / csqrt (q * r - l * l)))‖ ≤
        4e-19 * (‖h‖ * ‖l‖ / ‖csqrt (q * r - l * l)‖ * (‖h‖ * ‖x‖)) := by
      intro x
      rw [norm_mul, norm_neg, norm_mul, norm_div, norm_mul, norm_mul, norm_mul, norm_I, one_mul]
      calc _ ≤ ‖x‖ * (4e-19 * (‖l‖ * ‖h‖ * ‖h‖ / ‖csqrt (q * r - l * l)‖)) := by gcongr
        _ = _ := by ring
    intro i j
    have ht := hT i j
    have ht2 := hT2 i j
    rw [Spec.derivTol, hn1, hn2, hn3]
    fin_cases i <;> fin_cases j
    · have := diag 1 (by simp)
      simp only [one_mul] at this
      have e1 : ‖(h • Spec.aknsP q r l) 0 0‖ = ‖h‖ * ‖l‖ := by simp [Spec.aknsP]
      have e2 : ‖X' 0 0‖ = ‖h‖ := by simp [hX']
      simp only [Fin.zero_eta] at ht ht2 ⊢
      rw [d00]; rw [e1] at ht ht2 ⊢; rw [e2] at ht2 ⊢
      linarith
    · have := off q
      have e1 : ‖(h • Spec.aknsP q r l) 0 1‖ = ‖h‖ * ‖q‖ := by simp [Spec.aknsP]
      simp only [Fin.zero_eta, Fin.mk_one] at ht ht2 ⊢
      rw [d01]; rw [e1] at ht ht2 ⊢
      linarith
    · have := off r
      have e1 : ‖(h • Spec.aknsP q r l) 1 0‖ = ‖h‖ * ‖r‖ := by simp [Spec.aknsP]
      simp only [Fin.zero_eta, Fin.mk_one] at ht ht2 ⊢
      rw [d10]; rw [e1] at ht ht2 ⊢
      linarith
    · have := diag (-1) (by simp)
      have e0 : l * h + -1 * I + -1 * (l * l * I) / (q * r - l * l) = l * h - I - (l * l * I) / (q * r - l * l) := by ring
      rw [e0] at this
      have e1 : ‖(h • Spec.aknsP q r l) 1 1‖ = ‖h‖ * ‖l‖ := by simp [Spec.aknsP]
      have e2 : ‖X' 1 1‖ = ‖h‖ := by simp [hX']
      simp only [Fin.mk_one] at ht ht2 ⊢
      rw [d11]; rw [e1] at ht ht2 ⊢; rw [e2] at ht2 ⊢
      linarith
  · intro h1
    have hw1 : 1 ≤ ‖w‖ := by rw [norm_of_sq hw2]; exact Real.one_le_sqrt.mpr h1
    obtain ⟨c1, c2⟩ := CSINC_derivative_eq hw1
    have z : e = 0 := by rw [he, c2, sub_self]
    have z' : e' = 0 := by rw [he', c1, sub_self]
    rw [z] at d00 d11
    rw [z'] at d01 d10
    ext i j
    rw [← sub_eq_zero]
    fin_cases i <;> fin_cases j
    · exact d00.trans (by ring)
    · exact d01.trans (by ring)
    · exact d10.trans (by ring)
    · exact d11.trans (by ring)

/-- Derivative block of `U_ES4_d`. -/
theorem dES4_near {a1 a2 a3 : ℂ → ℂ} {t0 t1 t2 l : ℂ} (h1 : HasDerivAt a1 t0 l) (h2 : HasDerivAt a2 t1 l)
    (h3 : HasDerivAt a3 t2 l) {X : ℂ → Spec.M2} (hXX : ∀ z, X z = !![a3 z, a1 z - I * a2 z; a1 z + I * a2 z, -a3 z])
    (h0 : (X l).det ≠ 0) :
    Spec.NearDeriv (dES4 (a1 l) (a2 l) (a3 l) t0 t1 t2) X l := by
  obtain rfl : X = fun z => !![a3 z, a1 z - I * a2 z; a1 z + I * a2 z, -a3 z] := funext hXX
  have hdet : (!![a3 l, a1 l - I * a2 l; a1 l + I * a2 l, -a3 l] : Spec.M2).det = -(a1 l * a1 l) - (a2 l * a2 l) - (a3 l * a3 l) := by
    rw [Matrix.det_fin_two]; simp; linear_combination (a2 l ^ 2) * I_mul_I
  have h0' := h0
  simp only [hdet] at h0'
  set w := csqrt (-(a1 l * a1 l) - (a2 l * a2 l) - (a3 l * a3 l)) with hw
  have hw2 : w ^ 2 = (!![a3 l, a1 l - I * a2 l; a1 l + I * a2 l, -a3 l] : Spec.M2).det := by rw [hdet, hw, csqrt_sq]
  have hw0 : w ≠ 0 := by rw [hw, Ne, csqrt_eq_zero]; exact h0'
  set X' : Spec.M2 := !![t2, t0 - I * t1; t0 + I * t1, -t2] with hX'
  have hX : ∀ i j, HasDerivAt (fun z => (!![a3 z, a1 z - I * a2 z; a1 z + I * a2 z, -a3 z] : Spec.M2) i j) (X' i j) l := by
    intro i j
    fin_cases i <;> fin_cases j
    · exact h3
    · exact h1.sub (h2.const_mul I)
    · exact h1.add (h2.const_mul I)
    · exact h3.neg
  set wd := -(a1 l * t0 + a2 l * t1 + a3 l * t2) with hwd
  have hD : Spec.detD (!![a3 l, a1 l - I * a2 l; a1 l + I * a2 l, -a3 l] : Spec.M2) X' = 2 * wd := by
    simp [Spec.detD, hX', hwd]; linear_combination (2 * a2 l * t1) * I_mul_I
  set e := misc_CSINC w - csinc w with he
  set e' := misc_CSINC_derivative w - csincD w with he'
  have key : dES4 (a1 l) (a2 l) (a3 l) t0 t1 t2 - dexp (!![a3 l, a1 l - I * a2 l; a1 l + I * a2 l, -a3 l] : Spec.M2) X' w =
      (-e * wd) • (1 : Spec.M2) + (e' * (wd / w)) • (!![a3 l, a1 l - I * a2 l; a1 l + I * a2 l, -a3 l] : Spec.M2) + e • X' := by
    have hh : 2 * wd / (2 * w) = wd / w := by field_simp
    have hh2 : 2 * wd / 2 = wd := by ring
    simp only [dES4, dexp, hD, ← hw, ← hwd, hh, hh2, he, he']
    ext i j
    fin_cases i <;> fin_cases j <;> simp [hX'] <;> ring
  have he1 : ‖e‖ ≤ 1e-33 := misc_CSINC_near w
  have he2 : ‖e'‖ ≤ 4e-19 := CSINC_derivative_near w hw0
  refine ⟨X', dexp _ X' w, hX, exp_hasDerivAt (fun z => by simp) hX h0 hw2, fun i j => ?_, fun hone => ?_⟩
  · have hij := congrFun (congrFun key i) j
    rw [Matrix.sub_apply] at hij
    rw [hij, Spec.derivTol, hD, ← norm_of_sq hw2]
    simp only [Matrix.add_apply, Matrix.smul_apply, smul_eq_mul]
    generalize hX0 : (!![a3 l, a1 l - I * a2 l; a1 l + I * a2 l, -a3 l] : Spec.M2) i j = x
    have hone : ‖(1 : Spec.M2) i j‖ ≤ 1 := by
      rw [Matrix.one_apply]; split_ifs <;> simp
    have n1 : ‖2 * wd‖ / 2 = ‖wd‖ := by rw [norm_mul]; simp
    have n2 : ‖2 * wd‖ / (2 * ‖w‖) = ‖wd‖ / ‖w‖ := by
      rw [norm_mul, Complex.norm_ofNat, mul_div_mul_left _ _ (by norm_num)]
    rw [n1, n2]
    calc ‖-e * wd * (1 : Spec.M2) i j + e' * (wd / w) * x + e * X' i j‖
        ≤ ‖e‖ * ‖wd‖ * ‖(1 : Spec.M2) i j‖ + ‖e'‖ * (‖wd‖ / ‖w‖) * ‖x‖ + ‖e‖ * ‖X' i j‖ := by
          refine (norm_add_le _ _).trans (add_le_add ((norm_add_le _ _).trans (add_le_add ?_ ?_)) ?_)
          · rw [norm_mul, norm_mul, norm_neg]
          · rw [norm_mul, norm_mul, norm_div]
          · rw [norm_mul]
      _ ≤ 1e-33 * ‖wd‖ * 1 + 4e-19 * (‖wd‖ / ‖w‖) * ‖x‖ + 1e-33 * ‖X' i j‖ := by gcongr
      _ ≤ 1e-33 * (‖wd‖ + ‖2 * wd‖ / (2 * ‖_‖) * ‖x‖ + ‖X' i j‖) + 4e-19 * (‖wd‖ / ‖w‖ * ‖x‖) := by
          have : 0 ≤ 1e-33 * (‖2 * wd‖ / (2 * ‖(!![a3 l, a1 l - I * a2 l; a1 l + I * a2 l, -a3 l] : Spec.M2).det‖) * ‖x‖) := by positivity
          linarith
  · have hw1 : 1 ≤ ‖w‖ := by rw [norm_of_sq hw2]; exact Real.one_le_sqrt.mpr hone
    obtain ⟨c1, c2⟩ := CSINC_derivative_eq hw1
    have z : e = 0 := by rw [he, c2, sub_self]
    have z' : e' = 0 := by rw [he', c1, sub_self]
    rw [z, z'] at key
    rw [← sub_eq_zero, key]
    simp

/-! ## The step of each method -/

/-- The exponent of the step that depends on `lambda`. -/
noncomputable def Spec.mainExponent (d : AknsDisc) (h : ℝ) (w : ℕ → ℂ) (q r : ℕ → ℂ) (n : ℕ) (l : ℂ) : Spec.M2 :=
  match d with
  | ES4 =>
    let P := Spec.aknsP (q (3 * n)) (r (3 * n)) l
    let P1 := Spec.aknsPt (q (3 * n + 1)) (r (3 * n + 1))
    let P2 := Spec.aknsPt (q (3 * n + 2)) (r (3 * n + 2))
    (h : ℂ) • P + ((h : ℂ) ^ 3 / 24) • P2 - ((h : ℂ) ^ 3 / 12) • (P * P1 - P1 * P)
  | TES4 => (h : ℂ) • Spec.aknsP (q (3 * n)) (r (3 * n)) l
  | _ => (w n * (h : ℂ)) • Spec.aknsP (q n) (r n) l

/-- The exponents to its left and right that do not (only `TES4`). -/
noncomputable def Spec.outerExponents (d : AknsDisc) (h : ℝ) (q r : ℕ → ℂ) (n : ℕ) : List Spec.M2 × List Spec.M2 :=
  match d with
  | TES4 =>
    let P1 := Spec.aknsPt (q (3 * n + 1)) (r (3 * n + 1))
    let P2 := Spec.aknsPt (q (3 * n + 2)) (r (3 * n + 2))
    ([((h : ℂ) ^ 3 / 48) • P2 + ((h : ℂ) ^ 2 / 12) • P1], [((h : ℂ) ^ 3 / 48) • P2 - ((h : ℂ) ^ 2 / 12) • P1])
  | _ => ([], [])

theorem slowExponents_split (d : AknsDisc) (h : ℝ) (w q r : ℕ → ℂ) (l : ℂ) (n : ℕ) :
    Spec.slowExponents d h w q r l n = (Spec.outerExponents d h q r n).1 ++ [Spec.mainExponent d h w q r n l] ++
      (Spec.outerExponents d h q r n).2 := by
  cases d <;> rfl

theorem slowStepD_near (d : AknsDisc) (h : ℝ) (w q r : ℕ → ℂ) (l : ℂ) (n : ℕ) (h0 : (Spec.mainExponent d h w q r n l).det ≠ 0) :
    ∃ V, Spec.NearDeriv V (Spec.mainExponent d h w q r n) l ∧
      slowStepD d h w q r l n = ((Spec.outerExponents d h q r n).1.map expS).prod * V * ((Spec.outerExponents d h q r n).2.map expS).prod := by
  cases d
  case ES4 =>
    refine ⟨slowStepD ES4 h w q r l n, ?_, by simp [Spec.outerExponents]⟩
    refine dES4_near (X := Spec.mainExponent ES4 h w q r n)
      (a1 := fun z => es4x h q r n + ((h * h * h : ℝ) : ℂ) * (z * I * (q (3 * n + 1) - r (3 * n + 1))) / 12)
      (a2 := fun z => es4y h q r n - ((h * h * h : ℝ) : ℂ) * z * (q (3 * n + 1) + r (3 * n + 1)) / 12)
      (a3 := fun z => -h * I * z + es4z h q r n) ?_ ?_ ?_ ?_ h0
    · exact hda (((hasDerivAt_id l).const_mul (((h * h * h : ℝ) : ℂ) * (I * (q (3 * n + 1) - r (3 * n + 1))) / 12)).const_add
        (es4x h q r n)) (fun y => by simp; ring) (by simp [es4dx]; ring)
    · exact hda (((hasDerivAt_id l).const_mul (-((h * h * h : ℝ) : ℂ) * (q (3 * n + 1) + r (3 * n + 1)) / 12)).const_add
        (es4y h q r n)) (fun y => by simp; ring) (by simp [es4dy])
    · exact hda (((hasDerivAt_id l).const_mul (-h * I)).add_const (es4z h q r n)) (fun y => by simp) (by ring)
    · intro z
      simp only [Spec.mainExponent]
      ext i j
      fin_cases i <;> fin_cases j <;>
        simp [es4x, es4y, es4z, Spec.aknsP, Spec.aknsPt, Matrix.sub_apply] <;> ring_nf <;>
        simp [I_sq] <;> ring
  case TES4 =>
    refine ⟨_, dBO_near _ _ _ _ h0, by simp [Spec.outerExponents, slowStepD]⟩
  all_goals
    exact ⟨_, dBO_near _ _ _ _ h0, by simp [Spec.outerExponents, slowStepD]⟩

end FNFT

import Verif.Proofs.ManScatter
/-!
# Properties C54, C55: slow scattering for the Manakov equation
-/
namespace FNFT
open Complex
local notation "mexp" => NormedSpace.exp

/-- C54. `manakov_scatter_matrix` with the discretizations `BO` and `CF4_2`, any number of samples and of
`λ`s: it succeeds and the nine numbers stored for the `i`-th `λ` are the product, last sample first, of the exact
exponentials `exp((A + B_n) h)`, at `λ` (`BO`, one sample per step) or `λ/2` (`CF4_2`, two samples per step). No `λ` may
satisfy `λ² = -κ(|q1|² + |q2|²)` (`λ/2` for `CF4_2`) at some sample that does not count as zero (`hx`): the code divides by the square root of the difference. -/
theorem C54_man_scatter (d : ManDisc) (hd : d = .BO ∨ d = .CF4_2) (D : ℕ) (hD : 1 ≤ D) (K : ℕ) (hK : 1 ≤ K) (κ : ℤ)
    (q1 q2 lambda : Buf ℂ) (f1 f2 lf : ℕ → ℂ) (hq1 : q1.Holds 0 D f1) (hq2 : q2.Holds 0 D f2) (hl : lambda.Holds 0 K lf)
    (h : ℝ) (hh : 0 < h)
    (hx : ∀ i, i < K → ∀ n, n < D → Spec.manTrunc (f1 n) (f2 n) = (0, 0) ∨
      (lf i / man_upsampling_factor d) ^ 2 ≠ -κ * ((‖f1 n‖ ^ 2 + ‖f2 n‖ ^ 2 : ℝ) : ℂ))
    (result : Buf ℂ) (hr : 9 * K ≤ result.len) :
    ∃ r', man_scatter_matrix D (some q1) (some q2) h K (some lambda) κ (some result) d = some (SUCCESS, some r') ∧
      r'.len = result.len ∧ (∀ j, 9 * K ≤ j → r'.rd j = result.rd j) ∧
      ∀ i, i < K → ∀ a b : Fin 3, r'.rd (9 * i + (3 * a + b)) =
        some (Spec.chain (fun n => Spec.manStep κ h (lf i / man_upsampling_factor d) (f1 n) (f2 n)) D a b) := by
  have hlam : ∀ x : ℂ, (if decide (d = .CF4_2) = true then x / 2 else x) = x / man_upsampling_factor d := by
    rcases hd with rfl | rfl <;> intro x <;> simp [man_upsampling_factor]
  obtain ⟨r', h1, h2, h3, h4⟩ := manScat_lambda_loop (decide (d = .CF4_2)) D K q1 q2 lambda f1 f2 lf hq1 hq2 hl hh (κ := κ)
    (by
      intro i hi n hn
      rw [hlam]
      rcases hx i hi n hn with h0 | h0
      · by_cases ht : ‖f1 n‖ < EPSILON ∧ ‖f2 n‖ < EPSILON
        · exact Or.inl ht
        · exfalso
          rw [manTrunc_not ht, Prod.mk.injEq] at h0
          exact ht (by rw [h0.1, h0.2]; simp [EPSILON])
      · right
        intro h1
        apply h0
        rw [← qq_real]
        linear_combination h1)
    result hr
  refine ⟨r', ?_, h2, h4, ?_⟩
  · rw [man_scatter_matrix, if_neg (by omega)]
    simp only [hh, not_true_eq_false, if_false, if_neg (show ¬ K = 0 by omega)]
    have hup : man_upsampling_factor d ≠ 0 := by rcases hd with rfl | rfl <;> decide
    rw [if_neg hup, if_pos hd.symm, h1]
    rfl
  · intro i hi a b
    rw [h3 i hi a b, hlam]

/-- C54: the other discretizations are rejected. -/
theorem C54_man_scatter_rejects (d : ManDisc) (hd : d ≠ .BO) (hd' : d ≠ .CF4_2) (D K : ℕ) (κ : ℤ) (q1 q2 lambda : Buf ℂ)
    (h : ℝ) (result : Buf ℂ) :
    ∃ ec, ec ≠ SUCCESS ∧ man_scatter_matrix D (some q1) (some q2) h K (some lambda) κ (some result) d = some (ec, some result) := by
  rw [man_scatter_matrix]
  have h3 : ¬ (d = .CF4_2 ∨ d = .BO) := by push Not; exact ⟨hd', hd⟩
  simp only [h3, if_false]
  split_ifs <;> exact ⟨_, by decide, rfl⟩

/-- `exp(X)ᴴ J exp(X) = J` if `Xᴴ J = - J X`. -/
theorem exp_J {J X : Spec.M3} (hJ : J * J = 1) (hX : X.conjTranspose * J = -(J * X)) :
    (mexp X).conjTranspose * J * mexp X = J := by
  let U : Spec.M3ˣ := ⟨J, J, hJ, hJ⟩
  have h1 : X.conjTranspose = J * (-X) * J := by
    calc X.conjTranspose = X.conjTranspose * (J * J) := by rw [hJ, mul_one]
      _ = X.conjTranspose * J * J := by rw [mul_assoc]
      _ = J * (-X) * J := by rw [hX]; simp
  have h2 : mexp (J * (-X) * J) = J * mexp (-X) * J := Matrix.exp_units_conj U (-X)
  have h3 : mexp (-X) * mexp X = 1 := by
    rw [← Matrix.exp_add_of_commute _ _ (by simp [Commute, SemiconjBy])]
    simp
  rw [← Matrix.exp_conjTranspose, h1, h2, mul_assoc (J * mexp (-X)), hJ, mul_one, mul_assoc, h3, mul_one]

theorem manStep_J {κ : ℤ} (hκ : |κ| = 1) (h : ℝ) (x : ℝ) (q1 q2 : ℂ) :
    (Spec.manStep κ h x q1 q2).conjTranspose * Spec.manJ κ * Spec.manStep κ h x q1 q2 = Spec.manJ κ := by
  have hkk := kappa_sq hκ
  rw [Spec.manStep]
  generalize (Spec.manTrunc q1 q2).1 = p1
  generalize (Spec.manTrunc q1 q2).2 = p2
  refine exp_J ?_ ?_
  · rw [Spec.manJ, Matrix.diagonal_mul_diagonal, ← Matrix.diagonal_one]
    congr 1
    funext i
    fin_cases i <;> simp [hkk]
  · ext i j
    fin_cases i <;> fin_cases j <;>
      simp [Spec.manJ, Spec.manA, Spec.manB, Matrix.conjTranspose_apply] <;> ring_nf <;> (try simp only [pow_two, hkk]) <;> try ring

theorem manStep_det (κ : ℤ) (h : ℝ) (lam : ℂ) (q1 q2 : ℂ) : (Spec.manStep κ h lam q1 q2).det = exp (h * (I * lam)) := by
  rw [Spec.manStep]
  generalize (Spec.manTrunc q1 q2).1 = p1
  generalize (Spec.manTrunc q1 q2).2 = p2
  by_cases hne : p1 = 0 ∧ p2 = 0
  · obtain ⟨rfl, rfl⟩ := hne
    rw [manB_zero, add_zero]
    have hd : (h : ℂ) • Spec.manA lam = Matrix.diagonal ![-I * lam * h, I * lam * h, I * lam * h] := by
      ext i j
      fin_cases i <;> fin_cases j <;> simp [Spec.manA] <;> ring
    rw [hd, Matrix.exp_diagonal, Matrix.det_diagonal, Fin.prod_univ_three]
    simp [← Complex.exp_eq_exp_ℂ, ← Complex.exp_add]
    ring_nf
  · have h0 := qq_ne hne
    obtain ⟨w, hw⟩ : ∃ w : ℂ, w ^ 2 = (h : ℂ) ^ 2 * (lam * lam + κ * p1 * (starRingEnd ℂ) p1 + κ * p2 * (starRingEnd ℂ) p2) :=
      ⟨csqrt _, csqrt_sq _⟩
    rw [exp_manM hne lam h w hw]
    have hc := cos_csinc w
    rw [hw] at hc
    obtain ⟨s, hs⟩ : ∃ s, s = csinc w * h := ⟨_, rfl⟩
    rw [smul_smul, ← hs]
    have hc' : cos w ^ 2 + (lam * lam + κ * p1 * (starRingEnd ℂ) p1 + κ * p2 * (starRingEnd ℂ) p2) * s ^ 2 = 1 := by
      rw [hs]; linear_combination hc
    clear hc hs hw
    generalize cos w = C at *
    generalize exp (h * (I * lam)) = E at *
    unfold manP Spec.manB Spec.manA
    generalize (starRingEnd ℂ) p1 = a at *
    generalize (starRingEnd ℂ) p2 = b at *
    obtain ⟨S, hS⟩ : ∃ S, S = p1 * a + p2 * b := ⟨_, rfl⟩
    rw [← hS] at h0 ⊢
    rw [Matrix.det_fin_three]
    obtain ⟨α, hα⟩ : ∃ α, α = a / S := ⟨_, rfl⟩
    obtain ⟨β, hβ⟩ : ∃ β, β = b / S := ⟨_, rfl⟩
    have e1 : a = α * S := by rw [hα, div_mul_cancel₀ _ h0]
    have e2 : b = β * S := by rw [hβ, div_mul_cancel₀ _ h0]
    have e3 : p1 * α + p2 * β = 1 := by rw [hα, hβ]; field_simp; exact hS.symm
    simp only [e1, e2] at hc' ⊢
    simp
    simp only [← mul_assoc, mul_div_cancel_right₀ _ h0]
    rw [show p1 * p1 * α + p2 * p1 * β = p1 by linear_combination p1 * e3,
      show p1 * p2 * α + p2 * p2 * β = p2 by linear_combination p2 * e3]
    have hI : I ^ 2 = -1 := I_sq
    have hc2 : C ^ 2 + (lam ^ 2 + κ * S) * s ^ 2 = 1 := by linear_combination hc' - κ * S * s ^ 2 * e3
    linear_combination E * hc2 +
      (-C * E ^ 2 + C ^ 2 * E + s * I * lam * E ^ 2 - s ^ 2 * I ^ 2 * lam ^ 2 * E + s ^ 2 * E * κ * S) * e3 -
      s ^ 2 * lam ^ 2 * E * hI

theorem chain_J {J : Spec.M3} (U : ℕ → Spec.M3) (hU : ∀ n, (U n).conjTranspose * J * U n = J) (N : ℕ) :
    (Spec.chain U N).conjTranspose * J * Spec.chain U N = J := by
  induction N with
  | zero => rw [chain_zero]; simp
  | succ N ih =>
    rw [chain_succ, Matrix.conjTranspose_mul]
    calc (Spec.chain U N).conjTranspose * (U N).conjTranspose * J * (U N * Spec.chain U N) =
        (Spec.chain U N).conjTranspose * ((U N).conjTranspose * J * U N) * Spec.chain U N := by simp only [mul_assoc]
      _ = J := by rw [hU, ih]

theorem chain_det (U : ℕ → Spec.M3) (e : ℂ) (N : ℕ) (hU : ∀ n, n < N → (U n).det = e) : (Spec.chain U N).det = e ^ N := by
  induction N with
  | zero => rw [chain_zero]; simp
  | succ N ih =>
    rw [chain_succ, Matrix.det_mul, ih fun n hn => hU n (by omega), hU N (by omega), pow_succ]; ring

/-- C55. The scattering matrix returned by `manakov_scatter_matrix` for a real `λ` satisfies `Sᴴ J S = J`,
`J = diag(1,κ,κ)`; in particular `|S11|² + κ|S21|² + κ|S31|² = 1`, that is `|a|² + |b1|² + |b2|² = 1` in the focusing
case. For every `λ`, real or not, its determinant is `exp(iλT)`, `T` being the length of the interval. -/
theorem C55_man_scatter_conservation (d : ManDisc) (hd : d = .BO ∨ d = .CF4_2) (D : ℕ) (hD : 1 ≤ D) (K : ℕ) (hK : 1 ≤ K) (κ : ℤ)
    (hκ : |κ| = 1) (q1 q2 lambda : Buf ℂ) (f1 f2 lf : ℕ → ℂ) (hq1 : q1.Holds 0 D f1) (hq2 : q2.Holds 0 D f2)
    (hl : lambda.Holds 0 K lf) (h : ℝ) (hh : 0 < h)
    (hx : ∀ i, i < K → ∀ n, n < D → Spec.manTrunc (f1 n) (f2 n) = (0, 0) ∨
      (lf i / man_upsampling_factor d) ^ 2 ≠ -κ * ((‖f1 n‖ ^ 2 + ‖f2 n‖ ^ 2 : ℝ) : ℂ))
    (result : Buf ℂ) (hr : 9 * K ≤ result.len) :
    ∃ r', man_scatter_matrix D (some q1) (some q2) h K (some lambda) κ (some result) d = some (SUCCESS, some r') ∧
      ∀ i, i < K → ∃ S : Spec.M3, (∀ a b : Fin 3, r'.rd (9 * i + (3 * a + b)) = some (S a b)) ∧
        S.det = exp (I * lf i * (h * (D / man_upsampling_factor d))) ∧
        ((lf i).im = 0 → S.conjTranspose * Spec.manJ κ * S = Spec.manJ κ ∧
          ‖S 0 0‖ ^ 2 + κ * (‖S 1 0‖ ^ 2 + ‖S 2 0‖ ^ 2) = 1) := by
  obtain ⟨r', h1, -, -, h2⟩ := C54_man_scatter d hd D hD K hK κ q1 q2 lambda f1 f2 lf hq1 hq2 hl h hh hx result hr
  refine ⟨r', h1, fun i hi => ⟨_, h2 i hi, ?_, ?_⟩⟩
  · rw [chain_det _ _ D fun n _ => manStep_det κ h _ _ _, ← Complex.exp_nat_mul]
    congr 1
    ring
  · intro him
    obtain ⟨x, hx⟩ : ∃ x : ℝ, lf i / man_upsampling_factor d = (x : ℂ) := by
      refine ⟨(lf i).re / man_upsampling_factor d, ?_⟩
      rw [show lf i = ((lf i).re : ℂ) from Complex.ext rfl (by simpa using him)]
      push_cast; simp
    rw [hx]
    generalize hS : Spec.chain (fun n => Spec.manStep κ h x (f1 n) (f2 n)) D = S
    have hJ : S.conjTranspose * Spec.manJ κ * S = Spec.manJ κ := by
      rw [← hS]; exact chain_J _ (fun n => manStep_J hκ h x _ _) D
    refine ⟨hJ, ?_⟩
    have := congrFun (congrFun hJ 0) 0
    simp [Matrix.mul_apply, Fin.sum_univ_three, Spec.manJ, Matrix.conjTranspose_apply] at this
    have hn : ∀ z : ℂ, (starRingEnd ℂ) z * z = ((‖z‖ ^ 2 : ℝ) : ℂ) := by
      intro z; rw [mul_comm, Complex.mul_conj, Complex.normSq_eq_norm_sq]
    have h3 : ((‖S 0 0‖ ^ 2 + κ * (‖S 1 0‖ ^ 2 + ‖S 2 0‖ ^ 2) : ℝ) : ℂ) = ((1 : ℝ) : ℂ) := by
      rw [Complex.ofReal_one, ← this]
      have e0 := hn (S 0 0)
      have e1 := hn (S 1 0)
      have e2 := hn (S 2 0)
      push_cast at e0 e1 e2 ⊢
      linear_combination -e0 - κ * e1 - κ * e2
    exact_mod_cast h3

/-- C55, focusing case and real `λ`: no further hypothesis is needed, and `|S11|² + |S21|² + |S31|² = 1` for all samples. -/
theorem C55_man_scatter_focusing (d : ManDisc) (hd : d = .BO ∨ d = .CF4_2) (D : ℕ) (hD : 1 ≤ D) (K : ℕ) (hK : 1 ≤ K)
    (q1 q2 lambda : Buf ℂ) (f1 f2 : ℕ → ℂ) (lf : ℕ → ℝ) (hq1 : q1.Holds 0 D f1) (hq2 : q2.Holds 0 D f2)
    (hl : lambda.Holds 0 K fun i => (lf i : ℂ)) (h : ℝ) (hh : 0 < h) (result : Buf ℂ) (hr : 9 * K ≤ result.len) :
    ∃ r', man_scatter_matrix D (some q1) (some q2) h K (some lambda) 1 (some result) d = some (SUCCESS, some r') ∧
      ∀ i, i < K → ∃ a b1 b2 : ℂ, r'.rd (9 * i) = some a ∧ r'.rd (9 * i + 3) = some b1 ∧ r'.rd (9 * i + 6) = some b2 ∧
        ‖a‖ ^ 2 + ‖b1‖ ^ 2 + ‖b2‖ ^ 2 = 1 := by
  obtain ⟨r', h1, h2⟩ := C55_man_scatter_conservation d hd D hD K hK 1 (by norm_num) q1 q2 lambda f1 f2 (fun i => (lf i : ℂ))
    hq1 hq2 hl h hh (by
      intro i _ n _
      by_cases ht : ‖f1 n‖ < EPSILON ∧ ‖f2 n‖ < EPSILON
      · exact Or.inl (manTrunc_tiny ht)
      · right
        intro heq
        have hpos : 0 < ‖f1 n‖ ^ 2 + ‖f2 n‖ ^ 2 := by
          by_contra hc
          have e1 : ‖f1 n‖ ^ 2 = 0 := by nlinarith [sq_nonneg ‖f1 n‖, sq_nonneg ‖f2 n‖]
          have e2 : ‖f2 n‖ ^ 2 = 0 := by nlinarith [sq_nonneg ‖f1 n‖, sq_nonneg ‖f2 n‖]
          apply ht
          rw [pow_eq_zero_iff (by norm_num)] at e1 e2
          rw [e1, e2]
          simp [EPSILON]
        have e : ((lf i / man_upsampling_factor d) ^ 2 : ℝ) = -(‖f1 n‖ ^ 2 + ‖f2 n‖ ^ 2) := by
          have := congrArg Complex.re heq
          rw [show ((lf i : ℂ) / (man_upsampling_factor d : ℂ)) ^ 2 = (((lf i / man_upsampling_factor d) ^ 2 : ℝ) : ℂ) by
            push_cast; rfl] at this
          rw [Complex.ofReal_re] at this
          rw [this]
          rw [show (-((1 : ℤ) : ℂ) * ((‖f1 n‖ ^ 2 + ‖f2 n‖ ^ 2 : ℝ) : ℂ)) = ((-(‖f1 n‖ ^ 2 + ‖f2 n‖ ^ 2) : ℝ) : ℂ) by
            push_cast; ring, Complex.ofReal_re]
        nlinarith [sq_nonneg (lf i / man_upsampling_factor d)])
    result hr
  refine ⟨r', h1, fun i hi => ?_⟩
  obtain ⟨S, hS, -, hc⟩ := h2 i hi
  refine ⟨S 0 0, S 1 0, S 2 0, hS 0 0, hS 1 0, hS 2 0, ?_⟩
  have := (hc (by simp)).2
  push_cast at this
  linarith

/-- The hypotheses of C54 and C55 are met by three samples, one of them zero, focusing case, and two values of `λ`. -/
example : ∃ (f1 f2 lf : ℕ → ℂ), f1 0 = 1 + I ∧ f2 1 = 2 ∧ lf 0 = 0 ∧ lf 1 = 3 + I ∧
    ∀ d, d = ManDisc.BO ∨ d = ManDisc.CF4_2 → ∀ i, i < 2 → ∀ n, n < 3 → Spec.manTrunc (f1 n) (f2 n) = (0, 0) ∨
      (lf i / man_upsampling_factor d) ^ 2 ≠ -(1 : ℤ) * ((‖f1 n‖ ^ 2 + ‖f2 n‖ ^ 2 : ℝ) : ℂ) := by
  refine ⟨fun n => if n = 0 then 1 + I else 0, fun n => if n = 1 then 2 else 0, fun i => if i = 0 then 0 else 3 + I, rfl, rfl, rfl, rfl, ?_⟩
  intro d hd i hi n hn
  have h1 : ‖(1 + I : ℂ)‖ ^ 2 = 2 := by
    rw [← Complex.normSq_eq_norm_sq, Complex.normSq_apply]; norm_num
  have key : ∀ r : ℝ, 0 < r → ((if i = 0 then 0 else 3 + I : ℂ) / man_upsampling_factor d) ^ 2 ≠ -(1 : ℤ) * ((r : ℝ) : ℂ) := by
    intro r hr heq
    have e1 := congrArg Complex.im heq
    have e2 := congrArg Complex.re heq
    rcases hd with rfl | rfl <;> by_cases hi0 : i = 0 <;> simp [hi0, man_upsampling_factor, pow_two] at e1 e2 <;> linarith
  have hn' : n = 0 ∨ n = 1 ∨ n = 2 := by omega
  rcases hn' with rfl | rfl | rfl
  · right; simpa [h1] using key 2 (by norm_num)
  · right; have := key 4 (by norm_num); norm_num at this ⊢; exact this
  · left
    simp [Spec.manTrunc]

end FNFT

import Verif.Proofs.ManFscatter
/-!
# Property C53: fast scattering for the Manakov equation
-/
namespace FNFT
open Finset Polynomial
local notation "mexp" => NormedSpace.exp

theorem chain_phase3 (φ : ℚ → ℂ) (h0 : φ 0 = 1) (hadd : ∀ a b, φ (a + b) = φ a * φ b) (EA EB : ℚ → Spec.M3)
    (fs : List (Bool × ℚ)) (c : ℚ) (hc : ((fs.filter (·.1)).map (·.2)).sum = c) :
    (fs.map fun f => if f.1 then φ f.2 • EA f.2 else EB f.2).prod =
      φ c • (fs.map fun f => if f.1 then EA f.2 else EB f.2).prod := by
  subst hc
  induction fs with
  | nil => simp [h0]
  | cons f l ih =>
    obtain ⟨b, w⟩ := f
    cases b with
    | true =>
      simp only [List.map_cons, List.prod_cons, if_true]
      rw [ih, smul_mul_smul_comm]
      congr 1
      rw [List.filter_cons_of_pos (by rfl), List.map_cons, List.sum_cons, hadd]
    | false =>
      simp only [List.map_cons, List.prod_cons, Bool.false_eq_true, if_false]
      rw [ih, mul_smul_comm]
      congr 1

theorem combine3_phase (φ : ℚ → ℂ) (h0 : φ 0 = 1) (hadd : ∀ a b, φ (a + b) = φ a * φ b) (EA EB : ℚ → Spec.M3)
    (s : List (ℚ × List (Bool × ℚ))) (hs : ∀ t ∈ s, ((t.2.filter (·.1)).map (·.2)).sum = 1) :
    Spec.combine3 s (fun w => φ w • EA w) EB = φ 1 • Spec.combine3 s EA EB := by
  rw [Spec.combine3, Spec.combine3, List.smul_sum, List.map_map]
  congr 1
  refine List.map_congr_left fun t ht => ?_
  rw [Function.comp_apply, chain_phase3 φ h0 hadd _ _ _ 1 (hs t ht), smul_comm]

theorem manSplitting_sumA (d : ManDisc) : ∀ t ∈ Spec.manSplitting d, ((t.2.filter (·.1)).map (·.2)).sum = 1 := by
  cases d with
  | other n => simp [Spec.manSplitting]
  | _ => decide +kernel

theorem exp_manA (eps : ℝ) (lam w : ℂ) :
    mexp (w • ((eps : ℂ) • Spec.manA lam)) = Complex.exp (-Complex.I * lam * eps * w) •
      Matrix.diagonal ![1, Complex.exp (2 * Complex.I * lam * eps * w), Complex.exp (2 * Complex.I * lam * eps * w)] := by
  have hd : w • ((eps : ℂ) • Spec.manA lam) = Matrix.diagonal ![-Complex.I * lam * eps * w,
      Complex.I * lam * eps * w, Complex.I * lam * eps * w] := by
    ext i j
    fin_cases i <;> fin_cases j <;> simp [Spec.manA] <;> ring
  rw [hd, Matrix.exp_diagonal]
  ext i j
  fin_cases i <;> fin_cases j <;> simp [← Complex.exp_eq_exp_ℂ, ← Complex.exp_add]
  all_goals ring_nf

/-- The polynomials of a sample, evaluated at `z`. -/
theorem sampleP3_eval {d : ManDisc} {tab : Tab} (htab : manTab d = some tab) (env : ℕ → ℕ → ℂ) (z : ℂ) :
    (sampleP3 d tab env).map (eval z) =
      if d = .FTES4_suzuki then
        Refl.matOf (env 3) * Refl.tabMat3 tab (man_degree d) env z * Refl.matOf (env 4)
      else Refl.tabMat3 tab (man_degree d) env z := by
  have hw := manTab_wf htab
  simp only [Tab.wfN, Bool.and_eq_true] at hw
  obtain ⟨hn, hk⟩ := runVals_nodup 9 (man_degree d) env tab.asg [] hw.1 (by simp [keys]) (by simp [keys])
  have h : ∀ t, ∑ k ∈ range (man_degree d + 1), look (runVals env tab.asg []) t k * z ^ (man_degree d - k) =
      sumT t (fun k => z ^ (man_degree d - k)) (runVals env tab.asg []) := fun t => sum_look _ _ _ _ hk hn
  have hT : Refl.tabMat3 tab (man_degree d) env z = ∑ k ∈ range (man_degree d + 1), z ^ (man_degree d - k) •
      Refl.matOf (fun t => look (runVals env tab.asg []) t k) := by
    ext i j
    rw [Matrix.sum_apply]
    simp only [Refl.tabMat3, Refl.matOf, Matrix.of_apply, ← h, Matrix.smul_apply, smul_eq_mul, mul_comm]
  have hL : (sampleP3 d tab env).map (eval z) = ∑ k ∈ range (man_degree d + 1), z ^ (man_degree d - k) • manCoef d tab env k := by
    ext i j
    rw [Matrix.sum_apply]
    simp only [sampleP3, Matrix.map_apply, Matrix.of_apply, poly_eval_sum, Matrix.smul_apply, smul_eq_mul, mul_comm]
  rw [hL, hT]
  split_ifs with hd
  · rw [Finset.mul_sum, Finset.sum_mul]
    refine Finset.sum_congr rfl fun k _ => ?_
    rw [manCoef, if_pos hd, mul_smul_comm, smul_mul_assoc]
  · refine Finset.sum_congr rfl fun k _ => ?_
    rw [manCoef, if_neg hd]

theorem manNb_mid (d : ManDisc) (D : ℕ) (q : ℕ → ℂ) (i : ℕ) : (manNb d D q i).2.1 = q i := by
  rw [manNb]; split_ifs <;> rfl

/-- The factors `exp(w ε B)` as the code computes them. -/
noncomputable def manEB (κ : ℤ) (eps : ℝ) (q1 q2 : ℂ) (w : ℚ) : Spec.M3 := Refl.matOf (manZeroFreq (w * eps) q1 q2 κ)

/-- The factors left and right of the splitting. -/
noncomputable def manLR (second : Bool) (d : ManDisc) (D : ℕ) (eps : ℝ) (κ : ℤ) (f1 f2 : ℕ → ℂ) (n : ℕ) : Spec.M3 :=
  if Spec.manSandwich d then Refl.matOf (manE second eps κ (manNb d D f1 n) (manNb d D f2 n)) else 1

open Refl in
theorem manEnv_B {tab : Tab} {eps : ℝ} {κ : ℤ} {d : ManDisc} {D : ℕ} {f1 f2 : ℕ → ℂ} {n : ℕ} (s : ℕ) (w : ℚ)
    (h : tab.scales[s]? = some w) :
    matOf (manEnv tab eps κ (manNb d D f1 n) (manNb d D f2 n) s) = manEB κ eps (f1 n) (f2 n) w := by
  have hs : s < tab.scales.length := (List.getElem?_eq_some_iff.mp h).1
  have hg : tab.scales.getD s 0 = w := by rw [List.getD_eq_getElem?_getD, h, Option.getD_some]
  rw [manEB]
  congr 1
  funext c
  rw [manEnv, if_pos hs, hg, manNb_mid, manNb_mid]

open Refl in
theorem manEnv_E {tab : Tab} {eps : ℝ} {κ : ℤ} {d : ManDisc} {D : ℕ} {f1 f2 : ℕ → ℂ} {n : ℕ} (hd : Spec.manSandwich d) :
    matOf (manEnv tab eps κ (manNb d D f1 n) (manNb d D f2 n) tab.scales.length) = manLR false d D eps κ f1 f2 n ∧
    matOf (manEnv tab eps κ (manNb d D f1 n) (manNb d D f2 n) (tab.scales.length + 1)) = manLR true d D eps κ f1 f2 n := by
  rw [manLR, manLR, if_pos hd, if_pos hd]
  constructor
  · congr 1
    funext c
    have e : (tab.scales.length != tab.scales.length) = false := by simp
    rw [manEnv, if_neg (lt_irrefl _), e]
  · congr 1
    funext c
    have e : (tab.scales.length + 1 != tab.scales.length) = true := by simp
    rw [manEnv, if_neg (by omega), e]

theorem of_smul {K : ℕ} (hK : K ≠ 0) {A B : Spec.M3} (h : (K : ℂ) • A = B) : A = ((K : ℂ)⁻¹) • B := by
  rw [← h, smul_smul, inv_mul_cancel₀ (by exact_mod_cast hK), one_smul]

open Refl in
/-- The matrix of a sample in terms of the splitting, for arbitrary `EA`. -/
theorem sample_split {d : ManDisc} {tab : Tab} (htab : manTab d = some tab) (D : ℕ) (eps : ℝ) (κ : ℤ) (f1 f2 : ℕ → ℂ)
    (n : ℕ) (z : ℂ) (hz : z ≠ 0) (EA : ℚ → Spec.M3)
    (hEA : ∀ k : ℕ, d ≠ .FTES4_suzuki → EA ((k : ℚ) / (man_degree d : ℕ)) = Matrix.diagonal ![1, z ^ k, z ^ k])
    (hEA1 : d = .FTES4_suzuki → EA (1 / 3) = Matrix.diagonal ![1, z ^ 2, z ^ 2] ∧ EA 1 = Matrix.diagonal ![1, z ^ 6, z ^ 6] ∧
      z ^ 2 • EA (-1 / 3) = Matrix.diagonal ![z ^ 2, 1, 1]) :
    (sampleP3 d tab (manEnv tab eps κ (manNb d D f1 n) (manNb d D f2 n))).map (eval z) =
      (if d = .FTES4_suzuki then z ^ 4 else 1) •
        (manLR false d D eps κ f1 f2 n * Spec.combine3 (Spec.manSplitting d) EA (manEB κ eps (f1 n) (f2 n)) *
          manLR true d D eps κ f1 f2 n) := by
  rw [sampleP3_eval htab]
  obtain ⟨E, hE⟩ : ∃ E, E = manEnv tab eps κ (manNb d D f1 n) (manNb d D f2 n) := ⟨_, rfl⟩
  have hB : ∀ s w, tab.scales[s]? = some w → matOf (E s) = manEB κ eps (f1 n) (f2 n) w := by
    intro s w h; rw [hE]; exact manEnv_B s w h
  have hLR : Spec.manSandwich d → matOf (E tab.scales.length) = manLR false d D eps κ f1 f2 n ∧
      matOf (E (tab.scales.length + 1)) = manLR true d D eps κ f1 f2 n := by
    intro h; rw [hE]; exact manEnv_E h
  rw [← hE]
  clear hE
  generalize manEB κ eps (f1 n) (f2 n) = EB at *
  have hA : ∀ (k : ℕ) (w : ℚ), d ≠ .FTES4_suzuki → w = k / (man_degree d : ℕ) → Matrix.diagonal ![1, z ^ k, z ^ k] = EA w :=
    fun k w h1 h2 => by rw [h2, hEA k h1]
  cases d <;> simp only [manTab, Option.some.injEq, reduceCtorEq] at htab <;> subst htab
  · rw [if_neg (by decide), if_neg (by decide), one_smul, manLR, manLR, if_neg (by decide), if_neg (by decide), one_mul, mul_one]
    refine (of_smul (by norm_num) (manTab3A_ok E z)).trans ?_
    simp only [combM, facM, List.map_cons, List.map_nil, List.prod_cons, List.prod_nil, mul_one, add_zero]
    rw [hB 0 (1 / 3) (by decide +kernel),
      hB 1 (1) (by decide +kernel),
      hA 2 (1 / 3) (by decide) (by norm_num [man_degree]),
      hA 4 (2 / 3) (by decide) (by norm_num [man_degree]),
      hA 6 (1) (by decide) (by norm_num [man_degree])]
    simp [Spec.combine3, Spec.manSplitting, Spec.lie, Spec.strang, Spec.alternate, List.replicate]
    norm_num [smul_add, smul_sub, smul_smul]
  · rw [if_neg (by decide), if_neg (by decide), one_smul, manLR, manLR, if_neg (by decide), if_neg (by decide), one_mul, mul_one]
    refine (of_smul (by norm_num) (manTab3B_ok E z)).trans ?_
    simp only [combM, facM, List.map_cons, List.map_nil, List.prod_cons, List.prod_nil, mul_one, add_zero]
    rw [hB 0 (1 / 3) (by decide +kernel),
      hB 1 (2 / 3) (by decide +kernel),
      hB 2 (1) (by decide +kernel),
      hA 2 (1 / 3) (by decide) (by norm_num [man_degree]),
      hA 4 (2 / 3) (by decide) (by norm_num [man_degree]),
      hA 6 (1) (by decide) (by norm_num [man_degree])]
    simp [Spec.combine3, Spec.manSplitting, Spec.lie, Spec.strang, Spec.alternate, List.replicate]
    norm_num [smul_add, smul_sub, smul_smul]
  · rw [if_neg (by decide), if_neg (by decide), one_smul, manLR, manLR, if_neg (by decide), if_neg (by decide), one_mul, mul_one]
    refine (of_smul (by norm_num) (manTab4A_ok E z)).trans ?_
    simp only [combM, facM, List.map_cons, List.map_nil, List.prod_cons, List.prod_nil, mul_one, add_zero]
    rw [hB 0 (1 / 2) (by decide +kernel),
      hB 1 (1) (by decide +kernel),
      hA 2 (1 / 4) (by decide) (by norm_num [man_degree]),
      hA 4 (1 / 2) (by decide) (by norm_num [man_degree])]
    simp [Spec.combine3, Spec.manSplitting, Spec.lie, Spec.strang, Spec.alternate, List.replicate]
    norm_num [smul_add, smul_sub, smul_smul]
  · rw [if_neg (by decide), if_neg (by decide), one_smul, manLR, manLR, if_neg (by decide), if_neg (by decide), one_mul, mul_one]
    refine (of_smul (by norm_num) (manTab4B_ok E z)).trans ?_
    simp only [combM, facM, List.map_cons, List.map_nil, List.prod_cons, List.prod_nil, mul_one, add_zero]
    rw [hB 0 (1 / 2) (by decide +kernel),
      hB 1 (1 / 4) (by decide +kernel),
      hA 2 (1 / 2) (by decide) (by norm_num [man_degree]),
      hA 4 (1) (by decide) (by norm_num [man_degree])]
    simp [Spec.combine3, Spec.manSplitting, Spec.lie, Spec.strang, Spec.alternate, List.replicate]
    norm_num [smul_add, smul_sub, smul_smul]
  · rw [if_neg (by decide), if_neg (by decide), one_smul, manLR, manLR, if_neg (by decide), if_neg (by decide), one_mul, mul_one]
    refine (of_smul (by norm_num) (manTab6B_ok E z)).trans ?_
    simp only [combM, facM, List.map_cons, List.map_nil, List.prod_cons, List.prod_nil, mul_one, add_zero]
    rw [hB 0 (1 / 2) (by decide +kernel),
      hB 1 (1 / 3) (by decide +kernel),
      hB 2 (1 / 4) (by decide +kernel),
      hB 3 (1 / 6) (by decide +kernel),
      hA 4 (1 / 3) (by decide) (by norm_num [man_degree]),
      hA 6 (1 / 2) (by decide) (by norm_num [man_degree]),
      hA 12 (1) (by decide) (by norm_num [man_degree])]
    simp [Spec.combine3, Spec.manSplitting, Spec.lie, Spec.strang, Spec.alternate, List.replicate]
    norm_num [smul_add, smul_sub, smul_smul]
  · rw [if_neg (by decide), if_neg (by decide), one_smul, manLR, manLR, if_neg (by decide), if_neg (by decide), one_mul, mul_one]
    refine (of_smul (by norm_num) (manTab4A_ok E z)).trans ?_
    simp only [combM, facM, List.map_cons, List.map_nil, List.prod_cons, List.prod_nil, mul_one, add_zero]
    rw [hB 0 (1 / 2) (by decide +kernel),
      hB 1 (1) (by decide +kernel),
      hA 2 (1 / 4) (by decide) (by norm_num [man_degree]),
      hA 4 (1 / 2) (by decide) (by norm_num [man_degree])]
    simp [Spec.combine3, Spec.manSplitting, Spec.lie, Spec.strang, Spec.alternate, List.replicate]
    norm_num [smul_add, smul_sub, smul_smul]
  · rw [if_neg (by decide), if_neg (by decide), one_smul, manLR, manLR, if_neg (by decide), if_neg (by decide), one_mul, mul_one]
    refine (of_smul (by norm_num) (manTab4B_ok E z)).trans ?_
    simp only [combM, facM, List.map_cons, List.map_nil, List.prod_cons, List.prod_nil, mul_one, add_zero]
    rw [hB 0 (1 / 2) (by decide +kernel),
      hB 1 (1 / 4) (by decide +kernel),
      hA 2 (1 / 2) (by decide) (by norm_num [man_degree]),
      hA 4 (1) (by decide) (by norm_num [man_degree])]
    simp [Spec.combine3, Spec.manSplitting, Spec.lie, Spec.strang, Spec.alternate, List.replicate]
    norm_num [smul_add, smul_sub, smul_smul]
  · rw [if_neg (by decide), if_neg (by decide), one_smul, manLR, manLR, if_neg (by decide), if_neg (by decide), one_mul, mul_one]
    refine (of_smul (by norm_num) (manTab6B_ok E z)).trans ?_
    simp only [combM, facM, List.map_cons, List.map_nil, List.prod_cons, List.prod_nil, mul_one, add_zero]
    rw [hB 0 (1 / 2) (by decide +kernel),
      hB 1 (1 / 3) (by decide +kernel),
      hB 2 (1 / 4) (by decide +kernel),
      hB 3 (1 / 6) (by decide +kernel),
      hA 4 (1 / 3) (by decide) (by norm_num [man_degree]),
      hA 6 (1 / 2) (by decide) (by norm_num [man_degree]),
      hA 12 (1) (by decide) (by norm_num [man_degree])]
    simp [Spec.combine3, Spec.manSplitting, Spec.lie, Spec.strang, Spec.alternate, List.replicate]
    norm_num [smul_add, smul_sub, smul_smul]
  · rw [if_neg (by decide), if_neg (by decide), one_smul]
    obtain ⟨e1, e2⟩ := hLR (Or.inl rfl)
    refine (of_smul (by norm_num) (manTabFTES4_4A_ok E z)).trans ?_
    simp only [combM, facM, List.map_cons, List.map_nil, List.prod_cons, List.prod_nil, mul_one, add_zero]
    rw [hB 0 (1 / 2) (by decide +kernel), hB 1 1 (by decide +kernel),
      show matOf (E 2) = _ from e1, show matOf (E 3) = _ from e2,
      hA 2 (1 / 4) (by decide) (by norm_num [man_degree]), hA 4 (1 / 2) (by decide) (by norm_num [man_degree])]
    simp [Spec.combine3, Spec.manSplitting, Spec.lie, Spec.strang, Spec.alternate, List.replicate]
    norm_num [smul_add, smul_sub, smul_smul, mul_add, add_mul, mul_assoc]
  · rw [if_pos rfl, if_pos rfl]
    obtain ⟨e1, e2⟩ := hLR (Or.inr rfl)
    obtain ⟨a1, a2, a3⟩ := hEA1 rfl
    have hT := (of_smul (by norm_num) (manTabFTES4_suzuki_ok E z))
    simp only [combM, facM, List.map_cons, List.map_nil, List.prod_cons, List.prod_nil, mul_one, add_zero] at hT
    rw [hB 0 (7 / 48) (by decide +kernel), hB 1 (3 / 8) (by decide +kernel), hB 2 (-1 / 48) (by decide +kernel),
      ← a1, ← a2, ← a3] at hT
    rw [show matOf (E 3) = _ from e1, show matOf (E 4) = _ from e2, show man_degree .FTES4_suzuki = 14 from rfl, hT]
    simp [Spec.combine3, Spec.manSplitting, Spec.alternate]
    simp only [smul_smul, mul_assoc, ← pow_add]

theorem manTab_splitting {d : ManDisc} (h : Spec.manSplitting d ≠ []) : ∃ tab, manTab d = some tab := by
  cases d <;> first | exact ⟨_, rfl⟩ | exact absurd rfl h

theorem manE_side (second : Bool) (d : ManDisc) (hd : Spec.manSandwich d) (D : ℕ) (eps : ℝ) {κ : ℤ} (hκ : |κ| = 1)
    (f1 f2 : ℕ → ℂ) (n : ℕ) :
    Spec.ManClose κ 1 (Spec.manSide (if second then -1 else 1) D eps f1 n) (Spec.manSide (if second then -1 else 1) D eps f2 n)
      (manLR second d D eps κ f1 f2 n) := by
  rw [manLR, if_pos hd]
  have hF : manIsFTES d = true := by simpa [manIsFTES, Spec.manSandwich] using hd
  have hnb : ∀ q, manNb d D q n = (q (n - 1), q n, q (min (n + 1) (D - 1))) := by intro q; rw [manNb, if_pos hF]
  convert manGetE_close hκ (Spec.manSide (if second then -1 else 1) D eps f1 n)
    (Spec.manSide (if second then -1 else 1) D eps f2 n) using 2
  funext c
  rw [manE, hnb, hnb]
  cases second
  · simp only [Bool.false_eq_true, if_false]
    congr 1 <;> simp only [manE1s, manE1t, Spec.manSide, Spec.diff1, Spec.diff2, map_add, map_mul, map_sub, map_div₀,
      Complex.conj_ofReal, map_ofNat, map_intCast] <;> push_cast <;> ring
  · simp only [if_true]
    congr 1 <;> simp only [manE2s, manE2t, Spec.manSide, Spec.diff1, Spec.diff2, map_add, map_mul, map_sub, map_div₀,
      Complex.conj_ofReal, map_ofNat, map_intCast] <;> push_cast <;> ring

theorem prod_map_eval3 {n : ℕ} (Q : ℕ → Matrix (Fin 3) (Fin 3) ℂ[X]) (z : ℂ) :
    (((List.range n).map Q).prod).map (eval z) = ((List.range n).map fun i => (Q i).map (eval z)).prod := by
  have : ∀ A : Matrix (Fin 3) (Fin 3) ℂ[X], A.map (eval z) = (Polynomial.evalRingHom z).mapMatrix A := fun A => rfl
  rw [this, map_list_prod, List.map_map]
  rfl

theorem prod_smul_const3 {n : ℕ} (c : ℂ) (Q : ℕ → Spec.M3) :
    ((List.range n).map fun i => c • Q i).prod = c ^ n • ((List.range n).map Q).prod := by
  induction n with
  | zero => simp
  | succ n ih =>
    rw [List.range_succ, List.map_append, List.prod_append, ih, List.map_append, List.prod_append]
    simp only [List.map_cons, List.map_nil, List.prod_cons, List.prod_nil, mul_one]
    rw [smul_mul_smul_comm, pow_succ]

/-- C53. `manakov_fscatter` with one of the ten discretizations `d` that it supports, `D ≥ 2` samples of the two
components, any `kappa = ±1` and any step: it succeeds, the degree is `D` times the degree of `d`, and at every
`z` that represents a `λ` the returned polynomial matrix, multiplied by `2^W exp(-iλhc)^D`, is the product, last sample
first, of the splittings of `exp((A + B_n) h)`, `A = diag(-iλ,iλ,iλ)`, `B_n = [0,q1,q2;-κq1*,0,0;-κq2*,0,0]`, surrounded
for the FTES4 discretizations by the exponentials of two more matrices. The factors `exp(w h B_n)` of the splitting are
replaced by matrices `EB n w` that agree with them to 33 digits, and exactly unless `|w| h |(q1,q2)| < 1e-8`. -/
theorem C53_man_fscatter (d : ManDisc) (hd : Spec.manSplitting d ≠ []) (D : ℕ) (hD : 2 ≤ D)
    (hD' : D ≤ 2147483647) (κ : ℤ) (hκ : |κ| = 1)
    (q1 q2 : Buf ℂ) (f1 f2 : ℕ → ℂ) (hq1 : q1.Holds 0 D f1) (hq2 : q2.Holds 0 D f2)
    (h : ℝ) (hh : 0 < h) (result : Buf ℂ) (L : ℕ) (hL : man_fscatter_numel D d = some L) (hlen : L ≤ result.len)
    (deg0 : ℕ) (Wp : Option ℤ) :
    ∃ R, man_fscatter D (some q1) (some q2) κ h (some result) (some deg0) Wp d = some R ∧
      R.ret = some SUCCESS ∧ R.deg = D * man_degree d ∧ R.result.len = result.len ∧ (Wp = none → R.W = 0) ∧
      ∃ y, R.result.Holds 0 (9 * (D * man_degree d + 1)) y ∧
        (Wp.isSome = true → (∃ i, i < 9 * (D * man_degree d + 1) ∧ y i ≠ 0) →
          (∃ i, i < 9 * (D * man_degree d + 1) ∧ 1 ≤ ‖y i‖) ∧ ∀ i, i < 9 * (D * man_degree d + 1) → ‖y i‖ < 2) ∧
        ∃ (EB : ℕ → ℚ → Spec.M3) (EL ER : ℕ → Spec.M3),
          (∀ n (w : ℚ), w ≠ 0 → Spec.ManClose κ (w * h) (f1 n) (f2 n) (EB n w)) ∧
          (∀ n, Spec.manSandwich d →
            Spec.ManClose κ 1 (Spec.manSide 1 D h f1 n) (Spec.manSide 1 D h f2 n) (EL n) ∧
            Spec.ManClose κ 1 (Spec.manSide (-1) D h f1 n) (Spec.manSide (-1) D h f2 n) (ER n)) ∧
          (∀ n, ¬ Spec.manSandwich d → EL n = 1 ∧ ER n = 1) ∧
          ∀ lam : ℂ,
            ((2 : ℂ) ^ R.W * Complex.exp (-Complex.I * lam * h * Spec.manPhase d) ^ D) •
              (Spec.pmat 3 (D * man_degree d) (D * man_degree d + 1) 0 y).map (eval (Spec.manZ d h lam)) =
            ((List.range D).map fun s => EL (D - 1 - s) * Spec.combine3 (Spec.manSplitting d)
              (fun w => mexp ((w : ℂ) • ((h : ℂ) • Spec.manA lam))) (EB (D - 1 - s)) * ER (D - 1 - s)).prod := by
  obtain ⟨tab, htab⟩ := manTab_splitting hd
  obtain ⟨hd0, -⟩ := manTab_degree htab
  obtain ⟨R, g1, g2, g3, g4, g5, y, g6, g7, g8⟩ := man_fscatter_ok d tab htab D hD hD' κ hκ q1 q2 f1 f2 hq1 hq2 h hh
    result L hL hlen deg0 Wp
  refine ⟨R, g1, g2, g3, g4, g5, y, g6, g8, fun n => manEB κ h (f1 n) (f2 n), manLR false d D h κ f1 f2,
    manLR true d D h κ f1 f2, ?_, ?_, ?_, ?_⟩
  · intro n w hw
    exact manZeroFreq_close hκ (mul_ne_zero (by exact_mod_cast hw) hh.ne') _ _
  · intro n hs
    exact ⟨manE_side false d hs D h hκ f1 f2 n, manE_side true d hs D h hκ f1 f2 n⟩
  · intro n hs
    exact ⟨by rw [manLR, if_neg hs], by rw [manLR, if_neg hs]⟩
  · intro lam
    obtain ⟨z, hz⟩ : ∃ z, z = Spec.manZ d h lam := ⟨_, rfl⟩
    have hz0 : z ≠ 0 := by rw [hz, Spec.manZ]; split_ifs <;> exact Complex.exp_ne_zero _
    set φ : ℚ → ℂ := fun w => Complex.exp (-Complex.I * lam * h * w) with hφ
    set EA : ℚ → Spec.M3 := fun w => Matrix.diagonal ![1, Complex.exp (2 * Complex.I * lam * h * w),
      Complex.exp (2 * Complex.I * lam * h * w)] with hEA
    have hdegC : (man_degree d : ℂ) ≠ 0 := by exact_mod_cast hd0
    have hφ0 : φ 0 = 1 := by simp [hφ]
    have hφadd : ∀ a b, φ (a + b) = φ a * φ b := by
      intro a b
      simp only [hφ, ← Complex.exp_add]
      congr 1
      push_cast; ring
    have hexpA : (fun w : ℚ => mexp ((w : ℂ) • ((h : ℂ) • Spec.manA lam))) = fun w => φ w • EA w := by
      funext w
      exact exp_manA h lam w
    have hEAk : ∀ k : ℕ, d ≠ .FTES4_suzuki → EA ((k : ℚ) / (man_degree d : ℕ)) = Matrix.diagonal ![1, z ^ k, z ^ k] := by
      intro k hne
      have : Complex.exp (2 * Complex.I * lam * h * (((k : ℚ) / (man_degree d : ℕ) : ℚ) : ℂ)) = z ^ k := by
        rw [hz, Spec.manZ, if_neg hne, ← Complex.exp_nat_mul]
        congr 1
        push_cast
        field_simp
      simp only [hEA, this]
    have hEA1 : d = .FTES4_suzuki → EA (1 / 3) = Matrix.diagonal ![1, z ^ 2, z ^ 2] ∧
        EA 1 = Matrix.diagonal ![1, z ^ 6, z ^ 6] ∧ z ^ 2 • EA (-1 / 3) = Matrix.diagonal ![z ^ 2, 1, 1] := by
      intro hs
      have hzz : z = Complex.exp (Complex.I * lam * h / 3) := by rw [hz, Spec.manZ, if_pos hs]
      have k1 : Complex.exp (2 * Complex.I * lam * h * ((1 / 3 : ℚ) : ℂ)) = z ^ 2 := by
        rw [hzz, ← Complex.exp_nat_mul]; congr 1; push_cast; ring
      have k2 : Complex.exp (2 * Complex.I * lam * h * ((1 : ℚ) : ℂ)) = z ^ 6 := by
        rw [hzz, ← Complex.exp_nat_mul]; congr 1; push_cast; ring
      have k3 : z ^ 2 * Complex.exp (2 * Complex.I * lam * h * ((-1 / 3 : ℚ) : ℂ)) = 1 := by
        rw [hzz, ← Complex.exp_nat_mul, ← Complex.exp_add, ← Complex.exp_zero]; congr 1; push_cast; ring
      refine ⟨by simp only [hEA, k1], by simp only [hEA, k2], ?_⟩
      simp only [hEA]
      ext i j
      fin_cases i <;> fin_cases j <;> simp
      all_goals simpa using k3
    have hphase : ∀ n, manLR false d D h κ f1 f2 n * Spec.combine3 (Spec.manSplitting d)
          (fun w => mexp ((w : ℂ) • ((h : ℂ) • Spec.manA lam))) (manEB κ h (f1 n) (f2 n)) * manLR true d D h κ f1 f2 n =
        Complex.exp (-Complex.I * lam * h * Spec.manPhase d) •
          (sampleP3 d tab (manEnv tab h κ (manNb d D f1 n) (manNb d D f2 n))).map (eval z) := by
      intro n
      rw [sample_split htab D h κ f1 f2 n z hz0 EA hEAk hEA1, hexpA, combine3_phase φ hφ0 hφadd _ _ _ (manSplitting_sumA d),
        mul_smul_comm, smul_mul_assoc, smul_smul]
      congr 1
      simp only [hφ]
      split_ifs with hs
      · have hzz : z = Complex.exp (Complex.I * lam * h / 3) := by rw [hz, Spec.manZ, if_pos hs]
        rw [hzz, ← Complex.exp_nat_mul, ← Complex.exp_add, Spec.manPhase, if_pos hs]
        congr 1
        push_cast; ring
      · rw [Spec.manPhase, if_neg hs, mul_one]
        push_cast; rfl
    simp only [hphase]
    rw [prod_smul_const3, mul_comm, mul_smul, ← hz]
    congr 1
    rw [← prod_map_eval3 (fun s => sampleP3 d tab (manEnv tab h κ (manNb d D f1 (D - 1 - s)) (manNb d D f2 (D - 1 - s)))), ← g7]
    ext i j
    simp only [Matrix.smul_apply, Matrix.map_apply, smul_eq_mul, eval_mul, eval_C]

theorem combine3_congr {s : List (ℚ × List (Bool × ℚ))} {EA EB EB' : ℚ → Spec.M3}
    (h : ∀ t ∈ s, ∀ f ∈ t.2, f.1 = false → EB f.2 = EB' f.2) : Spec.combine3 s EA EB = Spec.combine3 s EA EB' := by
  rw [Spec.combine3, Spec.combine3]
  congr 1
  refine List.map_congr_left fun t ht => ?_
  congr 2
  refine List.map_congr_left fun f hf => ?_
  cases hb : f.1 with
  | true => rfl
  | false => simpa using h t ht f hf hb

theorem manSplitting_weights (d : ManDisc) : ∀ t ∈ Spec.manSplitting d, ∀ f ∈ t.2, 1 / 48 ≤ |f.2| := by
  cases d with
  | other n => simp [Spec.manSplitting]
  | _ => decide +kernel

/-- A matrix that is close to the exponential is the exponential if the exponent is zero. -/
theorem manClose_zero {κ : ℤ} {c : ℝ} {q1 q2 : ℂ} {M : Spec.M3} (h : Spec.ManClose κ c q1 q2 M)
    (h0 : (q1 = 0 ∧ q2 = 0) ∨ 1e-8 ≤ |c| * Real.sqrt (‖q1‖ ^ 2 + ‖q2‖ ^ 2)) :
    M = mexp ((c : ℂ) • Spec.manB κ (Spec.manTrunc q1 q2).1 (Spec.manTrunc q1 q2).2) := by
  rcases h0 with ⟨rfl, rfl⟩ | h0
  · ext i j
    have := h.near i j
    simp only [norm_zero, max_self, mul_zero] at this
    exact sub_eq_zero.mp (norm_le_zero_iff.mp this)
  · exact h.exact h0

/-- C53, exact form: if no sample and, for the FTES4 discretizations, no difference of samples is tiny without
being zero, the polynomial matrix is the product of the splittings with the exact exponentials. -/
theorem C53_man_fscatter_exact (d : ManDisc) (hd : Spec.manSplitting d ≠ []) (D : ℕ) (hD : 2 ≤ D)
    (hD' : D ≤ 2147483647) (κ : ℤ) (hκ : |κ| = 1)
    (q1 q2 : Buf ℂ) (f1 f2 : ℕ → ℂ) (hq1 : q1.Holds 0 D f1) (hq2 : q2.Holds 0 D f2)
    (h : ℝ) (hh : 0 < h) (result : Buf ℂ) (L : ℕ) (hL : man_fscatter_numel D d = some L) (hlen : L ≤ result.len)
    (deg0 : ℕ) (Wp : Option ℤ)
    (hq : ∀ n, n < D → (f1 n = 0 ∧ f2 n = 0) ∨ 48e-8 ≤ h * Real.sqrt (‖f1 n‖ ^ 2 + ‖f2 n‖ ^ 2))
    (hs : Spec.manSandwich d → ∀ σ ∈ [(1 : ℤ), -1], ∀ n, n < D →
      (Spec.manSide σ D h f1 n = 0 ∧ Spec.manSide σ D h f2 n = 0) ∨
        1e-8 ≤ Real.sqrt (‖Spec.manSide σ D h f1 n‖ ^ 2 + ‖Spec.manSide σ D h f2 n‖ ^ 2)) :
    ∃ R, man_fscatter D (some q1) (some q2) κ h (some result) (some deg0) Wp d = some R ∧
      R.ret = some SUCCESS ∧ R.deg = D * man_degree d ∧
      ∃ y, R.result.Holds 0 (9 * (D * man_degree d + 1)) y ∧ ∀ lam : ℂ,
        ((2 : ℂ) ^ R.W * Complex.exp (-Complex.I * lam * h * Spec.manPhase d) ^ D) •
          (Spec.pmat 3 (D * man_degree d) (D * man_degree d + 1) 0 y).map (eval (Spec.manZ d h lam)) =
        ((List.range D).map fun s => Spec.manSample d D h κ f1 f2 lam (D - 1 - s)).prod := by
  obtain ⟨R, g1, g2, g3, -, -, y, g6, -, EB, EL, ER, k1, k2, k3, k4⟩ := C53_man_fscatter d hd D hD hD' κ hκ q1 q2 f1 f2
    hq1 hq2 h hh result L hL hlen deg0 Wp
  refine ⟨R, g1, g2, g3, y, g6, fun lam => ?_⟩
  rw [k4 lam]
  congr 1
  refine List.map_congr_left fun s hs' => ?_
  have hsD : s < D := List.mem_range.mp hs'
  have hB : Spec.combine3 (Spec.manSplitting d) (fun w => mexp ((w : ℂ) • ((h : ℂ) • Spec.manA lam))) (EB (D - 1 - s)) =
      Spec.combine3 (Spec.manSplitting d) (fun w => mexp ((w : ℂ) • ((h : ℂ) • Spec.manA lam)))
        (fun w => mexp ((w : ℂ) • ((h : ℂ) • Spec.manB κ (Spec.manTrunc (f1 (D - 1 - s)) (f2 (D - 1 - s))).1
          (Spec.manTrunc (f1 (D - 1 - s)) (f2 (D - 1 - s))).2))) := by
    refine combine3_congr fun t ht f hf _ => ?_
    have hw := manSplitting_weights d t ht f hf
    have hw0 : f.2 ≠ 0 := by
      intro h0; rw [h0, abs_zero] at hw; norm_num at hw
    rw [manClose_zero (k1 (D - 1 - s) f.2 hw0) ?_]
    · rw [smul_smul]; push_cast; rfl
    · rcases hq (D - 1 - s) (by omega) with h0 | h0
      · exact Or.inl h0
      · right
        rw [abs_mul, abs_of_pos hh, mul_assoc]
        have hw' : (1 / 48 : ℝ) ≤ |(f.2 : ℝ)| := by
          have := (Rat.cast_le (K := ℝ)).mpr hw
          push_cast at this; exact this
        calc (1e-8 : ℝ) = 1 / 48 * 48e-8 := by norm_num
          _ ≤ |(f.2 : ℝ)| * (h * Real.sqrt (‖f1 (D - 1 - s)‖ ^ 2 + ‖f2 (D - 1 - s)‖ ^ 2)) :=
            mul_le_mul hw' h0 (by norm_num) (abs_nonneg _)
  rw [hB, Spec.manSample]
  by_cases hsw : Spec.manSandwich d
  · obtain ⟨c1, c2⟩ := k2 (D - 1 - s) hsw
    rw [manClose_zero c1 (by
        rcases hs hsw 1 (by simp) (D - 1 - s) (by omega) with h0 | h0
        · exact Or.inl h0
        · right; simpa using h0),
      manClose_zero c2 (by
        rcases hs hsw (-1) (by simp) (D - 1 - s) (by omega) with h0 | h0
        · exact Or.inl h0
        · right; simpa using h0)]
    simp only [if_pos hsw, Complex.ofReal_one, one_smul]
  · obtain ⟨e1, e2⟩ := k3 (D - 1 - s) hsw
    simp only [e1, e2, if_neg hsw]

/-- With exact exponentials, the factor `exp(B/3)^2` in the specification of `2SPLIT3A` is `exp(2B/3)`. -/
theorem C53_split3A (A B : Spec.M3) :
    Spec.combine3 (Spec.manSplitting .D2SPLIT3A) (fun w => mexp ((w : ℂ) • A)) (fun w => mexp ((w : ℂ) • B)) =
      Spec.combine3 [(9 / 8, Spec.lie true 3), (-1 / 8, Spec.lie true 1)] (fun w => mexp ((w : ℂ) • A))
        (fun w => mexp ((w : ℂ) • B)) := by
  have : mexp ((3 : ℂ)⁻¹ • B) * mexp ((3 : ℂ)⁻¹ • B) = mexp ((2 / 3 : ℂ) • B) := by
    rw [← Matrix.exp_add_of_commute _ _ (Commute.refl _), ← add_smul]
    norm_num
  simp [Spec.combine3, Spec.manSplitting, Spec.lie, Spec.alternate, List.replicate]
  rw [← this, mul_assoc]

/-- C53: every other discretization is rejected and the results are left alone (in particular `FTES4_4B`, which has a
degree, and the discretizations for slow scattering). -/
theorem C53_man_fscatter_rejects (d : ManDisc) (hd : Spec.manSplitting d = []) (D : ℕ) (q1 q2 : Buf ℂ) (κ : ℤ)
    (h : ℝ) (result : Buf ℂ) (deg0 : ℕ) (Wp : Option ℤ) :
    ∃ R, man_fscatter D (some q1) (some q2) κ h (some result) (some deg0) Wp d = some R ∧
      R.ret = some EC_INVALID_ARGUMENT ∧ R.result = result ∧ R.W = Wp.getD 0 := by
  have hmain : ∀ D W n, 1 ≤ D → D ≤ 2147483647 → ∃ R, man_fscatter_main D q1 q2 κ h result deg0 W n d = some R ∧
      R.ret = some EC_INVALID_ARGUMENT ∧ R.result = result ∧ R.W = W := by
    intro D W n hD1 hD2
    have hpow : ∃ N, nextpow2 (D * 1) = some N := by
      obtain ⟨k, hk, -⟩ := nextpow2_spec (D * 1) (by omega) (by omega)
      exact ⟨_, hk⟩
    obtain ⟨N, hN⟩ := hpow
    cases d <;> simp only [Spec.manSplitting, reduceCtorEq] at hd
    · simp only [man_fscatter_main, man_upsampling_factor, man_fscatter_numel, man_degree, poly_fmult_numel, hN, manTab]
      simp only [one_ne_zero, if_false, OfNat.ofNat_ne_zero, Option.map_some, Option.bind_eq_bind, Option.bind_some, Option.pure_def]
      split_ifs <;> exact ⟨_, rfl, rfl, rfl, rfl⟩
    · exact ⟨_, by simp [man_fscatter_main, man_upsampling_factor, man_fscatter_numel, man_degree]; rfl, rfl, rfl, rfl⟩
    · exact ⟨_, by simp [man_fscatter_main, man_upsampling_factor, man_fscatter_numel, man_degree]; rfl, rfl, rfl, rfl⟩
    · exact ⟨_, by simp [man_fscatter_main, man_upsampling_factor]; rfl, rfl, rfl, rfl⟩
  rw [man_fscatter]
  by_cases h1 : D = 0 ∨ D > 2147483647
  · rw [if_pos h1]; exact ⟨_, rfl, rfl, rfl, rfl⟩
  · rw [if_neg h1]
    split_ifs
    · exact ⟨_, rfl, rfl, rfl, rfl⟩
    · exact ⟨_, rfl, rfl, rfl, rfl⟩
    · exact hmain D _ _ (by omega) (by omega)

/-- Three samples: the hypotheses of `C53_man_fscatter_exact` can be met. -/
example : ∃ R, man_fscatter 3 (some (Buf.ofFn 3 fun i => (i : ℂ))) (some (Buf.ofFn 3 fun i => -(i : ℂ))) 1 (1 / 10)
    (some (Buf.malloc 468)) (some 0) (some 0) .D2SPLIT6B = some R ∧ R.ret = some SUCCESS ∧ R.deg = 36 := by
  obtain ⟨R, h1, h2, h3, -⟩ := C53_man_fscatter_exact .D2SPLIT6B (by decide) 3 (by norm_num) (by norm_num) 1 (by norm_num)
    (Buf.ofFn 3 fun i => (i : ℂ)) (Buf.ofFn 3 fun i => -(i : ℂ)) (fun i => (i : ℂ)) (fun i => -(i : ℂ))
    (Buf.holds_ofFn _ _) (Buf.holds_ofFn _ _) (1 / 10) (by norm_num) (Buf.malloc 468) 468 (by decide) (by simp) 0 (some 0)
    (by
      intro n hn
      rcases Nat.eq_zero_or_pos n with rfl | hn0
      · left; simp
      · right
        have hk : (1 : ℝ) ≤ Real.sqrt (‖(n : ℂ)‖ ^ 2 + ‖-(n : ℂ)‖ ^ 2) := by
          rw [Real.le_sqrt (by norm_num) (by positivity)]
          rw [norm_neg, Complex.norm_natCast]
          have : (1 : ℝ) ≤ n := by exact_mod_cast hn0
          nlinarith
        nlinarith)
    (fun h => absurd h (by decide))
  exact ⟨R, h1, h2, h3⟩

/-- … and for an FTES4 discretization (constant samples, so that all differences vanish). -/
example : ∃ R, man_fscatter 3 (some (Buf.ofFn 3 fun _ => 1)) (some (Buf.ofFn 3 fun _ => Complex.I)) (-1) (1 / 10)
    (some (Buf.malloc 540)) (some 0) none .FTES4_suzuki = some R ∧ R.ret = some SUCCESS ∧ R.deg = 42 := by
  obtain ⟨R, h1, h2, h3, -⟩ := C53_man_fscatter_exact .FTES4_suzuki (by decide) 3 (by norm_num) (by norm_num) (-1) (by norm_num)
    (Buf.ofFn 3 fun _ => 1) (Buf.ofFn 3 fun _ => Complex.I) (fun _ => 1) (fun _ => Complex.I)
    (Buf.holds_ofFn _ _) (Buf.holds_ofFn _ _) (1 / 10) (by norm_num) (Buf.malloc 540) 540 (by decide) (by simp) 0 none
    (by
      intro n hn
      right
      have hk : (1 : ℝ) ≤ Real.sqrt (‖(1 : ℂ)‖ ^ 2 + ‖Complex.I‖ ^ 2) := by
        rw [Real.le_sqrt (by norm_num) (by positivity)]
        norm_num
      nlinarith)
    (by
      intro _ σ _ n _
      left
      constructor <;> simp [Spec.manSide, Spec.diff1, Spec.diff2] <;> ring)
  exact ⟨R, h1, h2, h3⟩

end FNFT

import Verif.Proofs.AknsFscatter
import Verif.Proofs.Sinc
import Verif.Proofs.ExpS
import Mathlib.Tactic.IntervalCases
/-!
# Properties C22, C23: fast scattering
-/
namespace FNFT
open Finset Polynomial AknsDisc NormedSpace

/-- Sum of the weights of the `A` factors. -/
def sumA (fs : List (Bool × ℚ)) : ℚ := ((fs.filter (·.1)).map (·.2)).sum

theorem chain_phase (φ : ℚ → ℂ) (h0 : φ 0 = 1) (hadd : ∀ a b, φ (a + b) = φ a * φ b) (EA EB : ℚ → Spec.M2)
    (fs : List (Bool × ℚ)) :
    (fs.map fun f => if f.1 then φ f.2 • EA f.2 else EB f.2).prod =
      φ (sumA fs) • (fs.map fun f => if f.1 then EA f.2 else EB f.2).prod := by
  induction fs with
  | nil => simp [sumA, h0]
  | cons f l ih =>
    obtain ⟨b, w⟩ := f
    cases b with
    | true =>
      simp only [List.map_cons, List.prod_cons, if_true]
      rw [ih]
      have : sumA ((true, w) :: l) = w + sumA l := by simp [sumA]
      rw [this, hadd, smul_mul_smul_comm]
    | false =>
      simp only [List.map_cons, List.prod_cons, Bool.false_eq_true, if_false]
      rw [ih]
      have : sumA ((false, w) :: l) = sumA l := by simp [sumA]
      rw [this, mul_smul_comm]

theorem combine_phase (φ : ℚ → ℂ) (h0 : φ 0 = 1) (hadd : ∀ a b, φ (a + b) = φ a * φ b) (EA EB : ℚ → Spec.M2)
    (s : List (ℚ × List (Bool × ℚ))) (hs : ∀ t ∈ s, sumA t.2 = 1) :
    Spec.combine s (fun w => φ w • EA w) EB = φ 1 • Spec.combine s EA EB := by
  rw [Spec.combine, Spec.combine, List.smul_sum, List.map_map]
  congr 1
  refine List.map_congr_left fun t ht => ?_
  rw [Function.comp_apply, chain_phase φ h0 hadd, hs t ht, smul_comm]

theorem splitting_sumA (d : AknsDisc) : ∀ t ∈ Spec.splitting d, sumA t.2 = 1 := by
  cases d with
  | other n => simp [Spec.splitting]
  | _ => decide +kernel

/-- The discretizations with a splitting are those of the sample tables other than Ablowitz-Ladik. -/
theorem splitting_tab {d : AknsDisc} (h : Spec.splitting d ≠ []) :
    d ≠ D2SPLIT2_MODAL ∧ ∃ tab, aknsTab d = some tab ∧
      TabOK tab (akns_degree d) (if d = D2SPLIT2A then [(1, Spec.lie false 1)] else Spec.splitting d) := by
  cases d <;> simp only [Spec.splitting, ne_eq, not_true_eq_false] at h <;>
    refine ⟨by decide, _, rfl, ?_⟩
  exacts [tabOK_1A, tabOK_1B, tabOK_1B, tabOK_2B, tabOK_2S, tabOK_3A, tabOK_3B, tabOK_3S, tabOK_4A, tabOK_4B,
    tabOK_5A, tabOK_5B, tabOK_6A, tabOK_6B, tabOK_7A, tabOK_7B, tabOK_8A, tabOK_8B, tabOK_4A, tabOK_4B]

theorem exp_akA (eps : ℝ) (lam : ℂ) (w : ℂ) :
    exp (w • Spec.akA eps lam) = Complex.exp (-Complex.I * lam * eps * w) •
      !![1, 0; 0, Complex.exp (2 * Complex.I * lam * eps * w)] := by
  have hd : w • Spec.akA eps lam = Matrix.diagonal ![-Complex.I * lam * eps * w, Complex.I * lam * eps * w] := by
    ext i j
    fin_cases i <;> fin_cases j <;> simp [Spec.akA] <;> ring
  rw [hd, Matrix.exp_diagonal]
  ext i j
  fin_cases i <;> fin_cases j <;> simp [← Complex.exp_eq_exp_ℂ, ← Complex.exp_add]
  ring_nf

theorem smul_akB (eps : ℝ) (q r : ℂ) (w : ℚ) : (w : ℂ) • Spec.akB eps q r = Spec.akB (w * eps) q r := by
  ext i j
  fin_cases i <;> fin_cases j <;> simp [Spec.akB] <;> ring

theorem prod_map_eval {n : ℕ} (Q : ℕ → Matrix (Fin 2) (Fin 2) ℂ[X]) (z : ℂ) :
    (((List.range n).map Q).prod).map (eval z) = ((List.range n).map fun i => (Q i).map (eval z)).prod := by
  have : ∀ A : Matrix (Fin 2) (Fin 2) ℂ[X], A.map (eval z) = (Polynomial.evalRingHom z).mapMatrix A := fun A => rfl
  rw [this, map_list_prod, List.map_map]
  rfl

theorem prod_smul_const {n : ℕ} (c : ℂ) (Q : ℕ → Spec.M2) :
    ((List.range n).map fun i => c • Q i).prod = c ^ n • ((List.range n).map Q).prod := by
  induction n with
  | zero => simp
  | succ n ih =>
    rw [List.range_succ, List.map_append, List.prod_append, ih, List.map_append, List.prod_append]
    simp only [List.map_cons, List.map_nil, List.prod_cons, List.prod_nil, mul_one]
    rw [smul_mul_smul_comm, pow_succ]

theorem aknsEps_eq {d : AknsDisc} (h : Spec.splitting d ≠ []) (eps : ℝ) :
    aknsEps d eps = eps / akns_upsampling_factor d := by
  cases d <;> simp [Spec.splitting] at h <;> simp [aknsEps, akns_upsampling_factor]

/-- C22, C23. `akns_fscatter` with one of the 20 splitting discretizations `d`, `D ≥ 2` samples, any
signal and any step: it succeeds, the degree is `D` times the degree of `d`, and at every
`z = exp(2iλh/deg)`, `h` being the step of a sample, the returned polynomial matrix, multiplied by `2^W exp(-iλhD)`,
is the product, last sample first, of the splittings of `exp((A + B_n) h)`, `A = [-iλ,0;0,iλ]`,
`B_n = [0,q_n;r_n,0]`. The factors `exp(w h B_n)` of the splitting are replaced by matrices `EB n w`
that agree with them to 33 digits, and exactly unless `0 < w h |q_n r_n|^(1/2) < 1e-8`. -/
theorem C22_C23_fscatter (d : AknsDisc) (hd : Spec.splitting d ≠ []) (D : ℕ) (hD : 2 ≤ D)
    (hD' : D ≤ 2147483647) (q r : Buf ℂ) (qf rf : ℕ → ℂ) (hq : q.Holds 0 D qf) (hr : r.Holds 0 D rf)
    (eps : ℝ) (heps : 0 < eps) (result : Buf ℂ) (L : ℕ) (hL : akns_fscatter_numel D d = some L)
    (hlen : L ≤ result.len) (deg0 : ℕ) (Wp : Option ℤ) :
    ∃ R, akns_fscatter D (some q) (some r) eps (some result) (some deg0) Wp d = some R ∧
      R.ret = some SUCCESS ∧ R.deg = D * akns_degree d ∧ R.result.len = result.len ∧ (Wp = none → R.W = 0) ∧
      ∃ y, R.result.Holds 0 (4 * (D * akns_degree d + 1)) y ∧
        (Wp.isSome = true → (∃ i, i < 4 * (D * akns_degree d + 1) ∧ y i ≠ 0) →
          (∃ i, i < 4 * (D * akns_degree d + 1) ∧ 1 ≤ ‖y i‖) ∧ ∀ i, i < 4 * (D * akns_degree d + 1) → ‖y i‖ < 2) ∧
        ∃ EB : ℕ → ℚ → Spec.M2,
          (∀ n (w : ℚ) i j, ‖EB n w i j - exp ((w : ℂ) • Spec.akB (eps / akns_upsampling_factor d) (qf n) (rf n)) i j‖ ≤
            min 1e-33 (((w * (eps / akns_upsampling_factor d)) ^ 2 * ‖qf n * rf n‖) ^ 2) * (|w * (eps / akns_upsampling_factor d)| * max ‖qf n‖ ‖rf n‖)) ∧
          (∀ n (w : ℚ), (qf n * rf n = 0 ∨ 1e-8 ≤ |w * (eps / akns_upsampling_factor d)| * Real.sqrt ‖qf n * rf n‖) →
            EB n w = exp ((w : ℂ) • Spec.akB (eps / akns_upsampling_factor d) (qf n) (rf n))) ∧
          (∀ (κ : ℝ) n (w : ℚ), rf n = -κ * (starRingEnd ℂ) (qf n) → Spec.Sym κ (EB n w)) ∧
          ∀ lam : ℂ,
            ((2 : ℂ) ^ R.W * Complex.exp (-Complex.I * lam * (eps / akns_upsampling_factor d : ℝ)) ^ D) •
              (Spec.pmat 2 (D * akns_degree d) (D * akns_degree d + 1) 0 y).map
                (eval (Complex.exp (2 * Complex.I * lam * (eps / akns_upsampling_factor d : ℝ) / akns_degree d))) =
            ((List.range D).map fun s => Spec.sampleMatrix d
              (fun w => exp ((w : ℂ) • Spec.akA (eps / akns_upsampling_factor d) lam)) (EB (D - 1 - s))).prod := by
  obtain ⟨hmod, tab, htab, hok⟩ := splitting_tab hd
  obtain ⟨hd0, -⟩ := aknsTab_degree htab
  have hw := aknsTab_wf htab
  rw [← aknsEps_eq hd]
  set h := aknsEps d eps with hh
  set deg := akns_degree d with hdeg
  obtain ⟨R, h1, h2, h3, h4, h5, y, h6, h7, h8⟩ := akns_fscatter_ok d tab htab D hD hD' q r qf rf hq hr eps heps
    (fun n s c => zeroFreq ((tab.scales.getD s 0 : ℚ) * h / deg) (qf n) (rf n) c)
    (fun i _ => by rw [aknsEnv, if_neg hmod]) result L hL hlen deg0 Wp
  refine ⟨R, h1, h2, h3, h4, h5, y, h6, h8, fun n w => zfMat (w * h) (qf n) (rf n), ?_, ?_, fun κ n w hr => Sym.zfMat _ hr, ?_⟩
  · intro n w i j
    rw [smul_akB]; exact zfMat_near _ _ _ i j
  · intro n w hc
    rw [smul_akB]; exact zfMat_exact hc
  · intro lam
    set z := Complex.exp (2 * Complex.I * lam * (h : ℝ) / deg) with hz
    set φ : ℚ → ℂ := fun w => Complex.exp (-Complex.I * lam * h * w) with hφ
    set EA : ℚ → Spec.M2 := fun w => !![1, 0; 0, Complex.exp (2 * Complex.I * lam * h * w)] with hEA
    have hdegC : (deg : ℂ) ≠ 0 := by exact_mod_cast hd0
    have hEAk : ∀ k : ℕ, EA ((k : ℚ) / (deg : ℕ)) = !![1, 0; 0, z ^ k] := by
      intro k
      simp only [hEA, hz, ← Complex.exp_nat_mul]
      congr 6
      push_cast
      field_simp
    have hφ0 : φ 0 = 1 := by simp [hφ]
    have hφadd : ∀ a b, φ (a + b) = φ a * φ b := by
      intro a b
      simp only [hφ, ← Complex.exp_add]
      congr 1
      push_cast; ring
    have hexpA : (fun w : ℚ => exp ((w : ℂ) • Spec.akA h lam)) = fun w => φ w • EA w := by
      funext w
      exact exp_akA h lam w
    have hEAadd : ∀ a b : ℚ, EA a * EA b = EA (a + b) := by
      intro a b
      simp only [hEA, Matrix.mul_fin_two]
      simp only [mul_one, mul_zero, add_zero, zero_add, zero_mul, ← Complex.exp_add]
      congr 6
      push_cast; ring
    have hEA0 : EA 0 = 1 := by
      simp only [hEA]
      ext i j
      fin_cases i <;> fin_cases j <;> simp
    have hsample : ∀ n, (sampleP tab deg (fun s c => zeroFreq ((tab.scales.getD s 0 : ℚ) * h / deg) (qf n) (rf n) c)).map (eval z) =
        Spec.combine (if d = D2SPLIT2A then [(1, Spec.lie false 1)] else Spec.splitting d) EA
          (fun w => zfMat (w * h) (qf n) (rf n)) := by
      intro n
      rw [sampleP_eval hw]
      refine hok _ z EA _ hEAk ?_
      intro j a ha
      have hg : tab.scales.getD j 0 = a := by
        rw [List.getD_eq_getElem?_getD, ha, Option.getD_some]
      have he : (((a / (deg : ℕ) : ℚ) : ℝ) * h) = (a : ℝ) * h / deg := by push_cast; ring
      simp only [zfMat, hg, he]
    have hphase : ∀ n, Spec.sampleMatrix d (fun w => exp ((w : ℂ) • Spec.akA h lam)) (fun w => zfMat (w * h) (qf n) (rf n)) =
        φ 1 • (sampleP tab deg (fun s c => zeroFreq ((tab.scales.getD s 0 : ℚ) * h / deg) (qf n) (rf n) c)).map (eval z) := by
      intro n
      rw [hsample n, hexpA]
      by_cases h2A : d = D2SPLIT2A
      · rw [Spec.sampleMatrix, if_pos h2A, if_pos h2A, combine_phase φ hφ0 hφadd _ _ _ (splitting_sumA d), h2A]
        have e1 : Spec.combine (Spec.splitting D2SPLIT2A) EA (fun w => zfMat (w * h) (qf n) (rf n)) =
            EA (1 / 2) * (zfMat (((1 : ℚ) : ℝ) * h) (qf n) (rf n) * EA (1 / 2)) := by
          simp [Spec.combine, Spec.splitting, Spec.strang, Spec.alternate]
        have e2 : Spec.combine [(1, Spec.lie false 1)] EA (fun w => zfMat (w * h) (qf n) (rf n)) =
            zfMat (((1 : ℚ) : ℝ) * h) (qf n) (rf n) * EA 1 := by
          simp [Spec.combine, Spec.lie, Spec.alternate]
        rw [e1, e2]
        simp only [smul_mul_assoc, mul_smul_comm, smul_smul]
        congr 1
        · have : φ (-1 / 2) * φ (1 / 2) = 1 := by rw [← hφadd, ← hφ0]; norm_num
          calc φ (1 / 2) * (φ 1 * φ (-1 / 2)) = φ 1 * (φ (-1 / 2) * φ (1 / 2)) := by ring
            _ = φ 1 := by rw [this, mul_one]
        · have hm : EA (-1 / 2) * EA (1 / 2) = 1 := by rw [hEAadd, ← hEA0]; norm_num
          have hp : EA (1 / 2) * EA (1 / 2) = EA 1 := by rw [hEAadd]; norm_num
          rw [← hp, ← mul_assoc (EA (-1 / 2)), hm, one_mul, mul_assoc]
      · rw [Spec.sampleMatrix, if_neg h2A, if_neg h2A, combine_phase φ hφ0 hφadd _ _ _ (splitting_sumA d)]
    simp only [hphase]
    rw [prod_smul_const, mul_comm, mul_smul]
    congr 1
    · simp [hφ]
    · rw [← prod_map_eval (fun s => sampleP tab deg (fun s' c => zeroFreq ((tab.scales.getD s' 0 : ℚ) * h / deg) (qf (D - 1 - s)) (rf (D - 1 - s)) c)), ← h7]
      ext i j
      simp only [Matrix.smul_apply, Matrix.map_apply, smul_eq_mul, eval_mul, eval_C]
      rfl

/-- The coefficient written in the code for the 7th order splittings is the exact one `117649/46080` up to
the accuracy of a double. -/
theorem C22_order7_coefficient : |Spec.c7 - 117649 / 46080| ≤ 1 / 2 ^ 51 := by
  unfold Spec.c7
  rw [abs_le]
  constructor <;> norm_num

theorem combine_congr {s : List (ℚ × List (Bool × ℚ))} {EA EB EB' : ℚ → Spec.M2}
    (h : ∀ t ∈ s, ∀ f ∈ t.2, f.1 = false → EB f.2 = EB' f.2) : Spec.combine s EA EB = Spec.combine s EA EB' := by
  rw [Spec.combine, Spec.combine]
  congr 1
  refine List.map_congr_left fun t ht => ?_
  congr 2
  refine List.map_congr_left fun f hf => ?_
  cases hb : f.1 with
  | true => rfl
  | false => simp only [Bool.false_eq_true, if_false]; exact h t ht f hf hb

/-- C22, C23, the case in which the arguments of the cardinal sine stay away from the interval
`(0, 1e-8)`: the result is exactly the product of the splittings. (The condition is on the weights `w` of
the factors `exp(w B)` of the splitting.) -/
theorem C22_C23_fscatter_exact (d : AknsDisc) (hd : Spec.splitting d ≠ []) (D : ℕ) (hD : 2 ≤ D)
    (hD' : D ≤ 2147483647) (q r : Buf ℂ) (qf rf : ℕ → ℂ) (hq : q.Holds 0 D qf) (hr : r.Holds 0 D rf)
    (eps : ℝ) (heps : 0 < eps) (result : Buf ℂ) (L : ℕ) (hL : akns_fscatter_numel D d = some L)
    (hlen : L ≤ result.len) (deg0 : ℕ) (Wp : Option ℤ)
    (hs : ∀ n, n < D → qf n * rf n = 0 ∨ ∀ t ∈ Spec.splitting d, ∀ f ∈ t.2, f.1 = false →
      1e-8 ≤ f.2 * (eps / akns_upsampling_factor d) * Real.sqrt ‖qf n * rf n‖) :
    ∃ R, akns_fscatter D (some q) (some r) eps (some result) (some deg0) Wp d = some R ∧
      R.ret = some SUCCESS ∧ R.deg = D * akns_degree d ∧
      ∃ y, R.result.Holds 0 (4 * (D * akns_degree d + 1)) y ∧
        ∀ lam : ℂ,
          ((2 : ℂ) ^ R.W * Complex.exp (-Complex.I * lam * (eps / akns_upsampling_factor d : ℝ)) ^ D) •
            (Spec.pmat 2 (D * akns_degree d) (D * akns_degree d + 1) 0 y).map
              (eval (Complex.exp (2 * Complex.I * lam * (eps / akns_upsampling_factor d : ℝ) / akns_degree d))) =
          ((List.range D).map fun s => Spec.sampleMatrix d
            (fun w => exp ((w : ℂ) • Spec.akA (eps / akns_upsampling_factor d) lam))
            (fun w => exp ((w : ℂ) • Spec.akB (eps / akns_upsampling_factor d) (qf (D - 1 - s)) (rf (D - 1 - s))))).prod := by
  obtain ⟨R, h1, h2, h3, -, -, y, h6, -, EB, -, h8, -, h9⟩ :=
    C22_C23_fscatter d hd D hD hD' q r qf rf hq hr eps heps result L hL hlen deg0 Wp
  refine ⟨R, h1, h2, h3, y, h6, fun lam => ?_⟩
  rw [h9 lam]
  congr 1
  refine List.map_congr_left fun s hs' => ?_
  have hn : D - 1 - s < D := by omega
  have hc : ∀ EA : ℚ → Spec.M2, Spec.combine (Spec.splitting d) EA (EB (D - 1 - s)) = Spec.combine (Spec.splitting d) EA
      (fun w => exp ((w : ℂ) • Spec.akB (eps / akns_upsampling_factor d) (qf (D - 1 - s)) (rf (D - 1 - s)))) := by
    intro EA
    refine combine_congr fun t ht f hf hb => ?_
    refine h8 _ _ ?_
    rcases hs _ hn with h | h
    · exact Or.inl h
    · refine Or.inr ((h t ht f hf hb).trans ?_)
      exact mul_le_mul_of_nonneg_right (le_abs_self _) (Real.sqrt_nonneg _)
  simp only [Spec.sampleMatrix, hc]

/-- A signal with three samples: the hypotheses of `C22_C23_fscatter` (and of the exact version) can be met. -/
example : ∃ R, akns_fscatter 3 (some (Buf.ofFn 3 fun i => (i : ℂ))) (some (Buf.ofFn 3 fun i => -(i : ℂ))) (1 / 10)
    (some (Buf.malloc 1696)) (some 0) (some 0) D2SPLIT7B = some R ∧ R.ret = some SUCCESS ∧ R.deg = 315 := by
  obtain ⟨R, h1, h2, h3, -⟩ := C22_C23_fscatter_exact D2SPLIT7B (by decide) 3 (by norm_num) (by norm_num)
    (Buf.ofFn 3 fun i => (i : ℂ)) (Buf.ofFn 3 fun i => -(i : ℂ)) (fun i => (i : ℂ)) (fun i => -(i : ℂ))
    (Buf.holds_ofFn _ _) (Buf.holds_ofFn _ _) (1 / 10) (by norm_num) (Buf.malloc 1696) 1696 (by decide) (by simp) 0 (some 0)
    (by
      intro n hn
      rcases Nat.eq_zero_or_pos n with rfl | hn0
      · left; simp
      · right
        have hk : (1 : ℝ) ≤ Real.sqrt ‖(n : ℂ) * -(n : ℂ)‖ := by
          rw [Real.le_sqrt (by norm_num) (norm_nonneg _)]
          rw [norm_mul, norm_neg, Complex.norm_natCast]
          have : (1 : ℝ) ≤ n := by exact_mod_cast hn0
          nlinarith
        have hw : ∀ t ∈ Spec.splitting D2SPLIT7B, ∀ f ∈ t.2, f.1 = false → (1 / 7 : ℚ) ≤ f.2 := by decide +kernel
        intro t ht f hf hb
        have h7 : ((1 / 7 : ℚ) : ℝ) ≤ ((f.2 : ℚ) : ℝ) := by exact_mod_cast hw t ht f hf hb
        push_cast at h7
        simp only [akns_upsampling_factor]
        calc (1e-8 : ℝ) ≤ 1 / 7 * (1 / 10 / ((1 : ℕ) : ℝ)) * 1 := by norm_num
          _ ≤ _ := mul_le_mul (mul_le_mul_of_nonneg_right h7 (by norm_num)) hk (by norm_num)
            (mul_nonneg (le_trans (by norm_num) h7) (by norm_num)))
  exact ⟨R, h1, h2, h3⟩

theorem tabMat_modal (e : ℕ → ℕ → ℂ) (z : ℂ) :
    tabMat tab2_MODAL 1 e z = !![e 0 0, e 0 0 * e 0 1 * z; e 0 0 * e 0 2, e 0 0 * z] := by
  simp only [tabMat, tab2_MODAL, runVals, Ex.val_mul, Ex.val_lit, Ex.val, look, sumT]
  norm_num

/-- C22, C23 for the Ablowitz-Ladik discretization: if `eps^2 q_n r_n ≠ 1` for all samples the result is the
product (last sample first) of the normalised Ablowitz-Ladik matrices at `z`, for all `z`; otherwise
`akns_fscatter` returns the code for a division by zero and leaves `result` alone. -/
theorem C22_C23_fscatter_modal (D : ℕ) (hD : 2 ≤ D)
    (hD' : D ≤ 2147483647) (q r : Buf ℂ) (qf rf : ℕ → ℂ) (hq : q.Holds 0 D qf) (hr : r.Holds 0 D rf)
    (eps : ℝ) (heps : 0 < eps) (result : Buf ℂ) (L : ℕ) (hL : akns_fscatter_numel D D2SPLIT2_MODAL = some L)
    (hlen : L ≤ result.len) (deg0 : ℕ) (Wp : Option ℤ) :
    ∃ R, akns_fscatter D (some q) (some r) eps (some result) (some deg0) Wp D2SPLIT2_MODAL = some R ∧
      ((∃ n < D, (eps * qf n) * (eps * rf n) = 1) → R.ret = some EC_DIV_BY_ZERO ∧ R.result = result) ∧
      ((∀ n < D, (eps * qf n) * (eps * rf n) ≠ 1) → R.ret = some SUCCESS ∧ R.deg = D ∧ R.result.len = result.len ∧
        (Wp = none → R.W = 0) ∧
        ∃ y, R.result.Holds 0 (4 * (D + 1)) y ∧
          ∃ s : ℕ → ℂ, (∀ n, s n ^ 2 = 1 - (eps * qf n) * (eps * rf n) ∧ 0 ≤ (s n).re) ∧
            ∀ z : ℂ, (2 : ℂ) ^ R.W • (Spec.pmat 2 D (D + 1) 0 y).map (eval z) =
              ((List.range D).map fun i =>
                Spec.ablowitzLadik (s (D - 1 - i)) (eps * qf (D - 1 - i)) (eps * rf (D - 1 - i)) z).prod) := by
  have henv : ∀ n, aknsEnv D2SPLIT2_MODAL tab2_MODAL 1 eps (qf n) (rf n) =
      if (eps * qf n) * (eps * rf n) = 1 then none else some fun _ c =>
        if c = 0 then 1 / csqrt (1 - (eps * qf n) * (eps * rf n)) else if c = 1 then eps * qf n else eps * rf n := by
    intro n
    rw [aknsEnv, if_pos rfl]
    simp only [csqrt_eq_zero, sub_eq_zero]
    refine if_congr ⟨Eq.symm, Eq.symm⟩ rfl rfl
  by_cases hdiv : ∃ n < D, (eps * qf n) * (eps * rf n) = 1
  · obtain ⟨R, h1, h2, h3⟩ := akns_fscatter_div D2SPLIT2_MODAL tab2_MODAL rfl D (by omega) hD' q r qf rf hq hr eps heps
      (by obtain ⟨n, hn, h⟩ := hdiv
          exact ⟨n, hn, by rw [show akns_degree D2SPLIT2_MODAL = 1 from rfl, show aknsEps D2SPLIT2_MODAL eps = eps from rfl, henv, if_pos h]⟩)
      result deg0 Wp
    exact ⟨R, h1, fun _ => ⟨h2, h3⟩, fun h => by obtain ⟨n, hn, h'⟩ := hdiv; exact absurd h' (h n hn)⟩
  · push Not at hdiv
    obtain ⟨R, h1, h2, h3, h4, h5, y, h6, h7, h8⟩ := akns_fscatter_ok D2SPLIT2_MODAL tab2_MODAL rfl D hD hD' q r qf rf hq hr eps heps
      (fun n _ c => if c = 0 then 1 / csqrt (1 - (eps * qf n) * (eps * rf n)) else if c = 1 then eps * qf n else eps * rf n)
      (fun i hi => by rw [show akns_degree D2SPLIT2_MODAL = 1 from rfl, show aknsEps D2SPLIT2_MODAL eps = eps from rfl, henv, if_neg (hdiv i hi)])
      result L hL hlen deg0 Wp
    refine ⟨R, h1, fun ⟨n, hn, h⟩ => absurd h (hdiv n hn), fun _ => ⟨h2, by simpa [akns_degree] using h3, h4, h5, y,
      by simpa [akns_degree] using h6, fun n => csqrt (1 - (eps * qf n) * (eps * rf n)), fun n => ⟨csqrt_sq _, csqrt_re _⟩, fun z => ?_⟩⟩
    have hw : tab2_MODAL.wf 1 = true := by decide
    have hs : ∀ n, Spec.ablowitzLadik (csqrt (1 - (eps * qf n) * (eps * rf n))) (eps * qf n) (eps * rf n) z =
        (sampleP tab2_MODAL 1 (fun _ c => if c = 0 then 1 / csqrt (1 - (eps * qf n) * (eps * rf n)) else
          if c = 1 then (eps * qf n : ℂ) else eps * rf n)).map (eval z) := by
      intro n
      rw [sampleP_eval hw, tabMat_modal, Spec.ablowitzLadik]
      ext i j
      fin_cases i <;> fin_cases j <;> simp
      ring
    simp only [hs]
    rw [← prod_map_eval (fun i => sampleP tab2_MODAL 1 (fun _ c => if c = 0 then
      1 / csqrt (1 - (eps * qf (D - 1 - i)) * (eps * rf (D - 1 - i))) else
          if c = 1 then (eps * qf (D - 1 - i) : ℂ) else eps * rf (D - 1 - i)))]
    simp only [akns_degree, Nat.mul_one] at h7
    rw [← h7]
    ext i j
    simp only [Matrix.smul_apply, Matrix.map_apply, smul_eq_mul, eval_mul, eval_C]

/-- The hypotheses of `C22_C23_fscatter_modal` can be met. -/
example : ∃ R, akns_fscatter 2 (some (Buf.ofFn 2 fun i => (i : ℂ))) (some (Buf.ofFn 2 fun i => -(i : ℂ))) 1
    (some (Buf.malloc 16)) (some 0) none D2SPLIT2_MODAL = some R ∧ R.ret = some SUCCESS := by
  obtain ⟨R, h1, -, h2⟩ := C22_C23_fscatter_modal 2 (by norm_num) (by norm_num)
    (Buf.ofFn 2 fun i => (i : ℂ)) (Buf.ofFn 2 fun i => -(i : ℂ)) (fun i => (i : ℂ)) (fun i => -(i : ℂ))
    (Buf.holds_ofFn _ _) (Buf.holds_ofFn _ _) 1 (by norm_num) (Buf.malloc 16) 16 (by decide) (by simp) 0 none
  refine ⟨R, h1, (h2 ?_).1⟩
  intro n hn
  interval_cases n <;> norm_num

/-- C17 for `akns_fscatter`: with `D = 1` the return value is that of an uninitialised variable, for every
fast discretization (no division by zero). -/
theorem C17_fscatter_one (d : AknsDisc) (hd : Spec.splitting d ≠ []) (q r : Buf ℂ) (qf rf : ℕ → ℂ)
    (hq : q.Holds 0 1 qf) (hr : r.Holds 0 1 rf) (eps : ℝ) (heps : 0 < eps) (result : Buf ℂ) (deg0 : ℕ)
    (Wp : Option ℤ) :
    ∃ R, akns_fscatter 1 (some q) (some r) eps (some result) (some deg0) Wp d = some R ∧ R.ret = none ∧
      R.result = result := by
  obtain ⟨hmod, tab, htab, -⟩ := splitting_tab hd
  obtain ⟨hd0, -⟩ := aknsTab_degree htab
  have hw := aknsTab_wf htab
  have hL' : poly_fmult_numel 4 (akns_degree d) 1 = some (4 * (akns_degree d + 1) * 1) := rfl
  have hL : akns_fscatter_numel 1 d = some (4 * (akns_degree d + 1) * 1) := by
    rw [akns_fscatter_numel, if_neg hd0]; exact hL'
  obtain ⟨p0, i1, i2, i3⟩ := aknsInit_spec tab.zero (4 * (akns_degree d + 1) * 1)
  obtain ⟨p1, l1, l2, l3⟩ := aknsLoop_ok d tab (akns_degree d) hw (aknsEps d eps) 1 q r qf rf hq hr
    (fun n s c => zeroFreq ((tab.scales.getD s 0 : ℚ) * aknsEps d eps / akns_degree d) (qf n) (rf n) c)
    (fun i _ => by rw [aknsEnv, if_neg hmod]) p0 (by omega) i3
  obtain ⟨f, f1, f2, f3, f4, f5⟩ := C17_fmultM_one kind2 (akns_degree d) 1 le_rfl p1 result Wp.isSome
  refine ⟨⟨none, f.deg, if Wp.isSome then f.W else Wp.getD 0, f.result⟩, ?_, rfl, f5⟩
  rw [akns_fscatter, if_neg (by omega)]
  simp only [if_neg (not_le.mpr heps)]
  rw [akns_fscatter_main, hL]
  simp only [Option.bind_eq_bind, Option.bind_some, htab, i1, l1, f1, f2]
  rw [if_neg (by omega)]
  simp

end FNFT

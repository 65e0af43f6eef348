import Verif.Proofs.AknsScatter
/-!
# `akns_scatter_matrix` computes a product of one-step matrices
-/
namespace FNFT
open Complex Matrix AknsDisc

/-- `H[current]` holds `M`, resp. `[M,0;M',M]`. -/
def StD (deriv : Bool) (st : ScatSt) (M M' : Spec.M2) : Prop :=
  match deriv with
  | false => StOK 2 st M
  | true => StOK 4 st (Spec.dual M M')

/-- An array holds `M`, resp. `[M,0;M',M]`. -/
def StoresD (deriv : Bool) (b : Buf ℂ) (M M' : Spec.M2) : Prop :=
  match deriv with
  | false => Spec.Stores b M
  | true => Spec.Stores b (Spec.dual M M')

theorem dual_smul (c : ℂ) (M M' : Spec.M2) : c • Spec.dual M M' = Spec.dual (c • M) (c • M') := by
  ext i j
  fin_cases i <;> fin_cases j <;> simp [Spec.dual]

theorem scatMul_D {deriv : Bool} {U : List ℂ} {A A' M M' : Spec.M2} {st : ScatSt}
    (hU : StoresD deriv (Buf.ofList U) A A') (h : StD deriv st M M') :
    ∃ st', scatMul (scatDim deriv) U st = some st' ∧ StD deriv st' (A * M) (A' * M + A * M') ∧ st'.Wi = st.Wi := by
  cases deriv with
  | false => exact scatMul_ok hU h
  | true =>
    obtain ⟨st', h1, h2, h3⟩ := scatMul_ok hU h
    exact ⟨st', h1, by rw [dual_mul] at h2; exact h2, h3⟩

theorem scatSub_D {deriv : Bool} {U : List ℂ} {A M M' : Spec.M2} {st : ScatSt}
    (hU : Spec.Stores (Buf.ofList U) A) (h : StD deriv st M M') :
    ∃ st', scatSub deriv U st = some st' ∧ StD deriv st' (A * M) (A * M') ∧ st'.Wi = st.Wi := by
  cases deriv with
  | false => exact scatMul_ok hU h
  | true =>
    obtain ⟨st', h1, h2, h3⟩ := scatMulDiag_ok hU h
    refine ⟨st', h1, ?_, h3⟩
    rw [dual_mul, Matrix.zero_mul, zero_add] at h2; exact h2

theorem scatNorm_D {deriv : Bool} (haveW : Bool) {M M' : Spec.M2} {st : ScatSt} (h : StD deriv st M M') :
    ∃ st' a, scatNorm haveW (scatDim deriv) st = some st' ∧
      StD deriv st' ((2 : ℂ) ^ (-a) • M) ((2 : ℂ) ^ (-a) • M') ∧ st'.Wi = st.Wi + a ∧
      (haveW = false → a = 0) := by
  cases deriv with
  | false => exact scatNorm_ok (s := 2) (by norm_num) haveW h
  | true =>
    obtain ⟨st', a, h1, h2, h3⟩ := scatNorm_ok (s := 4) (by norm_num) haveW h
    refine ⟨st', a, h1, ?_, h3⟩
    rw [dual_smul] at h2; exact h2

theorem scatInit_D (deriv : Bool) : StD deriv (scatInit deriv) 1 0 := by
  cases deriv with
  | false => exact scatInit_ok2
  | true =>
    have := scatInit_ok4
    rw [← dual_one] at this
    exact this

theorem scatInit_Wi (deriv : Bool) : (scatInit deriv).Wi = 0 := by cases deriv <;> rfl

/-- A loop over samples whose body multiplies by `A n` and may normalise. -/
theorem scat_loop_D {deriv : Bool} (haveW : Bool) (N : ℕ) (body : ℕ → ScatSt → Option ScatSt)
    (A A' : ℕ → Spec.M2)
    (hstep : ∀ n, n < N → ∀ st M M', StD deriv st M M' → ∃ st' a, body n st = some st' ∧
      StD deriv st' ((2 : ℂ) ^ (-a) • (A n * M)) ((2 : ℂ) ^ (-a) • (A' n * M + A n * M')) ∧ st'.Wi = st.Wi + a ∧
      (haveW = false → a = 0)) :
    ∃ st', forLoop N body (scatInit deriv) = some st' ∧
      StD deriv st' ((2 : ℂ) ^ (-st'.Wi) • Spec.chain A N) ((2 : ℂ) ^ (-st'.Wi) • Spec.dchain A A' N) ∧
      (haveW = false → st'.Wi = 0) := by
  apply forLoop_inv (fun n st' => StD deriv st' ((2 : ℂ) ^ (-st'.Wi) • Spec.chain A n)
    ((2 : ℂ) ^ (-st'.Wi) • Spec.dchain A A' n) ∧ (haveW = false → st'.Wi = 0))
  · rw [scatInit_Wi, chain_zero]
    simpa [Spec.dchain] using scatInit_D deriv
  · rintro n t hn ⟨h1, h2⟩
    obtain ⟨t', a, e1, e2, e3, e4⟩ := hstep n hn t _ _ h1
    refine ⟨t', e1, ?_, fun h => by rw [e3, h2 h, e4 h, add_zero]⟩
    rw [chain_succ, e3, neg_add, zpow_add₀ (by norm_num : (2 : ℂ) ≠ 0), mul_comm, mul_smul, mul_smul, Spec.dchain]
    simp only [Matrix.mul_smul, ← smul_add] at e2
    exact e2

/-! ## One step -/

/-- Second block of `U_BO_d`. -/
noncomputable def dBO (qn rn ln eps_t : ℂ) : Spec.M2 :=
  let ln2 := ln * ln
  let ks := qn * rn - ln2
  let k := csqrt ks
  let ch := cosh (k * eps_t)
  let sh := eps_t * misc_CSINC (I * k * eps_t)
  let chi := ch / ks
  let ud1 := eps_t * ln2 * chi * I
  let ud2 := misc_CSINC_derivative (I * eps_t * k) * I * ln * eps_t * eps_t / k
  !![ud1 - (ln * eps_t + I + (ln2 * I) / ks) * sh, -qn * ud2;
     -rn * ud2, -ud1 - (ln * eps_t - I - (ln2 * I) / ks) * sh]

/-- Second block of `U_ES4_d`. -/
noncomputable def dES4 (a1 a2 a3 t0 t1 t2 : ℂ) : Spec.M2 :=
  let w := csqrt (-(a1 * a1) - (a2 * a2) - (a3 * a3))
  let s := misc_CSINC w
  let w_d := -(a1 * t0 + a2 * t1 + a3 * t2)
  let c_d := -misc_CSINC w * w_d
  let w_d := w_d / w
  let s_d := w_d * misc_CSINC_derivative w
  !![c_d + s_d * a3 + s * t2, s_d * a1 + s * t0 - I * s_d * a2 - I * s * t1;
     s_d * a1 + s * t0 + I * s_d * a2 + I * s * t1, c_d - s_d * a3 - s * t2]

theorem storesD_BO (deriv : Bool) (q r l h : ℂ) :
    StoresD deriv (Buf.ofList (if deriv then U_BO_d q r l h else U_BO q r l h)) (expS (h • Spec.aknsP q r l)) (dBO q r l h) := by
  have h0 := stores_U_BO q r l h
  cases deriv with
  | false => exact h0
  | true =>
    have e00 := h0 0 0
    have e01 := h0 0 1
    have e10 := h0 1 0
    have e11 := h0 1 1
    simp [Buf.rd_ofList, U_BO] at e00 e01 e10 e11
    intro i j
    fin_cases i <;> fin_cases j <;>
      simp [Buf.rd_ofList, U_BO_d, Spec.dual, dBO, e00, e01, e10, e11]

theorem storesD_ES4 (deriv : Bool) (a1 a2 a3 t0 t1 t2 : ℂ) :
    StoresD deriv (Buf.ofList (if deriv then U_ES4_d a1 a2 a3 t0 t1 t2 else U_ES4 a1 a2 a3))
      (expS !![a3, a1 - I * a2; a1 + I * a2, -a3]) (dES4 a1 a2 a3 t0 t1 t2) := by
  have h0 := stores_U_ES4 a1 a2 a3
  cases deriv with
  | false => exact h0
  | true =>
    have e00 := h0 0 0
    have e01 := h0 0 1
    have e10 := h0 1 0
    have e11 := h0 1 1
    simp [Buf.rd_ofList, U_ES4] at e00 e01 e10 e11
    intro i j
    fin_cases i <;> fin_cases j <;>
      simp [Buf.rd_ofList, U_ES4_d, Spec.dual, dES4, e00, e01, e10, e11]

theorem stepBO_ok {deriv haveW : Bool} {up D : ℕ} {w : List ℂ} {q r : Buf ℂ} {qf rf : ℕ → ℂ} (hq : q.Holds 0 D qf)
    (hr : r.Holds 0 D rf) {n : ℕ} (hn : n < D) {h : ℂ} (hw : w[n % up]? = some h) (l : ℂ) {st : ScatSt} {M M' : Spec.M2}
    (hst : StD deriv st M M') :
    ∃ st' a, scatStepBO deriv haveW up w q r l n st = some st' ∧
      StD deriv st' ((2 : ℂ) ^ (-a) • (expS (h • Spec.aknsP (qf n) (rf n) l) * M))
        ((2 : ℂ) ^ (-a) • (dBO (qf n) (rf n) l h * M + expS (h • Spec.aknsP (qf n) (rf n) l) * M')) ∧
      st'.Wi = st.Wi + a ∧ (haveW = false → a = 0) := by
  obtain ⟨s1, h1, h2, h3⟩ := scatMul_D (storesD_BO deriv (qf n) (rf n) l h) hst
  obtain ⟨s2, a, g1, g2, g3, g4⟩ := scatNorm_D haveW h2
  refine ⟨s2, a, ?_, g2, by rw [g3, h3], g4⟩
  unfold scatStepBO
  simp only [hw, rdH hq hn, rdH hr hn, Option.bind_eq_bind, Option.bind_some, h1, g1]

/-- The exponent of the `ES4` step. -/
theorem es4_exponent (eps : ℝ) (q r : ℕ → ℂ) (l : ℂ) (n : ℕ) (a1 a2 a3 : ℂ)
    (h1 : a1 = es4x eps q r n + ((eps * eps * eps : ℝ) : ℂ) * (l * I * (q (3 * n + 1) - r (3 * n + 1))) / 12)
    (h2 : a2 = es4y eps q r n - ((eps * eps * eps : ℝ) : ℂ) * l * (q (3 * n + 1) + r (3 * n + 1)) / 12)
    (h3 : a3 = -eps * I * l + es4z eps q r n) :
    expS !![a3, a1 - I * a2; a1 + I * a2, -a3] = Spec.slowStep expS ES4 eps (fun _ => 1) q r l n := by
  simp only [Spec.slowStep]
  congr 1
  subst h1 h2 h3
  ext i j
  fin_cases i <;> fin_cases j <;>
    simp [es4x, es4y, es4z, Spec.aknsP, Spec.aknsPt, Matrix.sub_apply] <;> ring_nf <;>
    simp [I_sq] <;> ring

theorem tes4_exponent (σ : ℂ) (hσ : σ = 1 ∨ σ = -1) (eps : ℝ) (q r : ℕ → ℂ) (n : ℕ) :
    expS !![0, tes4x σ eps q r n - I * tes4y σ eps q r n; tes4x σ eps q r n + I * tes4y σ eps q r n, -0] =
    expS (((eps : ℂ) ^ 3 / 48) • Spec.aknsPt (q (3 * n + 2)) (r (3 * n + 2)) +
      σ • ((eps : ℂ) ^ 2 / 12) • Spec.aknsPt (q (3 * n + 1)) (r (3 * n + 1))) := by
  congr 1
  rcases hσ with rfl | rfl
  all_goals
    ext i j
    fin_cases i <;> fin_cases j <;> simp [tes4x, tes4y, Spec.aknsPt] <;> ring_nf <;> simp [I_sq] <;> ring

/-- Derivative block of one step. -/
noncomputable def slowStepD (d : AknsDisc) (h : ℝ) (w : ℕ → ℂ) (q r : ℕ → ℂ) (l : ℂ) (n : ℕ) : Spec.M2 :=
  match d with
  | ES4 => dES4 (es4x h q r n + ((h * h * h : ℝ) : ℂ) * (l * I * (q (3 * n + 1) - r (3 * n + 1))) / 12)
      (es4y h q r n - ((h * h * h : ℝ) : ℂ) * l * (q (3 * n + 1) + r (3 * n + 1)) / 12)
      (-h * I * l + es4z h q r n) (es4dx h q r n) (es4dy h q r n) (-I * h)
  | TES4 => 
    let P1 := Spec.aknsPt (q (3 * n + 1)) (r (3 * n + 1))
    let P2 := Spec.aknsPt (q (3 * n + 2)) (r (3 * n + 2))
    expS (((h : ℂ) ^ 3 / 48) • P2 + ((h : ℂ) ^ 2 / 12) • P1) * dBO (q (3 * n)) (r (3 * n)) l h *
      expS (((h : ℂ) ^ 3 / 48) • P2 - ((h : ℂ) ^ 2 / 12) • P1)
  | _ => dBO (q n) (r n) l (w n * h)

theorem stepES4_ok {deriv haveW : Bool} {N : ℕ} {q r tmp : Buf ℂ} {qf rf : ℕ → ℂ} (hq : q.Holds 0 (3 * N) qf)
    (hr : r.Holds 0 (3 * N) rf) {n : ℕ} (hn : n < N) {eps : ℝ}
    (ht : tmp.rd (3 * n) = some (es4x eps qf rf n) ∧ tmp.rd (3 * n + 1) = some (es4y eps qf rf n) ∧
      tmp.rd (3 * n + 2) = some (es4z eps qf rf n) ∧
      (deriv = true → tmp.rd (3 * N + 3 * n) = some (es4dx eps qf rf n) ∧
        tmp.rd (3 * N + 3 * n + 1) = some (es4dy eps qf rf n) ∧ tmp.rd (3 * N + 3 * n + 2) = some (-I * eps)))
    (w : ℕ → ℂ) (l : ℂ) {st : ScatSt} {M M' : Spec.M2} (hst : StD deriv st M M') :
    ∃ st' a, scatStepES4 deriv haveW (3 * N) eps tmp q r l n st = some st' ∧
      StD deriv st' ((2 : ℂ) ^ (-a) • (Spec.slowStep expS ES4 eps w qf rf l n * M))
        ((2 : ℂ) ^ (-a) • (slowStepD ES4 eps w qf rf l n * M + Spec.slowStep expS ES4 eps w qf rf l n * M')) ∧
      st'.Wi = st.Wi + a ∧ (haveW = false → a = 0) := by
  have hU := storesD_ES4 deriv (es4x eps qf rf n + ((eps * eps * eps : ℝ) : ℂ) * (l * I * (qf (3 * n + 1) - rf (3 * n + 1))) / 12)
      (es4y eps qf rf n - ((eps * eps * eps : ℝ) : ℂ) * l * (qf (3 * n + 1) + rf (3 * n + 1)) / 12)
      (-eps * I * l + es4z eps qf rf n) (es4dx eps qf rf n) (es4dy eps qf rf n) (-I * eps)
  rw [es4_exponent eps qf rf l n _ _ _ rfl rfl rfl] at hU
  obtain ⟨s1, h1, h2, h3⟩ := scatMul_D hU hst
  obtain ⟨s2, a, g1, g2, g3, g4⟩ := scatNorm_D haveW h2
  refine ⟨s2, a, ?_, g2, by rw [g3, h3], g4⟩
  unfold scatStepES4
  obtain ⟨t1, t2, t3, t4⟩ := ht
  have hes : ∀ a1 a2 a3 : ℂ, es4U deriv (3 * N) tmp a1 a2 a3 (3 * n) = some (if deriv then
      U_ES4_d a1 a2 a3 (es4dx eps qf rf n) (es4dy eps qf rf n) (-I * eps) else U_ES4 a1 a2 a3) := by
    intro a1 a2 a3
    cases deriv with
    | false => rfl
    | true =>
      obtain ⟨u1, u2, u3⟩ := t4 rfl
      simp only [es4U, u1, u2, u3, if_true, Option.bind_eq_bind, Option.bind_some]; rfl
  simp only [rdH hq (show 3 * n + 1 < 3 * N by omega), rdH hr (show 3 * n + 1 < 3 * N by omega), t1, t2, t3,
    Option.bind_eq_bind, Option.bind_some, hes, h1, g1]

theorem stepTES4_ok {deriv haveW : Bool} {N : ℕ} {q r tmp : Buf ℂ} {qf rf : ℕ → ℂ} (hq : q.Holds 0 (3 * N) qf)
    (hr : r.Holds 0 (3 * N) rf) {n : ℕ} (hn : n < N) {eps : ℝ}
    (ht : tmp.rd (3 * n) = some (tes4x (-1) eps qf rf n) ∧ tmp.rd (3 * n + 1) = some (tes4y (-1) eps qf rf n) ∧
      tmp.rd (3 * N + 3 * n) = some (tes4x 1 eps qf rf n) ∧ tmp.rd (3 * N + 3 * n + 1) = some (tes4y 1 eps qf rf n))
    (w : ℕ → ℂ) (l : ℂ) {st : ScatSt} {M M' : Spec.M2} (hst : StD deriv st M M') :
    ∃ st' a, scatStepTES4 deriv haveW (3 * N) eps tmp q r l n st = some st' ∧
      StD deriv st' ((2 : ℂ) ^ (-a) • (Spec.slowStep expS TES4 eps w qf rf l n * M))
        ((2 : ℂ) ^ (-a) • (slowStepD TES4 eps w qf rf l n * M + Spec.slowStep expS TES4 eps w qf rf l n * M')) ∧
      st'.Wi = st.Wi + a ∧ (haveW = false → a = 0) := by
  have hM1 := stores_U_ES4 (tes4x (-1) eps qf rf n) (tes4y (-1) eps qf rf n) 0
  have hM2 := stores_U_ES4 (tes4x 1 eps qf rf n) (tes4y 1 eps qf rf n) 0
  rw [tes4_exponent (-1) (Or.inr rfl)] at hM1
  rw [tes4_exponent 1 (Or.inl rfl)] at hM2
  obtain ⟨s0, h0, h0', h0''⟩ := scatSub_D hM1 hst
  obtain ⟨s1, h1, h1', h1''⟩ := scatMul_D (storesD_BO deriv (qf (3 * n)) (rf (3 * n)) l eps) h0'
  obtain ⟨s2, h2, h2', h2''⟩ := scatSub_D hM2 h1'
  obtain ⟨s3, a, g1, g2, g3, g4⟩ := scatNorm_D haveW h2'
  refine ⟨s3, a, ?_, ?_, by rw [g3, h2'', h1'', h0''], g4⟩
  · unfold scatStepTES4
    obtain ⟨t1, t2, t3, t4⟩ := ht
    simp only [rdH hq (show 3 * n < 3 * N by omega), rdH hr (show 3 * n < 3 * N by omega), t1, t2, t3, t4,
      Option.bind_eq_bind, Option.bind_some, h0, h1, h2, g1]
  · convert g2 using 2
    · simp only [Spec.slowStep, one_smul, neg_smul, ← sub_eq_add_neg, Matrix.mul_assoc]
    · simp only [Spec.slowStep, slowStepD, one_smul, neg_smul, ← sub_eq_add_neg, Matrix.mul_assoc, Matrix.mul_add]

/-! ## All samples -/

theorem weights_eq {d : AknsDisc} (hd : Spec.slow d) (h1 : d ≠ ES4) (h2 : d ≠ TES4) :
    ∃ p, akns_method_weights d = .ok p ∧
      ∀ n, (p.2)[n % akns_upsampling_factor d]? = some (Spec.cfWeight d n) := by
  rcases hd with rfl | rfl | rfl | rfl | rfl | rfl | rfl
  · exact ⟨_, rfl, fun n => by simp [akns_upsampling_factor, Nat.mod_one, Spec.cfWeight]⟩
  · refine ⟨_, rfl, fun n => ?_⟩
    simp only [akns_upsampling_factor, Spec.cfWeight]
    have : n % 2 < 2 := Nat.mod_lt _ (by norm_num)
    generalize n % 2 = m at this
    interval_cases m <;> simp <;> norm_num
  · refine ⟨_, rfl, fun n => ?_⟩
    have : n % 3 < 3 := Nat.mod_lt _ (by norm_num)
    simp only [akns_upsampling_factor, Spec.cfWeight, normRows]
    generalize n % 3 = m at this ⊢
    rw [List.getElem?_map, List.getElem?_range this, Option.map_some, zero_add, cf43_rows m this]
    interval_cases m <;> simp [cf43f]
  · refine ⟨_, rfl, fun n => ?_⟩
    have : n % 3 < 3 := Nat.mod_lt _ (by norm_num)
    simp only [akns_upsampling_factor, Spec.cfWeight, normRows]
    generalize n % 3 = m at this ⊢
    rw [List.getElem?_map, List.getElem?_range this, Option.map_some, zero_add]
    obtain ⟨e0, e1, e2⟩ := cf53_rows
    interval_cases m
    · rw [e0]; simp; ring
    · rw [e1]; simp
    · rw [e2]; simp; ring
  · refine ⟨_, rfl, fun n => ?_⟩
    have : n % 4 < 4 := Nat.mod_lt _ (by norm_num)
    simp only [akns_upsampling_factor, Spec.cfWeight, normRows]
    generalize n % 4 = m at this ⊢
    rw [List.getElem?_map, List.getElem?_range this, Option.map_some, zero_add]
    interval_cases m <;> simp [cf64raw] <;> norm_num <;> ring
  · exact absurd rfl h1
  · exact absurd rfl h2

/-- The loop over samples started from the identity. -/
theorem scatLoop_ok {D : ℕ} {q r : Buf ℂ} {qf rf : ℕ → ℂ} (hq : q.Holds 0 D qf) (hr : r.Holds 0 D rf) (eps : ℝ)
    {d : AknsDisc} (hd : Spec.slow d) (hs : Spec.slowSamples d D) (deriv haveW : Bool) :
    ∃ loop, scatLoop D q r eps d deriv haveW = some (.ok loop) ∧ ∀ l,
      ∃ st, loop l (scatInit deriv) = some st ∧
        StD deriv st ((2 : ℂ) ^ (-st.Wi) • Spec.chain (Spec.slowStep expS d eps (Spec.cfWeight d) qf rf l) (Spec.slowCount d D))
          ((2 : ℂ) ^ (-st.Wi) • Spec.dchain (Spec.slowStep expS d eps (Spec.cfWeight d) qf rf l)
            (slowStepD d eps (Spec.cfWeight d) qf rf l) (Spec.slowCount d D)) ∧
        (haveW = false → st.Wi = 0) := by
  by_cases h1 : d = ES4
  · subst h1
    obtain ⟨N, rfl⟩ : 3 ∣ D := hs
    obtain ⟨tmp, g1, g2⟩ := es4Pre_ok deriv hq hr eps
    refine ⟨_, by simp only [scatLoop, g1, Option.bind_eq_bind, Option.bind_some]; rfl, fun l => ?_⟩
    have e1 : (3 * N + 2) / 3 = N := by omega
    have e2 : Spec.slowCount ES4 (3 * N) = N := by simp [Spec.slowCount]
    rw [e1, e2]
    exact scat_loop_D haveW N _ _ _ fun n hn st M M' hst => stepES4_ok hq hr hn (g2 n hn) _ l hst
  by_cases h2 : d = TES4
  · subst h2
    obtain ⟨N, rfl⟩ : 3 ∣ D := hs
    obtain ⟨tmp, g1, -, g2⟩ := tes4Pre_ok hq hr eps le_rfl
    have e1 : (3 * N + 2) / 3 = N := by omega
    have e2 : Spec.slowCount TES4 (3 * N) = N := by simp [Spec.slowCount]
    refine ⟨_, by simp only [scatLoop, e1, g1, Option.bind_eq_bind, Option.bind_some]; rfl, fun l => ?_⟩
    rw [e2]
    exact scat_loop_D haveW N _ _ _ fun n hn st M M' hst => stepTES4_ok hq hr hn (g2 n hn) _ l hst
  obtain ⟨p, hp, hw⟩ := weights_eq hd h1 h2
  have hl : scatLoop D q r eps d deriv haveW = some (.ok fun l => forLoop D
        (scatStepBO deriv haveW (akns_upsampling_factor d) (p.2.map (· * (eps : ℂ))) q r l)) := by
    rcases hd with rfl | rfl | rfl | rfl | rfl | rfl | rfl <;> first | (simp only [scatLoop, hp]; done) | exact absurd rfl h1 | exact absurd rfl h2
  have hc : Spec.slowCount d D = D := by
    rcases hd with rfl | rfl | rfl | rfl | rfl | rfl | rfl <;> first | rfl | exact absurd rfl h1 | exact absurd rfl h2
  have hstep : ∀ l n, Spec.slowStep expS d eps (Spec.cfWeight d) qf rf l n = expS ((Spec.cfWeight d n * (eps : ℂ)) • Spec.aknsP (qf n) (rf n) l) ∧
      slowStepD d eps (Spec.cfWeight d) qf rf l n = dBO (qf n) (rf n) l (Spec.cfWeight d n * eps) := by
    intro l n
    rcases hd with rfl | rfl | rfl | rfl | rfl | rfl | rfl <;> first | exact ⟨rfl, rfl⟩ | exact absurd rfl h1 | exact absurd rfl h2
  refine ⟨_, hl, fun l => ?_⟩
  rw [hc]
  refine scat_loop_D haveW D _ _ _ fun n hn st M M' hst => ?_
  have hwn : (p.2.map (· * (eps : ℂ)))[n % akns_upsampling_factor d]? = some (Spec.cfWeight d n * eps) := by
    rw [List.getElem?_map, hw n]; rfl
  have := stepBO_ok (haveW := haveW) hq hr hn hwn l hst
  rw [(hstep l n).1, (hstep l n).2]
  exact this

/-! ## Output -/

theorem wrList_ok {α : Type*} (vs : List α) : ∀ (o : ℕ) (b : Buf α), o + vs.length ≤ b.len →
    ∃ b', wrList o vs b = some b' ∧ b'.len = b.len ∧ (∀ i, i < vs.length → b'.rd (o + i) = vs[i]?) ∧
      ∀ i, (i < o ∨ o + vs.length ≤ i) → b'.rd i = b.rd i := by
  induction vs with
  | nil => intro o b _; exact ⟨b, rfl, rfl, fun i h => by simp at h, fun _ _ => rfl⟩
  | cons v vs ih =>
    intro o b h
    rw [List.length_cons] at h
    obtain ⟨b', h1, h2, h3, h4⟩ := ih (o + 1) (b.set o v) (by simp; omega)
    refine ⟨b', ?_, by rw [h2]; simp, ?_, ?_⟩
    · unfold wrList; rw [Buf.wr_eq _ (by omega)]; exact h1
    · intro i hi
      cases i with
      | zero =>
        rw [Nat.add_zero, h4 o (Or.inl (by omega)), Buf.rd_set _ (by omega), if_pos rfl]; rfl
      | succ i =>
        rw [show o + (i + 1) = o + 1 + i by ring, h3 i (by simp at hi; omega)]; rfl
    · intro i hi
      rw [List.length_cons] at hi
      rw [h4 i (by omega), Buf.rd_set _ (by omega), if_neg (by omega)]

/-- What is written to `result` for one `lambda`. -/
def outList (deriv : Bool) (M M' : Spec.M2) : List ℂ :=
  if deriv then [M 0 0, M 0 1, M 1 0, M 1 1, M' 0 0, M' 0 1, M' 1 0, M' 1 1] else [M 0 0, M 0 1, M 1 0, M 1 1]

theorem outList_length (deriv : Bool) (M M' : Spec.M2) : (outList deriv M M').length = if deriv then 8 else 4 := by
  cases deriv <;> rfl

theorem scatOut_D {deriv : Bool} {H : Buf ℂ} {M M' : Spec.M2} (h : StoresD deriv H M M') :
    scatOut deriv H = some (outList deriv M M') := by
  cases deriv with
  | false =>
    have h : Spec.Stores H M := h
    have e00 : H.rd 0 = _ := h 0 0
    have e01 : H.rd 1 = _ := h 0 1
    have e10 : H.rd 2 = _ := h 1 0
    have e11 : H.rd 3 = _ := h 1 1
    simp only [scatOut, Bool.false_eq_true, if_false, e00, e01, e10, e11, Option.bind_eq_bind, Option.bind_some, outList]
    rfl
  | true =>
    have h : Spec.Stores H (Spec.dual M M') := h
    have e00 : H.rd 0 = some (M 0 0) := h 0 0
    have e01 : H.rd 1 = some (M 0 1) := h 0 1
    have e10 : H.rd 4 = some (M 1 0) := h 1 0
    have e11 : H.rd 5 = some (M 1 1) := h 1 1
    have e22 : H.rd 10 = some (M 0 0) := h 2 2
    have e23 : H.rd 11 = some (M 0 1) := h 2 3
    have e32 : H.rd 14 = some (M 1 0) := h 3 2
    have e33 : H.rd 15 = some (M 1 1) := h 3 3
    have e20 : H.rd 8 = some (M' 0 0) := h 2 0
    have e21 : H.rd 9 = some (M' 0 1) := h 2 1
    have e30 : H.rd 12 = some (M' 1 0) := h 3 0
    have e31 : H.rd 13 = some (M' 1 1) := h 3 1
    have hh : ∀ x : ℂ, 0.5 * x + 0.5 * x = x := fun x => by ring
    simp only [scatOut, if_true, e00, e01, e10, e11, e22, e23, e32, e33, e20, e21, e30, e31, Option.bind_eq_bind,
      Option.bind_some, outList, hh]
    rfl

theorem mulRight_D {deriv : Bool} {T : List ℂ} {A A' M M' : Spec.M2} {st : ScatSt}
    (hT : StoresD deriv (Buf.ofList T) A A') (h : StD deriv st M M') :
    ∃ o, misc_matrix_mult (scatDim deriv) (scatDim deriv) (scatDim deriv) st.cur (Buf.ofList T) st.oth = some o ∧
      StoresD deriv o (M * A) (M' * A + M * A') := by
  cases deriv with
  | false =>
    have h : StOK 2 st M := h
    obtain ⟨o, h1, h2, -⟩ := C19_matrix_mult M A st.cur (Buf.ofList T) st.oth h.hS hT (by rw [h.l2])
    exact ⟨o, h1, h2⟩
  | true =>
    have h : StOK 4 st (Spec.dual M M') := h
    obtain ⟨o, h1, h2, -⟩ := C19_matrix_mult (Spec.dual M M') (Spec.dual A A') st.cur (Buf.ofList T) st.oth h.hS hT (by rw [h.l2])
    rw [dual_mul] at h2
    exact ⟨o, h1, h2⟩

theorem storesD_to {xi : ℂ} (deriv : Bool) {eps : ℝ} {d : AknsDisc} (vanilla : Bool) {pde : AknsPde}
    (hp : pde = .KdV ∨ pde = .NSE) (hd : Spec.known d) (hx : pde = .KdV → xi ≠ 0) :
    (∃ T, akns_basis_to_S xi deriv eps d vanilla pde = .ok T ∧
      StoresD deriv (Buf.ofList T) (basisTo eps d vanilla pde xi) (basisTo' eps d vanilla pde xi)) ∧
    (∃ T, akns_basis_from_S xi deriv eps d vanilla pde = .ok T ∧
      StoresD deriv (Buf.ofList T) (basisFrom eps d vanilla pde xi) (basisFrom' eps d vanilla pde xi)) := by
  refine ⟨⟨_, basis_to_eq deriv vanilla hp hd hx, ?_⟩, ⟨_, basis_from_eq deriv vanilla hp hd hx, ?_⟩⟩
  · cases deriv with
    | false => exact stores_m2 _ _
    | true => exact stores_m4 _ _
  · cases deriv with
    | false => exact stores_m2 _ _
    | true => exact stores_m4 _ _

/-- `A C B` and its derivative. -/
noncomputable def sandwich (A C B : Spec.M2) : Spec.M2 := A * C * B
noncomputable def sandwichD (A A' C C' B B' : Spec.M2) : Spec.M2 := (A' * C + A * C') * B + A * C * B'

/-- One `lambda`. -/
theorem scatLambda_ok {eps : ℝ} {d : AknsDisc} {pde : AknsPde} (hp : pde = .KdV ∨ pde = .NSE) (hd : Spec.known d)
    (vanilla deriv haveW : Bool) {loop : ℂ → ScatSt → Option ScatSt} {C C' : Spec.M2} {lambda : Buf ℂ} {i : ℕ} {l : ℂ}
    (hl : lambda.rd i = some l) (hx : pde = .KdV → l ≠ 0)
    (hloop : ∃ st, loop l (scatInit deriv) = some st ∧
        StD deriv st ((2 : ℂ) ^ (-st.Wi) • C) ((2 : ℂ) ^ (-st.Wi) • C') ∧ (haveW = false → st.Wi = 0))
    (s : ScatRes) (hret : s.ret = SUCCESS) (hW : s.W.isSome = haveW) (hWl : ∀ W, s.W = some W → i < W.len)
    (hres : (if deriv then 8 else 4) * (i + 1) ≤ s.result.len) :
    ∃ s' a, scatLambda eps d pde vanilla deriv loop lambda i s = some s' ∧ s'.ret = SUCCESS ∧
      s'.result.len = s.result.len ∧ s'.W.isSome = haveW ∧
      (∀ j, j < (if deriv then 8 else 4) → s'.result.rd ((if deriv then 8 else 4) * i + j) =
        (outList deriv ((2 : ℂ) ^ (-a) • sandwich (basisTo eps d vanilla pde l) C (basisFrom eps d vanilla pde l))
          ((2 : ℂ) ^ (-a) • sandwichD (basisTo eps d vanilla pde l) (basisTo' eps d vanilla pde l) C C'
            (basisFrom eps d vanilla pde l) (basisFrom' eps d vanilla pde l)))[j]?) ∧
      (∀ j, (j < (if deriv then 8 else 4) * i ∨ (if deriv then 8 else 4) * (i + 1) ≤ j) → s'.result.rd j = s.result.rd j) ∧
      (∀ W, s.W = some W → ∃ W', s'.W = some W' ∧ W'.len = W.len ∧ W'.rd i = some a ∧ ∀ j, j ≠ i → W'.rd j = W.rd j) ∧
      (haveW = false → a = 0) := by
  obtain ⟨st, h1, h2, h3⟩ := hloop
  obtain ⟨⟨T, t1, t2⟩, ⟨T', t3, t4⟩⟩ := storesD_to deriv vanilla hp hd hx (eps := eps)
  obtain ⟨s1, g1, g2, g3⟩ := scatMul_D t2 h2
  obtain ⟨o, o1, o2⟩ := mulRight_D t4 g2
  have hout := scatOut_D o2
  set c := if deriv then 8 else 4 with hc
  set vs := outList deriv _ _ with hvs
  have hvl : vs.length = c := outList_length _ _ _
  obtain ⟨res, r1, r2, r3, r4⟩ := wrList_ok vs (c * i) s.result (by rw [hvl, ← Nat.mul_succ]; exact hres)
  have hWr : ∃ W', scatW s.W i st.Wi = some W' ∧ W'.isSome = haveW ∧ ∀ W, s.W = some W → ∃ V, W' = some V ∧ V.len = W.len ∧
      V.rd i = some st.Wi ∧ ∀ j, j ≠ i → V.rd j = W.rd j := by
    cases hh : s.W with
    | none => exact ⟨none, rfl, by rw [← hW, hh], fun W h => by cases h⟩
    | some W =>
      have hi := hWl W hh
      refine ⟨some (W.set i st.Wi), ?_, by rw [← hW, hh]; rfl, fun W h => ?_⟩
      · simp only [scatW, Buf.wr_eq _ hi]; rfl
      · cases h
        exact ⟨_, rfl, rfl, by rw [Buf.rd_set _ hi, if_pos rfl], fun j hj => by rw [Buf.rd_set _ hi, if_neg hj]⟩
  obtain ⟨W', w1, w2, w3⟩ := hWr
  refine ⟨⟨SUCCESS, res, W'⟩, st.Wi, ?_, rfl, r2, w2, ?_, ?_, w3, h3⟩
  · unfold scatLambda
    rw [if_neg (by rw [hret]; simp)]
    simp only [hl, h1, w1, t1, g1, t3, o1, hout, Option.bind_eq_bind, Option.bind_some]
    rw [show (if deriv = true then 8 else 4) = c from rfl, r1]; rfl
  · intro j hj
    rw [r3 j (by rw [hvl]; exact hj), hvs]
    congr 1
    congr 1
    · simp only [sandwich, Matrix.mul_smul, Matrix.smul_mul]
    · simp only [sandwichD, Matrix.mul_smul, Matrix.smul_mul, smul_add, Matrix.add_mul]
  · intro j hj
    exact r4 j (by rw [hvl]; rw [Nat.mul_succ] at hj; exact hj)

/-- `akns_scatter_matrix` on valid arguments. -/
theorem scatter_matrix_ok {D : ℕ} (hD : 0 < D) {q r : Buf ℂ} {qf rf : ℕ → ℂ} (hq : q.Holds 0 D qf) (hr : r.Holds 0 D rf)
    {eps : ℝ} (heps : 0 < eps) {K : ℕ} (hK : 0 < K) {lambda : Buf ℂ} {lf : ℕ → ℂ} (hl : lambda.Holds 0 K lf)
    {d : AknsDisc} (hd : Spec.slow d) (hs : Spec.slowSamples d D) {pde : AknsPde} (hp : pde = .KdV ∨ pde = .NSE)
    (hx : pde = .KdV → ∀ i, i < K → lf i ≠ 0) (vanilla : ℕ) (deriv : Bool)
    (result : Buf ℂ) (hres : (if deriv then 8 else 4) * K ≤ result.len) (W : Option (Buf ℤ))
    (hW : ∀ V, W = some V → K ≤ V.len) :
    ∃ (res : ScatRes) (a : ℕ → ℤ), akns_scatter_matrix D (some q) (some r) eps K (some lambda) (some result) W d pde vanilla
        (if deriv then 1 else 0) = some res ∧ res.ret = SUCCESS ∧ res.result.len = result.len ∧
      (∀ i, i < K → ∀ j, j < (if deriv then 8 else 4) → res.result.rd ((if deriv then 8 else 4) * i + j) =
        (outList deriv ((2 : ℂ) ^ (-a i) • sandwich (basisTo eps d (vanilla ≠ 0) pde (lf i))
            (Spec.chain (Spec.slowStep expS d eps (Spec.cfWeight d) qf rf (lf i)) (Spec.slowCount d D))
            (basisFrom eps d (vanilla ≠ 0) pde (lf i)))
          ((2 : ℂ) ^ (-a i) • sandwichD (basisTo eps d (vanilla ≠ 0) pde (lf i)) (basisTo' eps d (vanilla ≠ 0) pde (lf i))
            (Spec.chain (Spec.slowStep expS d eps (Spec.cfWeight d) qf rf (lf i)) (Spec.slowCount d D))
            (Spec.dchain (Spec.slowStep expS d eps (Spec.cfWeight d) qf rf (lf i)) (slowStepD d eps (Spec.cfWeight d) qf rf (lf i))
              (Spec.slowCount d D))
            (basisFrom eps d (vanilla ≠ 0) pde (lf i)) (basisFrom' eps d (vanilla ≠ 0) pde (lf i))))[j]?) ∧
      (∀ j, (if deriv then 8 else 4) * K ≤ j → res.result.rd j = result.rd j) ∧
      (∀ V, W = some V → ∃ V', res.W = some V' ∧ V'.len = V.len ∧ (∀ i, i < K → V'.rd i = some (a i)) ∧
        ∀ j, K ≤ j → V'.rd j = V.rd j) ∧
      (W = none → res.W = none ∧ ∀ i, a i = 0) := by
  have hk : Spec.known d := by
    rcases hd with rfl | rfl | rfl | rfl | rfl | rfl | rfl <;> simp [Spec.known, akns_upsampling_factor]
  obtain ⟨loop, l1, l2⟩ := scatLoop_ok hq hr eps hd hs deriv W.isSome
  set c := if deriv then 8 else 4 with hc
  set P : ℤ → ℂ → List ℂ := fun a l => outList deriv ((2 : ℂ) ^ (-a) • sandwich (basisTo eps d (vanilla ≠ 0) pde l)
            (Spec.chain (Spec.slowStep expS d eps (Spec.cfWeight d) qf rf l) (Spec.slowCount d D))
            (basisFrom eps d (vanilla ≠ 0) pde l))
          ((2 : ℂ) ^ (-a) • sandwichD (basisTo eps d (vanilla ≠ 0) pde l) (basisTo' eps d (vanilla ≠ 0) pde l)
            (Spec.chain (Spec.slowStep expS d eps (Spec.cfWeight d) qf rf l) (Spec.slowCount d D))
            (Spec.dchain (Spec.slowStep expS d eps (Spec.cfWeight d) qf rf l) (slowStepD d eps (Spec.cfWeight d) qf rf l)
              (Spec.slowCount d D))
            (basisFrom eps d (vanilla ≠ 0) pde l) (basisFrom' eps d (vanilla ≠ 0) pde l)) with hP
  have key := forLoop_inv (n := K) (body := scatLambda eps d pde (vanilla ≠ 0) deriv loop lambda)
    (s := ⟨SUCCESS, result, W⟩)
    (fun k s => s.ret = SUCCESS ∧ s.result.len = result.len ∧ s.W.isSome = W.isSome ∧ ∃ a : ℕ → ℤ,
      (∀ i, i < k → ∀ j, j < c → s.result.rd (c * i + j) = (P (a i) (lf i))[j]?) ∧
      (∀ j, c * k ≤ j → s.result.rd j = result.rd j) ∧
      (∀ V, W = some V → ∃ V', s.W = some V' ∧ V'.len = V.len ∧ (∀ i, i < k → V'.rd i = some (a i)) ∧
        ∀ j, k ≤ j → V'.rd j = V.rd j) ∧
      (W = none → ∀ i, a i = 0))
    ⟨rfl, rfl, rfl, fun _ => 0, fun i h => by omega, fun _ _ => rfl, fun V h => ⟨V, h, rfl, fun i h => by omega, fun _ _ => rfl⟩,
      fun _ _ => rfl⟩ ?_
  · obtain ⟨s, h1, h2, h3, h4, a, h5, h6, h7, h8⟩ := key
    refine ⟨s, a, ?_, h2, h3, h5, h6, h7, fun hN => ⟨?_, h8 hN⟩⟩
    · unfold akns_scatter_matrix
      simp only
      rw [if_neg (by omega), if_neg (not_not.mpr heps), if_neg (by omega), if_neg (by cases deriv <;> simp),
        if_neg hk]
      have e : decide ((if deriv = true then 1 else 0) = 1) = deriv := by cases deriv <;> rfl
      simp only [e, l1, Option.bind_eq_bind, Option.bind_some]
      exact h1
    · rw [hN] at h4; simpa using h4
  · rintro k s hk' ⟨h2, h3, h4, a, h5, h6, h7, h8⟩
    obtain ⟨s', b, e1, e2, e3, e4, e5, e6, e7, e8⟩ := scatLambda_ok (vanilla := (vanilla ≠ 0)) hp hk deriv W.isSome (rdH hl hk')
      (fun h => hx h k hk') (l2 (lf k)) s h2 h4
      (fun V' hV' => by
        cases hw : W with
        | none => rw [hw, hV'] at h4; cases h4
        | some V =>
          obtain ⟨V'', v1, v2, -⟩ := h7 V hw
          rw [hV'] at v1; cases v1
          have := hW V hw
          omega)
      (by rw [h3]; exact (Nat.mul_le_mul_left _ hk').trans hres)
    refine ⟨s', e1, e2, by rw [e3, h3], e4, Function.update a k b, ?_, ?_, ?_, ?_⟩
    · intro i hi j hj
      rcases Nat.lt_succ_iff_lt_or_eq.mp hi with h | rfl
      · rw [Function.update_of_ne (by omega), e6 _ (Or.inl ?_), h5 i h j hj]
        calc c * i + j < c * i + c := by omega
          _ = c * (i + 1) := by ring
          _ ≤ c * k := Nat.mul_le_mul_left _ h
      · rw [Function.update_self, e5 j hj]
    · intro j hj
      rw [e6 j (Or.inr hj), h6 j (le_trans (Nat.mul_le_mul_left _ (Nat.le_succ k)) hj)]
    · intro V hV
      obtain ⟨V', v1, v2, v3, v4⟩ := h7 V hV
      obtain ⟨V'', u1, u2, u3, u4⟩ := e7 V' v1
      refine ⟨V'', u1, by rw [u2, v2], fun i hi => ?_, fun j hj => by rw [u4 j (by omega), v4 j (by omega)]⟩
      rcases Nat.lt_succ_iff_lt_or_eq.mp hi with h | rfl
      · rw [Function.update_of_ne (by omega), u4 i (by omega), v3 i h]
      · rw [Function.update_self, u3]
    · intro hN i
      by_cases hi : i = k
      · rw [hi, Function.update_self]; exact e8 (by rw [hN]; rfl)
      · rw [Function.update_of_ne hi]; exact h8 hN i

end FNFT

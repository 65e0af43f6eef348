import Verif.Proofs.AknsBoundTop
/-!
# Property C28: bound states by forward and backward scattering
-/
namespace FNFT
open Complex Matrix AknsDisc

local notation "mexp" => NormedSpace.exp

/-! ## Helpers -/

theorem phiS_eq {d : AknsDisc} (hd : Spec.slow d) (eps : ℝ) (vanilla : Bool) (pde : AknsPde) (l : ℂ) (hl : pde = .KdV → l ≠ 0)
    (U : ℕ → Spec.M2) (N : ℕ) (t0 tb : ℝ) (k : ℕ) :
    phiS (basisTo eps d vanilla pde l) (basisFrom eps d vanilla pde l) U t0 l k =
      Spec.jostPhi (Spec.fromS (decide (pde = .KdV)) vanilla l) U t0 l k ∧
    psiS (basisTo eps d vanilla pde l) (basisFrom eps d vanilla pde l) U N tb l k =
      Spec.jostPsi (Spec.fromS (decide (pde = .KdV)) vanilla l) U N tb l k := by
  rw [slow_from hd, slow_to hd eps vanilla pde l hl]
  exact ⟨rfl, rfl⟩

theorem proj_zpow (kdv : Bool) (w : ℤ) (z : ℂ) : (2 : ℂ) ^ w * Spec.proj kdv z = Spec.proj kdv ((2 : ℂ) ^ w * z) := by
  cases kdv with
  | false => rfl
  | true => simp only [Spec.proj, if_true, two_zpow_re]; push_cast; rfl

theorem half_rat : (((1 / 2 : ℚ) : ℝ)) = 1 / 2 := by norm_num

/-- Steps of the discretization in the `Dg` intervals. -/
theorem count_eq {D Dg : ℕ} {d : AknsDisc} (hd : Spec.slow d) (hD : D = Dg * akns_upsampling_factor d) :
    Spec.slowCount d D = Dg * Spec.perSample d := by
  subst hD
  rcases hd with rfl | rfl | rfl | rfl | rfl | rfl | rfl <;> simp [Spec.slowCount, Spec.perSample, akns_upsampling_factor]

theorem slowStep_exact {E : Spec.M2 → Spec.M2} (hE : Spec.NearExp E) {d : AknsDisc} {eps : ℝ} {w qf rf : ℕ → ℂ} {l : ℂ} {N : ℕ}
    (hreg : Spec.Regular d eps w qf rf l N) {n : ℕ} (hn : n < N) :
    Spec.slowStep E d eps w qf rf l n = Spec.slowStep mexp d eps w qf rf l n := by
  rw [slowStep_prod, slowStep_prod]
  congr 1
  apply List.map_congr_left
  intro X hX
  exact (hE X (slowExponents_traceless hX)).1 (hreg n hn X hX)

theorem chain_congr' {U V : ℕ → Spec.M2} (N : ℕ) (h : ∀ n, n < N → U n = V n) : Spec.chain U N = Spec.chain V N :=
  (dchain_congr (U' := fun _ => 0) (V' := fun _ => 0) N h fun _ _ => rfl).1

theorem jost_congr {U V : ℕ → Spec.M2} {N : ℕ} (h : ∀ n, n < N → U n = V n) (B : Spec.M2) (t0 tb : ℝ) (l : ℂ) {k : ℕ} (hk : k ≤ N) :
    Spec.jostPhi B U t0 l k = Spec.jostPhi B V t0 l k ∧ Spec.jostPsi B U N tb l k = Spec.jostPsi B V N tb l k := by
  unfold Spec.jostPhi Spec.jostPsi Spec.tail
  rw [chain_congr' k fun n hn => h n (by omega), chain_congr' (N - k) fun n hn => h (k + n) (by omega)]
  exact ⟨rfl, rfl⟩

/-- C28. Every call with valid arguments succeeds. For bound state `λ_i` the returned value `a_i` (times the scaling
factor `2^(W_i)`) is `e^(iλ t_b)` times the first component of the forward solution at the right boundary (its real part for the
KdV), and `b_i` is the quotient of the forward and the backward solution at the usable boundary at which the quotients of the two
components agree best; `b_i` is left alone if there is no usable boundary. The unspecified contents of the tables of scaling
factors (`gPHI`, `gPSI`) do not matter. Cells behind the documented outputs are not written. -/
theorem C28_bound_states : ∃ E : Spec.M2 → Spec.M2, Spec.NearExp E ∧
    ∀ (D Dg : ℕ) (q r : Buf ℂ) (qf rf : ℕ → ℂ) (T0 T1 : ℝ) (K : ℕ) (bs : Buf ℂ) (lf : ℕ → ℂ) (a ap : Buf ℂ) (b : Option (Buf ℂ))
      (W : Option (Buf ℤ)) (d : AknsDisc) (pde : AknsPde) (vanilla skip : ℕ) (gPHI gPSI : ℕ → ℤ),
      Spec.BoundArgs D Dg q r qf rf K bs lf a ap b W d pde skip →
    let eps := (T1 - T0) / (Dg - 1)
    let t0 := T0 - eps / 2
    let tb := T1 + eps / 2
    let kdv := decide (pde = .KdV)
    let N := Spec.slowCount d D
    let U := fun l => Spec.slowStep E d eps (Spec.cfWeight d) qf rf l
    let B := fun l => Spec.fromS kdv (vanilla ≠ 0) l
    ∃ (res : BsRes) (w : ℕ → ℤ),
      akns_scatter_bound_states D (some q) (some r) T0 T1 K (some bs) (some a) (some ap) b W d pde vanilla skip gPHI gPSI = some res ∧
      res.ret = SUCCESS ∧ res.a.len = a.len ∧
      (∀ i, i < K → ∃ x, res.a.rd i = some x ∧
        (2 : ℂ) ^ (w i) * x = Spec.proj kdv (exp (I * lf i * tb) * Spec.jostPhi (B (lf i)) (U (lf i)) t0 (lf i) N 0)) ∧
      (∀ i, K ≤ i → res.a.rd i = a.rd i ∧ res.aprime.rd i = ap.rd i) ∧
      (skip ≠ 0 → res.b = b) ∧
      (skip = 0 → ∀ b0, b = some b0 → ∃ b', res.b = some b' ∧ b'.len = b0.len ∧
        (∀ i, i < K → ∃ v : Option ℂ,
          Spec.Best kdv (fun n => Spec.jostPhi (B (lf i)) (U (lf i)) t0 (lf i) (n * Spec.perSample d))
            (fun n => Spec.jostPsi (B (lf i)) (U (lf i)) N tb (lf i) (n * Spec.perSample d)) Dg v ∧
          b'.rd i = match v with | none => b0.rd i | some x => some x) ∧
        ∀ i, K ≤ i → b'.rd i = b0.rd i) ∧
      (∀ V, W = some V → ∃ V', res.Ws = some V' ∧ V'.len = V.len ∧ (∀ i, i < K → V'.rd i = some (w i)) ∧
        ∀ i, K ≤ i → V'.rd i = V.rd i) ∧
      (W = none → res.Ws = none ∧ ∀ i, w i = 0) := by
  refine ⟨expS, fun X hX => ⟨expS_exact hX, expS_near hX⟩, ?_⟩
  intro D Dg q r qf rf T0 T1 K bs lf a ap b W d pde vanilla skip gPHI gPSI h eps t0 tb kdv N U B
  obtain ⟨res, va, vap, w, v, h1, h2, h3, h3', h4, h5, h6, h7, h8, h9, h10⟩ := bound_states_ok h T0 T1 vanilla gPHI gPSI
  have ht0 : t0 = T0 - (T1 - T0) / ((Dg : ℝ) - 1) * ((1 / 2 : ℚ) : ℝ) := by
    show T0 - (T1 - T0) / ((Dg : ℝ) - 1) / 2 = _
    rw [half_rat]; ring
  have htb : tb = T1 + (T1 - T0) / ((Dg : ℝ) - 1) * ((1 / 2 : ℚ) : ℝ) := by
    show T1 + (T1 - T0) / ((Dg : ℝ) - 1) / 2 = _
    rw [half_rat]; ring
  have hN : N = Dg * Spec.perSample d := count_eq h.hd h.hD
  rw [← ht0, ← htb, ← hN] at h10
  refine ⟨res, w, h1, h2, h3, ?_, h5, h6, ?_, h8, h9⟩
  · intro i hi
    refine ⟨_, (h4 i hi).1, ?_⟩
    rw [proj_zpow, (h10 i hi).a, (phiS_eq h.hd _ _ _ _ (fun hk => h.hx hk i hi) _ N t0 tb _).1]
  · intro hs b0 hb0
    obtain ⟨b', e1, e2, e3, e4⟩ := h7 hs b0 hb0
    refine ⟨b', e1, e2, fun i hi => ⟨v i, ?_, e3 i hi⟩, e4⟩
    have := (h10 i hi).b (by simpa using hs)
    simpa only [(phiS_eq h.hd _ _ _ _ (fun hk => h.hx hk i hi) _ N t0 tb _).1,
      (phiS_eq h.hd _ _ _ _ (fun hk => h.hx hk i hi) _ N t0 tb _).2] using this

/-! ## Norming constants -/

/-- All entries are real. -/
def Spec.RealM (M : Spec.M2) : Prop := ∀ i j, (starRingEnd ℂ) (M i j) = M i j

theorem RealM.mul {A B : Spec.M2} (hA : Spec.RealM A) (hB : Spec.RealM B) : Spec.RealM (A * B) := by
  intro i j; simp [Matrix.mul_apply, hA _ _, hB _ _]

theorem RealM.add {A B : Spec.M2} (hA : Spec.RealM A) (hB : Spec.RealM B) : Spec.RealM (A + B) := by
  intro i j; simp [hA _ _, hB _ _]

theorem RealM.sub {A B : Spec.M2} (hA : Spec.RealM A) (hB : Spec.RealM B) : Spec.RealM (A - B) := by
  intro i j; simp [hA _ _, hB _ _]

theorem RealM.one : Spec.RealM 1 := by
  intro i j; by_cases h : i = j <;> simp [Matrix.one_apply, h]

theorem RealM.smul {A : Spec.M2} (hA : Spec.RealM A) {c : ℂ} (hc : (starRingEnd ℂ) c = c) : Spec.RealM (c • A) := by
  intro i j; simp [hA _ _, hc]

theorem RealM.det {A : Spec.M2} (hA : Spec.RealM A) : (starRingEnd ℂ) A.det = A.det := by
  rw [Matrix.det_fin_two, map_sub, map_mul, map_mul, hA, hA, hA, hA]

theorem RealM.adj {A : Spec.M2} (hA : Spec.RealM A) : Spec.RealM A.adjugate := by
  intro i j
  rw [Matrix.adjugate_fin_two]
  fin_cases i <;> fin_cases j <;> simp [hA _ _]

theorem RealM.inv {A : Spec.M2} (hA : Spec.RealM A) : Spec.RealM A⁻¹ := by
  rw [Matrix.inv_def]
  exact RealM.smul (RealM.adj hA) (by rw [Ring.inverse_eq_inv', map_inv₀, RealM.det hA])

theorem RealM.chain {U : ℕ → Spec.M2} (N : ℕ) (h : ∀ n, n < N → Spec.RealM (U n)) : Spec.RealM (Spec.chain U N) := by
  induction N with
  | zero => rw [chain_zero]; exact RealM.one
  | succ N ih => rw [chain_succ]; exact RealM.mul (h N (by omega)) (ih fun n hn => h n (by omega))

theorem RealM.expS {X : Spec.M2} (hX : Spec.RealM X) : Spec.RealM (expS X) := by
  have hd := RealM.det hX
  set w := csqrt X.det with hw
  have hsq : ((starRingEnd ℂ) w) ^ 2 = w ^ 2 := by rw [← map_pow, hw, csqrt_sq, hd]
  have hs : (starRingEnd ℂ) (misc_CSINC w) = misc_CSINC w := by
    rw [← misc_CSINC_conj]
    rcases sq_eq_sq_iff_eq_or_eq_neg.mp hsq with h | h <;> rw [h]
    rw [misc_CSINC_neg]
  have hc : (starRingEnd ℂ) (cos w) = cos w := by
    rw [← cos_conj]
    rcases sq_eq_sq_iff_eq_or_eq_neg.mp hsq with h | h <;> rw [h]
    rw [cos_neg]
  exact RealM.add (RealM.smul RealM.one hc) (RealM.smul hX hs)

theorem RealM.mulVec {A : Spec.M2} (hA : Spec.RealM A) {x : Spec.V2} (hx : ∀ i, (starRingEnd ℂ) (x i) = x i) :
    ∀ i, (starRingEnd ℂ) ((A *ᵥ x) i) = (A *ᵥ x) i := by
  intro i
  simp [Matrix.mulVec, dotProduct, Fin.sum_univ_two, hA _ _, hx _]

/-- The purely imaginary eigenvalues and real signals for which the solutions of the KdV are real. -/
def Spec.RealCase (d : AknsDisc) (D : ℕ) (qf rf : ℕ → ℂ) (l : ℂ) : Prop :=
  Spec.realSlow d ∧ l.re = 0 ∧ ∀ n, n < D → (qf n).im = 0 ∧ (rf n).im = 0

theorem RealM.step {E : Spec.M2 → Spec.M2} (hE : ∀ X, Spec.RealM X → Spec.RealM (E X)) {d : AknsDisc} {D : ℕ} (hs : Spec.slowSamples d D) {eps : ℝ} {qf rf : ℕ → ℂ} {l : ℂ} (h : Spec.RealCase d D qf rf l) {n : ℕ}
    (hn : n < Spec.slowCount d D) : Spec.RealM (Spec.slowStep E d eps (Spec.cfWeight d) qf rf l n) := by
  obtain ⟨hd, hl, hqr⟩ := h
  have hw : ∀ n, (starRingEnd ℂ) (Spec.cfWeight d n) = Spec.cfWeight d n := by
    intro n
    rcases hd with rfl | rfl | rfl | rfl | rfl <;> simp only [Spec.cfWeight]
    all_goals (try split_ifs)
    all_goals simp [map_ofNat]
  have hll : (starRingEnd ℂ) l = -l := by
    apply Complex.ext <;> simp [hl]
  have hq : ∀ n, n < D → (starRingEnd ℂ) (qf n) = qf n := fun n hn => by apply Complex.ext <;> simp [(hqr n hn).1]
  have hr : ∀ n, n < D → (starRingEnd ℂ) (rf n) = rf n := fun n hn => by apply Complex.ext <;> simp [(hqr n hn).2]
  have hP : ∀ m, m < D → Spec.RealM (Spec.aknsP (qf m) (rf m) l) := by
    intro m hm i j; fin_cases i <;> fin_cases j <;> simp [Spec.aknsP, hq m hm, hr m hm, hll]
  have hPt : ∀ m, m < D → Spec.RealM (Spec.aknsPt (qf m) (rf m)) := by
    intro m hm i j; fin_cases i <;> fin_cases j <;> simp [Spec.aknsPt, hq m hm, hr m hm]
  have hc : ∀ (k : ℕ) (c : ℂ), (starRingEnd ℂ) c = c → (starRingEnd ℂ) ((eps : ℂ) ^ k / c) = (eps : ℂ) ^ k / c := by
    intro k c hc; rw [map_div₀, map_pow, conj_ofReal, hc]
  have c24 : (starRingEnd ℂ) 24 = 24 := map_ofNat _ _
  have c12 : (starRingEnd ℂ) 12 = 12 := map_ofNat _ _
  have c48 : (starRingEnd ℂ) 48 = 48 := map_ofNat _ _
  have hwe : ∀ n, (starRingEnd ℂ) (Spec.cfWeight d n * (eps : ℂ)) = Spec.cfWeight d n * (eps : ℂ) := fun n => by
    rw [map_mul, hw, conj_ofReal]
  rcases hd with rfl | rfl | rfl | rfl | rfl
  · exact hE _ (RealM.smul (hP n hn) (hwe n))
  · exact hE _ (RealM.smul (hP n hn) (hwe n))
  · exact hE _ (RealM.smul (hP n hn) (hwe n))
  · obtain ⟨m, rfl⟩ := hs
    have hn : n < m := by simpa [Spec.slowCount] using hn
    have p0 := hP (3 * n) (by omega)
    have p1 := hPt (3 * n + 1) (by omega)
    have p2 := hPt (3 * n + 2) (by omega)
    exact hE _ (RealM.sub (RealM.add (RealM.smul p0 (conj_ofReal _)) (RealM.smul p2 (hc 3 _ c24)))
      (RealM.smul (RealM.sub (RealM.mul p0 p1) (RealM.mul p1 p0)) (hc 3 _ c12)))
  · obtain ⟨m, rfl⟩ := hs
    have hn : n < m := by simpa [Spec.slowCount] using hn
    have p0 := hP (3 * n) (by omega)
    have p1 := hPt (3 * n + 1) (by omega)
    have p2 := hPt (3 * n + 2) (by omega)
    exact RealM.mul (RealM.mul (hE _ (RealM.add (RealM.smul p2 (hc 3 _ c48)) (RealM.smul p1 (hc 2 _ c12))))
      (hE _ (RealM.smul p0 (conj_ofReal _)))) (hE _ (RealM.sub (RealM.smul p2 (hc 3 _ c48)) (RealM.smul p1 (hc 2 _ c12))))

theorem jost_real {d : AknsDisc} {D : ℕ} (hs : Spec.slowSamples d D) {eps : ℝ} {qf rf : ℕ → ℂ} {l : ℂ} (h : Spec.RealCase d D qf rf l)
    (kdv vanilla : Bool) (t0 tb : ℝ) {k : ℕ} (hk : k ≤ Spec.slowCount d D) (i : Fin 2) :
    let B := Spec.fromS kdv vanilla l
    let U := Spec.slowStep expS d eps (Spec.cfWeight d) qf rf l
    (starRingEnd ℂ) (Spec.jostPhi B U t0 l k i) = Spec.jostPhi B U t0 l k i ∧
    (starRingEnd ℂ) (Spec.jostPsi B U (Spec.slowCount d D) tb l k i) = Spec.jostPsi B U (Spec.slowCount d D) tb l k i := by
  intro B U
  have hll : (starRingEnd ℂ) l = -l := by
    apply Complex.ext <;> simp [h.2.1]
  have hB : Spec.RealM B := by
    intro i j
    show (starRingEnd ℂ) (Spec.fromS kdv vanilla l i j) = Spec.fromS kdv vanilla l i j
    unfold Spec.fromS
    cases kdv <;> cases vanilla <;> fin_cases i <;> fin_cases j <;> simp [hll, map_ofNat]
  have e1 : (starRingEnd ℂ) (exp (-I * l * t0)) = exp (-I * l * t0) := by
    rw [← exp_conj]; congr 1; simp [hll]
  have e2 : (starRingEnd ℂ) (exp (I * l * tb)) = exp (I * l * tb) := by
    rw [← exp_conj]; congr 1; simp [hll]
  have hU : ∀ n, n < Spec.slowCount d D → Spec.RealM (U n) := fun n hn => RealM.step (fun _ => RealM.expS) hs h hn
  constructor
  · refine RealM.mulVec (RealM.inv hB) (RealM.mulVec (RealM.chain _ fun n hn => hU n (by omega)) (RealM.mulVec hB ?_)) i
    intro i; fin_cases i
    · exact e1
    · exact map_zero _
  · refine RealM.mulVec (RealM.inv hB) (RealM.mulVec (RealM.adj (RealM.chain _ fun n hn => hU _ (by omega))) (RealM.mulVec hB ?_)) i
    intro i; fin_cases i
    · exact map_zero _
    · exact e2

/-- If `a = 0`, the forward solution is a multiple of the backward solution. -/
theorem jost_proportional {B : Spec.M2} (hB : IsUnit B.det) {U : ℕ → Spec.M2} {N : ℕ} (hdet : ∀ n, n < N → (U n).det = 1)
    {t0 tb : ℝ} {l : ℂ} (ha : Spec.jostPhi B U t0 l N 0 = 0) :
    ∃ β : ℂ, ∀ k, k ≤ N → Spec.jostPhi B U t0 l k = β • Spec.jostPsi B U N tb l k := by
  set e := exp (I * l * tb) with he
  have hen : e ≠ 0 := exp_ne_zero _
  refine ⟨Spec.jostPhi B U t0 l N 1 / e, fun k hk => ?_⟩
  obtain ⟨x, hx⟩ : ∃ x, x = B *ᵥ ![exp (-I * l * t0), 0] := ⟨_, rfl⟩
  obtain ⟨c, hc⟩ : ∃ c, c = Spec.jostPhi B U t0 l N 1 := ⟨_, rfl⟩
  have hBB : B * B⁻¹ = 1 := Matrix.mul_nonsing_inv _ hB
  have h1 : Spec.chain U N *ᵥ x = (c / e) • (B *ᵥ ![0, e]) := by
    have : B *ᵥ Spec.jostPhi B U t0 l N = Spec.chain U N *ᵥ x := by
      unfold Spec.jostPhi
      rw [← hx, Matrix.mulVec_mulVec, hBB, Matrix.one_mulVec]
    rw [← this, ← Matrix.mulVec_smul]
    congr 1
    funext i
    fin_cases i
    · simp [ha]
    · simp [hen, hc]
  have hdt : (Spec.tail U N k).det = 1 := chain_det_one _ fun n hn => hdet _ (by omega)
  have h2 : Spec.chain U k *ᵥ x = (Spec.tail U N k).adjugate *ᵥ (Spec.chain U N *ᵥ x) := by
    rw [chain_tail U hk, Matrix.mulVec_mulVec _ (Spec.tail U N k).adjugate, ← Matrix.mul_assoc, Matrix.adjugate_mul, hdt, one_smul,
      Matrix.one_mul]
  rw [← hc]
  unfold Spec.jostPhi Spec.jostPsi
  rw [← hx, h2, h1, Matrix.mulVec_smul, Matrix.mulVec_smul]

/-- C28, the claim about norming constants. Let `λ_i` be a bound state, that is, a zero of the (exact, discretized) coefficient
`a`, and let no exponent fall under the Taylor threshold. (For the KdV the eigenvalue must be purely imaginary and the signal real.)
Then `a_i = 0`, and either `b_i` has not been written, because a component of one of the solutions vanishes at every boundary (or
has the wrong sign), or `b_i` is the norming constant: the forward solution is `b_i` times the backward solution at every boundary. -/
theorem C28_norming_constant (D Dg : ℕ) (q r : Buf ℂ) (qf rf : ℕ → ℂ) (T0 T1 : ℝ) (K : ℕ) (bs : Buf ℂ) (lf : ℕ → ℂ) (a ap b0 : Buf ℂ)
      (W : Option (Buf ℤ)) (d : AknsDisc) (pde : AknsPde) (vanilla : ℕ) (gPHI gPSI : ℕ → ℤ)
      (h : Spec.BoundArgs D Dg q r qf rf K bs lf a ap (some b0) W d pde 0) :
    let eps := (T1 - T0) / (Dg - 1)
    let t0 := T0 - eps / 2
    let tb := T1 + eps / 2
    let kdv := decide (pde = .KdV)
    let N := Spec.slowCount d D
    let U := fun l => Spec.slowStep mexp d eps (Spec.cfWeight d) qf rf l
    let B := fun l => Spec.fromS kdv (vanilla ≠ 0) l
    let Φ := fun l n => Spec.jostPhi (B l) (U l) t0 l (n * Spec.perSample d)
    let Ψ := fun l n => Spec.jostPsi (B l) (U l) N tb l (n * Spec.perSample d)
    ∃ (res : BsRes) (b' : Buf ℂ),
      akns_scatter_bound_states D (some q) (some r) T0 T1 K (some bs) (some a) (some ap) (some b0) W d pde vanilla 0 gPHI gPSI = some res ∧
      res.ret = SUCCESS ∧ res.b = some b' ∧ b'.len = b0.len ∧
      ∀ i, i < K → Spec.Regular d eps (Spec.cfWeight d) qf rf (lf i) N →
        (pde = .KdV → Spec.RealCase d D qf rf (lf i)) → Φ (lf i) Dg 0 = 0 →
        res.a.rd i = some 0 ∧
        ((b'.rd i = b0.rd i ∧ ∀ n, n ≤ Dg → ¬ Spec.Cand kdv (Φ (lf i)) (Ψ (lf i)) n) ∨
          ∃ β, b'.rd i = some β ∧ ∀ n, n ≤ Dg → Φ (lf i) n = β • Ψ (lf i) n) := by
  intro eps t0 tb kdv N U B Φ Ψ
  obtain ⟨res, va, vap, w, v, h1, h2, h3, h3', h4, h5, h6, h7, h8, h9, h10⟩ := bound_states_ok h T0 T1 vanilla gPHI gPSI
  have ht0 : t0 = T0 - (T1 - T0) / ((Dg : ℝ) - 1) * ((1 / 2 : ℚ) : ℝ) := by
    show T0 - (T1 - T0) / ((Dg : ℝ) - 1) / 2 = _
    rw [half_rat]; ring
  have htb : tb = T1 + (T1 - T0) / ((Dg : ℝ) - 1) * ((1 / 2 : ℚ) : ℝ) := by
    show T1 + (T1 - T0) / ((Dg : ℝ) - 1) / 2 = _
    rw [half_rat]; ring
  have hN : N = Dg * Spec.perSample d := count_eq h.hd h.hD
  rw [← ht0, ← htb, ← hN] at h10
  obtain ⟨b', e1, e2, e3, e4⟩ := h7 rfl b0 rfl
  refine ⟨res, b', h1, h2, e1, e2, fun i hi hreg hreal ha => ?_⟩
  have hx := fun hk => h.hx hk i hi
  have hNear : Spec.NearExp expS := fun X hX => ⟨expS_exact hX, expS_near hX⟩
  have hU : ∀ n, n < N → Spec.slowStep expS d eps (Spec.cfWeight d) qf rf (lf i) n = U (lf i) n := fun n hn =>
    slowStep_exact hNear hreg hn
  have hdet : ∀ n, n < N → (U (lf i) n).det = 1 := fun n hn => by
    rw [← hU n hn]; exact step_det_one (hreg n hn)
  have hle : ∀ n, n ≤ Dg → n * Spec.perSample d ≤ N := fun n hn => by rw [hN]; exact Nat.mul_le_mul_right _ hn
  have hBu : IsUnit (B (lf i)).det := by
    have := (basis_inv eps d (vanilla ≠ 0) pde (lf i) hx).2
    rw [slow_from h.hd] at this
    exact Matrix.isUnit_det_of_right_inverse this
  have hΦN : Spec.jostPhi (B (lf i)) (U (lf i)) t0 (lf i) N 0 = 0 := by rw [hN]; exact ha
  obtain ⟨β, hβ⟩ := jost_proportional (tb := tb) hBu hdet hΦN
  have hs : Spec.slowSamples d D := by
    have := h.hD
    rcases h.hd with rfl | rfl | rfl | rfl | rfl | rfl | rfl <;> simp [Spec.slowSamples]
    · exact ⟨Dg, by rw [this]; simp [akns_upsampling_factor]; ring⟩
    · exact ⟨Dg, by rw [this]; simp [akns_upsampling_factor]; ring⟩
  -- projections do nothing
  have hproj : ∀ n, n ≤ Dg → ∀ j, Spec.proj kdv (Φ (lf i) n j) = Φ (lf i) n j ∧ Spec.proj kdv (Ψ (lf i) n j) = Ψ (lf i) n j := by
    intro n hn j
    by_cases hk : pde = .KdV
    · have hc := jost_real (eps := eps) hs (hreal hk) kdv (vanilla ≠ 0) t0 tb (hle n hn) j
      simp only at hc
      rw [(jost_congr hU _ t0 tb _ (hle n hn)).1, (jost_congr hU _ t0 tb _ (hle n hn)).2] at hc
      have hkd : kdv = true := decide_eq_true hk
      simp only [Spec.proj, hkd, if_true]
      rw [Complex.conj_eq_iff_re, Complex.conj_eq_iff_re] at hc
      exact hc
    · have hkd : kdv = false := decide_eq_false hk
      simp [Spec.proj, hkd]
  have hva : va i = 0 := by
    have := (h10 i hi).a
    rw [(phiS_eq h.hd _ _ _ _ hx _ N t0 tb _).1] at this
    have e : Spec.jostPhi (B (lf i)) (Spec.slowStep expS d eps (Spec.cfWeight d) qf rf (lf i)) t0 (lf i) N = _ :=
      (jost_congr hU (B (lf i)) t0 tb (lf i) le_rfl).1
    rw [show Spec.jostPhi (Spec.fromS (decide (pde = .KdV)) (decide (vanilla ≠ 0)) (lf i))
      (Spec.slowStep expS d ((T1 - T0) / ((Dg : ℝ) - 1)) (Spec.cfWeight d) qf rf (lf i)) t0 (lf i) N 0 = 0 from by
        have := congrFun e 0
        rw [hΦN] at this
        exact this, mul_zero] at this
    exact (mul_eq_zero.mp this).resolve_left (zpow_ne_zero _ (by norm_num))
  refine ⟨?_, ?_⟩
  · rw [(h4 i hi).1, hva]; simp [Spec.proj]
  · have hbest := (h10 i hi).b rfl
    simp only [(phiS_eq h.hd _ _ _ _ hx _ N t0 tb _).1, (phiS_eq h.hd _ _ _ _ hx _ N t0 tb _).2] at hbest
    have hcong : ∀ n, n ≤ Dg → (fun n => Spec.jostPhi (B (lf i)) (Spec.slowStep expS d eps (Spec.cfWeight d) qf rf (lf i)) t0 (lf i)
          (n * Spec.perSample d)) n = Φ (lf i) n ∧ (fun n => Spec.jostPsi (B (lf i)) (Spec.slowStep expS d eps (Spec.cfWeight d) qf rf (lf i)) N tb (lf i)
          (n * Spec.perSample d)) n = Ψ (lf i) n := fun n hn => jost_congr hU _ t0 tb _ (hle n hn)
    have hcand : ∀ n, n ≤ Dg → (Spec.Cand kdv (fun n => Spec.jostPhi (B (lf i)) (Spec.slowStep expS d eps (Spec.cfWeight d) qf rf (lf i)) t0 (lf i)
          (n * Spec.perSample d)) (fun n => Spec.jostPsi (B (lf i)) (Spec.slowStep expS d eps (Spec.cfWeight d) qf rf (lf i)) N tb (lf i)
          (n * Spec.perSample d)) n ↔ Spec.Cand kdv (Φ (lf i)) (Ψ (lf i)) n) := by
      intro n hn
      unfold Spec.Cand Spec.ratio
      rw [(hcong n hn).1, (hcong n hn).2]
    have hb' := e3 i hi
    cases hv : v i with
    | none =>
      rw [hv] at hbest hb'
      left
      exact ⟨hb', fun n hn hc => hbest n hn ((hcand n hn).mpr hc)⟩
    | some x =>
      rw [hv] at hbest hb'
      right
      obtain ⟨n, hn, hc, hx', -⟩ := hbest
      have hc := (hcand n hn).mp hc
      have hx'' : x = Spec.ratio kdv (Φ (lf i)) (Ψ (lf i)) n 0 := by
        rw [hx']
        unfold Spec.ratio
        have g := hcong n hn
        simp only at g
        rw [← g.1, ← g.2]
      have hz := hc.1 0
      rw [(hproj n hn 0).2] at hz
      have hβx : x = β := by
        rw [hx'', Spec.ratio, (hproj n hn 0).1, (hproj n hn 0).2]
        have : Φ (lf i) n 0 = β * Ψ (lf i) n 0 := congrFun (hβ _ (hle n hn)) 0
        rw [this]
        field_simp [hz.2]
      exact ⟨x, hb', fun m hm => by rw [hβx]; exact hβ _ (hle m hm)⟩

/-! ## Derivative of `a` -/

/-- C28, derivatives. If all main exponents have `|det| ≥ 1` (and the others avoid the Taylor threshold), the returned `a_i` and
`a'_i`, times `2^(W_i)`, are (NSE) the value and the derivative at `λ_i` of `λ ↦ e^(iλ t_b) φ_1(λ)`, where `φ_1(λ)` is the first
component of the forward solution at the right boundary; for the KdV, the real part of the value and the imaginary part of the derivative. -/
theorem C28_derivative (D Dg : ℕ) (q r : Buf ℂ) (qf rf : ℕ → ℂ) (T0 T1 : ℝ) (K : ℕ) (bs : Buf ℂ) (lf : ℕ → ℂ) (a ap : Buf ℂ) (b : Option (Buf ℂ))
      (W : Option (Buf ℤ)) (d : AknsDisc) (pde : AknsPde) (vanilla skip : ℕ) (gPHI gPSI : ℕ → ℤ)
      (h : Spec.BoundArgs D Dg q r qf rf K bs lf a ap b W d pde skip) :
    let eps := (T1 - T0) / (Dg - 1)
    let t0 := T0 - eps / 2
    let tb := T1 + eps / 2
    let N := Spec.slowCount d D
    let aFun := fun l => exp (I * l * tb) * Spec.jostPhi (Spec.fromS (decide (pde = .KdV)) (vanilla ≠ 0) l)
      (Spec.slowStep mexp d eps (Spec.cfWeight d) qf rf l) t0 l N 0
    ∃ (res : BsRes) (w : ℕ → ℤ),
      akns_scatter_bound_states D (some q) (some r) T0 T1 K (some bs) (some a) (some ap) b W d pde vanilla skip gPHI gPSI = some res ∧
      res.ret = SUCCESS ∧ (∀ V, W = some V → ∃ V', res.Ws = some V' ∧ ∀ i, i < K → V'.rd i = some (w i)) ∧
      (W = none → ∀ i, w i = 0) ∧
      ∀ i, i < K → Spec.Regular d eps (Spec.cfWeight d) qf rf (lf i) N →
        (∀ n, n < N → 1 ≤ ‖(Spec.mainExponent d eps (Spec.cfWeight d) qf rf n (lf i)).det‖) →
        ∃ x x' y, res.a.rd i = some x ∧ res.aprime.rd i = some x' ∧ HasDerivAt aFun y (lf i) ∧
          (2 : ℂ) ^ (w i) * x = (if pde = .KdV then ((aFun (lf i)).re : ℂ) else aFun (lf i)) ∧
          (2 : ℂ) ^ (w i) * x' = (if pde = .KdV then I * (y.im : ℂ) else y) := by
  intro eps t0 tb N aFun
  obtain ⟨res, va, vap, w, v, h1, h2, h3, h3', h4, h5, h6, h7, h8, h9, h10⟩ := bound_states_ok h T0 T1 vanilla gPHI gPSI
  have ht0 : t0 = T0 - (T1 - T0) / ((Dg : ℝ) - 1) * ((1 / 2 : ℚ) : ℝ) := by
    show T0 - (T1 - T0) / ((Dg : ℝ) - 1) / 2 = _
    rw [half_rat]; ring
  have htb : tb = T1 + (T1 - T0) / ((Dg : ℝ) - 1) * ((1 / 2 : ℚ) : ℝ) := by
    show T1 + (T1 - T0) / ((Dg : ℝ) - 1) / 2 = _
    rw [half_rat]; ring
  have hN : N = Dg * Spec.perSample d := count_eq h.hd h.hD
  rw [← ht0, ← htb, ← hN] at h10
  refine ⟨res, w, h1, h2, ?_, fun hW => (h9 hW).2, fun i hi hreg hone => ?_⟩
  · intro V hV
    obtain ⟨V', v1, -, v3, -⟩ := h8 V hV
    exact ⟨V', v1, v3⟩
  have hx := fun hk => h.hx hk i hi
  have hNear : Spec.NearExp expS := fun X hX => ⟨expS_exact hX, expS_near hX⟩
  have hU : ∀ n, n < N → Spec.slowStep expS d eps (Spec.cfWeight d) qf rf (lf i) n =
      Spec.slowStep mexp d eps (Spec.cfWeight d) qf rf (lf i) n := fun n hn => slowStep_exact hNear hreg hn
  -- one-step derivatives are exact
  have hstep : ∀ n, n < N → Spec.MDeriv (fun z => Spec.slowStep mexp d eps (Spec.cfWeight d) qf rf z n)
      (slowStepD d eps (Spec.cfWeight d) qf rf (lf i) n) (lf i) := by
    intro n hn
    obtain ⟨V, hV, v2⟩ := slowStepD_near d eps (Spec.cfWeight d) qf rf (lf i) n (fun h0 => by
      have := hone n hn; rw [h0, norm_zero] at this; norm_num at this)
    obtain ⟨X', F', -, f2, -, f4⟩ := hV
    have hEx : ∀ X ∈ Spec.slowExponents d eps (Spec.cfWeight d) qf rf (lf i) n, expS X = mexp X :=
      fun X hX => (hNear X (slowExponents_traceless hX)).1 (hreg n hn X hX)
    have hO1 : (Spec.outerExponents d eps qf rf n).1.map expS = (Spec.outerExponents d eps qf rf n).1.map mexp :=
      List.map_congr_left fun X hX => hEx X (by rw [slowExponents_split]; simp [hX])
    have hO2 : (Spec.outerExponents d eps qf rf n).2.map expS = (Spec.outerExponents d eps qf rf n).2.map mexp :=
      List.map_congr_left fun X hX => hEx X (by rw [slowExponents_split]; simp [hX])
    rw [v2, f4 (hone n hn), hO1, hO2]
    have := MDeriv.mul (MDeriv.mul (MDeriv.const ((Spec.outerExponents d eps qf rf n).1.map mexp).prod (lf i)) f2)
      (MDeriv.const ((Spec.outerExponents d eps qf rf n).2.map mexp).prod (lf i))
    simp only [Matrix.zero_mul, zero_add, Matrix.mul_zero, add_zero] at this
    have e : (fun z => Spec.slowStep mexp d eps (Spec.cfWeight d) qf rf z n) = fun z =>
        ((Spec.outerExponents d eps qf rf n).1.map mexp).prod * mexp (Spec.mainExponent d eps (Spec.cfWeight d) qf rf n z) *
          ((Spec.outerExponents d eps qf rf n).2.map mexp).prod := by
      funext z
      rw [slowStep_prod, slowExponents_split]; simp [Matrix.mul_assoc]
    rw [e]
    exact this
  obtain ⟨hB, hA⟩ := fromS_deriv h.hd eps (decide (vanilla ≠ 0)) pde (lf i) hx
  have hS := MDeriv.mul (MDeriv.mul hA (MDeriv.chain N hstep)) hB
  have hS00 := hS 0 0
  have he0 : HasDerivAt (fun z : ℂ => exp (-I * z * t0)) (exp (-I * lf i * t0) * (-I * t0)) (lf i) := by
    have : HasDerivAt (fun z : ℂ => -I * z * t0) (-I * t0) (lf i) := by
      simpa using ((hasDerivAt_id (lf i)).const_mul (-I)).mul_const (t0 : ℂ)
    exact this.cexp
  have heb : HasDerivAt (fun z : ℂ => exp (I * z * tb)) (exp (I * lf i * tb) * (I * tb)) (lf i) := by
    have : HasDerivAt (fun z : ℂ => I * z * tb) (I * tb) (lf i) := by
      simpa using ((hasDerivAt_id (lf i)).const_mul I).mul_const (tb : ℂ)
    exact this.cexp
  have hall := heb.mul (hS00.mul he0)
  have haFun : ∀ z, aFun z = exp (I * z * tb) * ((((Spec.fromS (decide (pde = .KdV)) (decide (vanilla ≠ 0)) z)⁻¹ *
      Spec.chain (Spec.slowStep mexp d eps (Spec.cfWeight d) qf rf z) N) *
      Spec.fromS (decide (pde = .KdV)) (decide (vanilla ≠ 0)) z) 0 0 * exp (-I * z * t0)) := by
    intro z
    show exp (I * z * tb) * Spec.jostPhi _ _ _ _ _ 0 = _
    unfold Spec.jostPhi
    rw [Matrix.mulVec_mulVec, Matrix.mulVec_mulVec]
    congr 1
    simp [Matrix.mulVec, dotProduct, Fin.sum_univ_two]
  obtain ⟨r1, r2, -⟩ := h10 i hi
  obtain ⟨c1, c2⟩ := dchain_congr (U' := slowStepD d eps (Spec.cfWeight d) qf rf (lf i)) (V' := slowStepD d eps (Spec.cfWeight d) qf rf (lf i)) N hU
    fun _ _ => rfl
  have hval : phiS (basisTo eps d (decide (vanilla ≠ 0)) pde (lf i)) (basisFrom eps d (decide (vanilla ≠ 0)) pde (lf i))
      (Spec.slowStep expS d eps (Spec.cfWeight d) qf rf (lf i)) t0 (lf i) N 0 =
      (((Spec.fromS (decide (pde = .KdV)) (decide (vanilla ≠ 0)) (lf i))⁻¹ *
      Spec.chain (Spec.slowStep mexp d eps (Spec.cfWeight d) qf rf (lf i)) N) *
      Spec.fromS (decide (pde = .KdV)) (decide (vanilla ≠ 0)) (lf i)) 0 0 * exp (-I * lf i * t0) := by
    unfold phiS
    rw [c1, slow_from h.hd, slow_to h.hd eps _ _ _ hx, Matrix.mulVec_mulVec, Matrix.mulVec_mulVec]
    simp [Matrix.mulVec, dotProduct, Fin.sum_univ_two]
  refine ⟨_, _, (2 : ℂ) ^ (w i) * vap i, (h4 i hi).1, (h4 i hi).2, ?_, ?_, ?_⟩
  · rw [r2]
    refine (hda hall (fun y => by rw [haFun]; rfl) ?_)
    have hder : phiS' (basisTo eps d (decide (vanilla ≠ 0)) pde (lf i)) (basisTo' eps d (decide (vanilla ≠ 0)) pde (lf i))
        (basisFrom eps d (decide (vanilla ≠ 0)) pde (lf i)) (basisFrom' eps d (decide (vanilla ≠ 0)) pde (lf i))
        (Spec.slowStep expS d eps (Spec.cfWeight d) qf rf (lf i)) (slowStepD d eps (Spec.cfWeight d) qf rf (lf i)) t0 (lf i) N 0 =
        ((basisTo' eps d (decide (vanilla ≠ 0)) pde (lf i) * Spec.chain (Spec.slowStep mexp d eps (Spec.cfWeight d) qf rf (lf i)) N +
          (Spec.fromS (decide (pde = .KdV)) (decide (vanilla ≠ 0)) (lf i))⁻¹ *
            Spec.dchain (Spec.slowStep mexp d eps (Spec.cfWeight d) qf rf (lf i)) (slowStepD d eps (Spec.cfWeight d) qf rf (lf i)) N) *
          Spec.fromS (decide (pde = .KdV)) (decide (vanilla ≠ 0)) (lf i) +
          (Spec.fromS (decide (pde = .KdV)) (decide (vanilla ≠ 0)) (lf i))⁻¹ *
            Spec.chain (Spec.slowStep mexp d eps (Spec.cfWeight d) qf rf (lf i)) N * basisFrom' eps d (decide (vanilla ≠ 0)) pde (lf i)) 0 0 *
          exp (-I * lf i * t0) +
        (((Spec.fromS (decide (pde = .KdV)) (decide (vanilla ≠ 0)) (lf i))⁻¹ *
          Spec.chain (Spec.slowStep mexp d eps (Spec.cfWeight d) qf rf (lf i)) N) *
          Spec.fromS (decide (pde = .KdV)) (decide (vanilla ≠ 0)) (lf i)) 0 0 * (exp (-I * lf i * t0) * (-I * t0)) := by
      unfold phiS'
      rw [c1, c2, slow_from h.hd, slow_to h.hd eps _ _ _ hx]
      simp only [Matrix.mulVec_mulVec, Matrix.mulVec_add, Pi.add_apply, Matrix.add_mul, Matrix.add_apply, Matrix.mul_assoc]
      simp [Matrix.mulVec, dotProduct, Fin.sum_univ_two]
      ring
    rw [hval, hder, Pi.mul_apply]
    ring
  · rw [proj_zpow, r1, hval, haFun]
    unfold Spec.proj
    by_cases hk : pde = .KdV <;> simp [hk]
  · by_cases hk : pde = .KdV
    · simp only [hk, if_true]
      have : ((2 : ℂ) ^ (w i) * vap i).im = (2 : ℝ) ^ (w i) * (vap i).im := by
        have e : (2 : ℂ) ^ (w i) = (((2 : ℝ) ^ (w i) : ℝ) : ℂ) := by push_cast; rfl
        rw [e, Complex.im_ofReal_mul]
      rw [this]; push_cast; ring
    · simp only [hk, if_false]

/-! ## Calls that meet the hypotheses -/

/-- A rectangular signal of height `3√2π/8` and width 2 (two samples) has the bound state `3πi/8`. -/
noncomputable def exK : ℝ := 3 * Real.pi / 8
noncomputable def exQ : ℂ := Real.sqrt 2 * exK

/-- The call `akns_scatter_bound_states(2, q, r, {0,1}, 1, {3πi/8}, ...)` is one of those in the theorems. -/
example : Spec.BoundArgs 2 2 (Buf.ofList [exQ, exQ]) (Buf.ofList [-exQ, -exQ]) (fun _ => exQ) (fun _ => -exQ) 1
    (Buf.ofList [I * exK]) (fun _ => I * exK) (Buf.malloc 1) (Buf.malloc 1) (some (Buf.malloc 1)) (some (Buf.malloc 1)) BO .NSE 0 where
  hDg := le_rfl
  hD := rfl
  hq := by intro i hi; interval_cases i <;> rfl
  hr := by intro i hi; interval_cases i <;> rfl
  hK := by norm_num
  hl := by intro i hi; interval_cases i; rfl
  hd := Or.inl rfl
  hp := Or.inr rfl
  hx := by intro h; cases h
  ha := le_rfl
  hap := le_rfl
  hb := fun _ => ⟨_, rfl, le_rfl⟩
  hW := by rintro V h; cases h; exact le_rfl

theorem exQ_det (n : ℕ) (X : Spec.M2) (hX : X ∈ Spec.slowExponents BO 1 (Spec.cfWeight BO) (fun _ => exQ) (fun _ => -exQ) (I * exK) n) :
    X = Spec.aknsP exQ (-exQ) (I * exK) ∧ X.det = (exK : ℂ) ^ 2 := by
  simp only [Spec.slowExponents, List.mem_singleton] at hX
  have hX' : X = Spec.aknsP exQ (-exQ) (I * exK) := by rw [hX]; simp [Spec.cfWeight]
  refine ⟨hX', ?_⟩
  have h2 : ((Real.sqrt 2 : ℝ) : ℂ) ^ 2 = 2 := by rw [← ofReal_pow, Real.sq_sqrt (by norm_num)]; norm_num
  rw [hX', Matrix.det_fin_two]
  simp only [Spec.aknsP, exQ, Matrix.of_apply, Matrix.cons_val', Matrix.cons_val_zero, Matrix.cons_val_one, Matrix.cons_val_fin_one]
  linear_combination (-(exK : ℂ) ^ 2 * I ^ 2 + (exK : ℂ) ^ 2) * I_sq + (exK : ℂ) ^ 2 * h2

/-- The conditions of `C28_norming_constant` hold for it: no exponent is under the threshold, and `a = 0`. -/
example : Spec.Regular BO 1 (Spec.cfWeight BO) (fun _ => exQ) (fun _ => -exQ) (I * exK) (Spec.slowCount BO 2) ∧
    ∀ t0 : ℝ, Spec.jostPhi (Spec.fromS false false (I * exK)) (Spec.slowStep mexp BO 1 (Spec.cfWeight BO) (fun _ => exQ) (fun _ => -exQ) (I * exK))
      t0 (I * exK) (2 * Spec.perSample BO) 0 = 0 := by
  have hk1 : 1 / 2 < exK := by unfold exK; have := Real.two_le_pi; linarith
  have hreg : Spec.Regular BO 1 (Spec.cfWeight BO) (fun _ => exQ) (fun _ => -exQ) (I * exK) (Spec.slowCount BO 2) := by
    intro n _ X hX
    right
    rw [(exQ_det n X hX).2, norm_pow, norm_real, Real.norm_eq_abs, abs_of_pos (by linarith)]
    nlinarith
  refine ⟨hreg, fun t0 => ?_⟩
  have hne : (exK : ℂ) ≠ 0 := by exact_mod_cast (by linarith : exK ≠ 0)
  have hstep : ∀ n, Spec.slowStep mexp BO 1 (Spec.cfWeight BO) (fun _ => exQ) (fun _ => -exQ) (I * exK) n =
      cos (exK : ℂ) • (1 : Spec.M2) + (sin (exK : ℂ) / exK) • Spec.aknsP exQ (-exQ) (I * exK) := by
    intro n
    obtain ⟨e1, e2⟩ := exQ_det n _ (List.mem_singleton.mpr rfl)
    show mexp _ = _
    simp only at e1
    rw [e1] at e2 ⊢
    rw [← expS_exact (by simp [Spec.aknsP]) (Or.inr ?_), expS_of_sq e2.symm, misc_CSINC_eq, csinc, if_neg hne]
    · left
      rw [norm_real, Real.norm_eq_abs, abs_of_pos (by linarith)]
      norm_num at hk1 ⊢
      linarith
    · rw [e2, norm_pow, norm_real, Real.norm_eq_abs, abs_of_pos (by linarith)]
      nlinarith
  have hU : Spec.slowStep mexp BO 1 (Spec.cfWeight BO) (fun _ => exQ) (fun _ => -exQ) (I * exK) =
      fun _ => cos (exK : ℂ) • (1 : Spec.M2) + (sin (exK : ℂ) / exK) • Spec.aknsP exQ (-exQ) (I * exK) := funext hstep
  have h2 : ((Real.sqrt 2 : ℝ) : ℂ) ^ 2 = 2 := by rw [← ofReal_pow, Real.sq_sqrt (by norm_num)]; norm_num
  have hc : cos (2 * (exK : ℂ)) + sin (2 * (exK : ℂ)) = 0 := by
    have e : 2 * (exK : ℂ) = ((Real.pi - Real.pi / 4 : ℝ) : ℂ) := by unfold exK; push_cast; ring
    rw [e, ← ofReal_cos, ← ofReal_sin, Real.cos_pi_sub, Real.sin_pi_sub, Real.cos_pi_div_four, Real.sin_pi_div_four]
    push_cast; ring
  rw [cos_two_mul', sin_two_mul] at hc
  unfold Spec.jostPhi
  rw [hU, show 2 * Spec.perSample BO = 0 + 1 + 1 from rfl, chain_succ, chain_succ, chain_zero, mul_one]
  have hB : Spec.fromS false false (I * exK) = 1 := rfl
  rw [hB, inv_one, Matrix.one_mulVec, Matrix.one_mulVec]
  have hs : sin (exK : ℂ) / exK * exK = sin (exK : ℂ) := div_mul_cancel₀ _ hne
  set sk := sin (exK : ℂ) / exK with hsk
  clear_value sk
  rw [← hs] at hc
  simp only [Matrix.mulVec, dotProduct, Fin.sum_univ_two, Matrix.mul_apply, Matrix.add_apply, Matrix.smul_apply, Spec.aknsP, exQ,
    Matrix.of_apply, Matrix.cons_val', Matrix.cons_val_zero, Matrix.cons_val_one, Matrix.cons_val_fin_one, smul_eq_mul,
    Matrix.one_apply_eq, Matrix.one_apply_ne (show (0 : Fin 2) ≠ 1 by decide), Matrix.one_apply_ne (show (1 : Fin 2) ≠ 0 by decide)]
  have hI := I_sq
  linear_combination (exp (-I * (I * exK) * t0)) * hc - exp (-I * (I * exK) * t0) * sk ^ 2 * exK ^ 2 * h2 +
    exp (-I * (I * exK) * t0) * (-2 * cos exK * sk * exK + sk ^ 2 * exK ^ 2 * (I ^ 2 - 1)) * hI

end FNFT

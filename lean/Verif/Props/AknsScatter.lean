import Verif.Proofs.AknsScatTop
/-!
# Properties C24, C25, C26: slow scattering
-/
namespace FNFT
open Complex Matrix AknsDisc

local notation "mexp" => NormedSpace.exp

/-! ## Helpers -/

theorem slowStep_prod (E : Spec.M2 → Spec.M2) (d : AknsDisc) (h : ℝ) (w q r : ℕ → ℂ) (l : ℂ) (n : ℕ) :
    Spec.slowStep E d h w q r l n = ((Spec.slowExponents d h w q r l n).map E).prod := by
  unfold Spec.slowStep Spec.slowExponents
  cases d <;> simp [Matrix.mul_assoc]

theorem slowExponents_traceless {d : AknsDisc} {h : ℝ} {w q r : ℕ → ℂ} {l : ℂ} {n : ℕ} {X : Spec.M2}
    (hX : X ∈ Spec.slowExponents d h w q r l n) : X 1 1 = -X 0 0 := by
  have hP : ∀ (a b c z : ℂ), (z • Spec.aknsP a b c) 1 1 = -(z • Spec.aknsP a b c) 0 0 := by
    intro a b c z; simp [Spec.aknsP]
  cases d
  case ES4 =>
    simp only [Spec.slowExponents, List.mem_singleton] at hX
    subst hX
    simp [Spec.aknsP, Spec.aknsPt, Matrix.sub_apply]; ring
  case TES4 =>
    simp only [Spec.slowExponents, List.mem_cons, List.not_mem_nil, or_false] at hX
    rcases hX with rfl | rfl | rfl <;> simp [Spec.aknsP, Spec.aknsPt]
  all_goals
    simp only [Spec.slowExponents, List.mem_singleton] at hX
    subst hX
    exact hP _ _ _ _

theorem slowExponents_length (d : AknsDisc) (h : ℝ) (w q r : ℕ → ℂ) (l : ℂ) (n : ℕ) :
    (Spec.slowExponents d h w q r l n).length ≤ 3 := by
  cases d <;> simp [Spec.slowExponents]

theorem slow_from {d : AknsDisc} (hd : Spec.slow d) (eps : ℝ) (vanilla : Bool) (pde : AknsPde) (l : ℂ) :
    basisFrom eps d vanilla pde l = Spec.fromS (decide (pde = .KdV)) vanilla l := by
  have hm : akns_basis_modified d = false := by
    rcases hd with rfl | rfl | rfl | rfl | rfl | rfl | rfl <;> rfl
  unfold basisFrom Spec.fromS
  by_cases hp : pde = .KdV <;> simp [hp, hm]

theorem slow_to {d : AknsDisc} (hd : Spec.slow d) (eps : ℝ) (vanilla : Bool) (pde : AknsPde) (l : ℂ) (hl : pde = .KdV → l ≠ 0) :
    basisTo eps d vanilla pde l = (Spec.fromS (decide (pde = .KdV)) vanilla l)⁻¹ := by
  rw [← slow_from hd eps]
  exact (Matrix.inv_eq_left_inv (basis_inv eps d vanilla pde l hl).1).symm

theorem outList_four {deriv : Bool} {M M' : Spec.M2} (j k : Fin 2) :
    (outList deriv M M')[2 * j.1 + k.1]? = some (M j k) := by
  cases deriv <;> fin_cases j <;> fin_cases k <;> rfl

/-! ## C24 -/

/-- The routine that stands for the matrix exponential in the code: exact for exponents `X` with
`det X = 0` or `|det X| ≥ 1e-16`, and accurate to `1e-33 |X_ij|` (and to `|det X|² |X_ij|`) in every entry otherwise. -/
def Spec.NearExp (E : Spec.M2 → Spec.M2) : Prop :=
  ∀ X : Spec.M2, X 1 1 = -X 0 0 →
    ((X.det = 0 ∨ 1e-16 ≤ ‖X.det‖) → E X = mexp X) ∧ ∀ i j, ‖E X i j - mexp X i j‖ ≤ min 1e-33 (‖X.det‖ ^ 2) * ‖X i j‖

/-- Arguments of `akns_scatter_matrix` that satisfy its documented preconditions; `c` is the number of
entries per `lambda` (4, or 8 with derivatives). -/
structure Spec.ScatArgs (D : ℕ) (q r : Buf ℂ) (qf rf : ℕ → ℂ) (eps : ℝ) (K : ℕ) (lambda : Buf ℂ) (lf : ℕ → ℂ)
    (result : Buf ℂ) (W : Option (Buf ℤ)) (d : AknsDisc) (pde : AknsPde) (c : ℕ) : Prop where
  hD : 0 < D
  hq : q.Holds 0 D qf
  hr : r.Holds 0 D rf
  heps : 0 < eps
  hK : 0 < K
  hl : lambda.Holds 0 K lf
  hd : Spec.slow d
  hs : Spec.slowSamples d D
  hp : pde = .KdV ∨ pde = .NSE
  hx : pde = .KdV → ∀ i, i < K → lf i ≠ 0
  hres : c * K ≤ result.len
  hW : ∀ V, W = some V → K ≤ V.len

/-- `C24` with the routine of the code for the exponential. -/
theorem slow_scattering_expS :
    ∀ (D : ℕ) (q r : Buf ℂ) (qf rf : ℕ → ℂ) (eps : ℝ) (K : ℕ) (lambda : Buf ℂ) (lf : ℕ → ℂ) (result : Buf ℂ)
      (W : Option (Buf ℤ)) (d : AknsDisc) (pde : AknsPde) (vanilla : ℕ) (deriv : Bool),
      Spec.ScatArgs D q r qf rf eps K lambda lf result W d pde (if deriv then 8 else 4) →
    ∃ (res : ScatRes) (a : ℕ → ℤ), akns_scatter_matrix D (some q) (some r) eps K (some lambda) (some result) W d pde vanilla
        (if deriv then 1 else 0) = some res ∧ res.ret = SUCCESS ∧ res.result.len = result.len ∧
      (∀ i, i < K → ∀ j k : Fin 2, res.result.rd ((if deriv then 8 else 4) * i + (2 * j + k)) =
        some ((2 : ℂ) ^ (-a i) * ((Spec.fromS (decide (pde = .KdV)) (vanilla ≠ 0) (lf i))⁻¹ *
          Spec.chain (Spec.slowStep expS d eps (Spec.cfWeight d) qf rf (lf i)) (Spec.slowCount d D) *
          Spec.fromS (decide (pde = .KdV)) (vanilla ≠ 0) (lf i)) j k)) ∧
      (∀ j, (if deriv then 8 else 4) * K ≤ j → res.result.rd j = result.rd j) ∧
      (∀ V, W = some V → ∃ V', res.W = some V' ∧ V'.len = V.len ∧ (∀ i, i < K → V'.rd i = some (a i)) ∧
        ∀ j, K ≤ j → V'.rd j = V.rd j) ∧
      (W = none → res.W = none ∧ ∀ i, a i = 0) := by
  intro D q r qf rf eps K lambda lf result W d pde vanilla deriv h
  obtain ⟨res, a, h1, h2, h3, h4, h5, h6, h7⟩ := scatter_matrix_ok h.hD h.hq h.hr h.heps h.hK h.hl h.hd h.hs h.hp h.hx
    vanilla deriv result h.hres W h.hW
  refine ⟨res, a, h1, h2, h3, fun i hi j k => ?_, h5, h6, h7⟩
  rw [h4 i hi (2 * j + k) (by have := j.2; have := k.2; cases deriv <;> simp <;> omega), outList_four,
    slow_from h.hd, slow_to h.hd _ _ _ _ fun hk => h.hx hk i hi]
  rfl

/-- C24. There is one approximation `E` of the matrix exponential such that every call with valid
arguments succeeds and returns for every `lambda_i` the matrix `2^(-W_i) B⁻¹ (U_(N-1) ⋯ U_0) B`, where
the `U_n` are the one-step propagators of the discretization and `B` is the change of basis of the
equation; `W_i` is stored in `W` (zero if `W = NULL`). Cells behind the documented output are not
written. The same matrices are returned with derivatives (8 cells per `lambda`). -/
theorem C24_slow_scattering : ∃ E : Spec.M2 → Spec.M2, Spec.NearExp E ∧
    ∀ (D : ℕ) (q r : Buf ℂ) (qf rf : ℕ → ℂ) (eps : ℝ) (K : ℕ) (lambda : Buf ℂ) (lf : ℕ → ℂ) (result : Buf ℂ)
      (W : Option (Buf ℤ)) (d : AknsDisc) (pde : AknsPde) (vanilla : ℕ) (deriv : Bool),
      Spec.ScatArgs D q r qf rf eps K lambda lf result W d pde (if deriv then 8 else 4) →
    ∃ (res : ScatRes) (a : ℕ → ℤ), akns_scatter_matrix D (some q) (some r) eps K (some lambda) (some result) W d pde vanilla
        (if deriv then 1 else 0) = some res ∧ res.ret = SUCCESS ∧ res.result.len = result.len ∧
      (∀ i, i < K → ∀ j k : Fin 2, res.result.rd ((if deriv then 8 else 4) * i + (2 * j + k)) =
        some ((2 : ℂ) ^ (-a i) * ((Spec.fromS (decide (pde = .KdV)) (vanilla ≠ 0) (lf i))⁻¹ *
          Spec.chain (Spec.slowStep E d eps (Spec.cfWeight d) qf rf (lf i)) (Spec.slowCount d D) *
          Spec.fromS (decide (pde = .KdV)) (vanilla ≠ 0) (lf i)) j k)) ∧
      (∀ j, (if deriv then 8 else 4) * K ≤ j → res.result.rd j = result.rd j) ∧
      (∀ V, W = some V → ∃ V', res.W = some V' ∧ V'.len = V.len ∧ (∀ i, i < K → V'.rd i = some (a i)) ∧
        ∀ j, K ≤ j → V'.rd j = V.rd j) ∧
      (W = none → res.W = none ∧ ∀ i, a i = 0) :=
  ⟨expS, fun _ hX => ⟨expS_exact hX, expS_near hX⟩, slow_scattering_expS⟩

/-- Away from the Taylor threshold, the result is exactly the product of the matrix exponentials. -/
theorem C24_slow_scattering_exact (D : ℕ) (q r : Buf ℂ) (qf rf : ℕ → ℂ) (eps : ℝ) (K : ℕ) (lambda : Buf ℂ) (lf : ℕ → ℂ)
    (result : Buf ℂ) (W : Option (Buf ℤ)) (d : AknsDisc) (pde : AknsPde) (vanilla : ℕ) (deriv : Bool)
    (h : Spec.ScatArgs D q r qf rf eps K lambda lf result W d pde (if deriv then 8 else 4)) :
    ∃ (res : ScatRes) (a : ℕ → ℤ), akns_scatter_matrix D (some q) (some r) eps K (some lambda) (some result) W d pde vanilla
        (if deriv then 1 else 0) = some res ∧ res.ret = SUCCESS ∧
      (∀ V', res.W = some V' → ∀ i, i < K → V'.rd i = some (a i)) ∧ (W = none → ∀ i, a i = 0) ∧
      ∀ i, i < K → Spec.Regular d eps (Spec.cfWeight d) qf rf (lf i) (Spec.slowCount d D) →
        ∀ j k : Fin 2, res.result.rd ((if deriv then 8 else 4) * i + (2 * j + k)) =
        some ((2 : ℂ) ^ (-a i) * ((Spec.fromS (decide (pde = .KdV)) (vanilla ≠ 0) (lf i))⁻¹ *
          Spec.chain (Spec.slowStep mexp d eps (Spec.cfWeight d) qf rf (lf i)) (Spec.slowCount d D) *
          Spec.fromS (decide (pde = .KdV)) (vanilla ≠ 0) (lf i)) j k) := by
  obtain ⟨E, hE, hall⟩ := C24_slow_scattering
  obtain ⟨res, a, h1, h2, -, h4, -, h6, h7⟩ := hall D q r qf rf eps K lambda lf result W d pde vanilla deriv h
  refine ⟨res, a, h1, h2, ?_, fun hN => (h7 hN).2, fun i hi hreg j k => ?_⟩
  · intro V' hV' i hi
    cases hW : W with
    | none => rw [(h7 hW).1] at hV'; cases hV'
    | some V =>
      obtain ⟨V'', v1, -, v3, -⟩ := h6 V hW
      rw [hV'] at v1; cases v1
      exact v3 i hi
  rw [h4 i hi j k]
  have : Spec.chain (Spec.slowStep E d eps (Spec.cfWeight d) qf rf (lf i)) (Spec.slowCount d D) =
      Spec.chain (Spec.slowStep mexp d eps (Spec.cfWeight d) qf rf (lf i)) (Spec.slowCount d D) := by
    unfold Spec.chain
    congr 1
    apply List.map_congr_left
    intro s hs
    rw [List.mem_range] at hs
    rw [slowStep_prod, slowStep_prod]
    congr 1
    apply List.map_congr_left
    intro X hX
    exact (hE X (slowExponents_traceless hX)).1 (hreg _ (by omega) X hX)
  rw [this]

/-! ## C25 -/

/-- Product of determinants near one. -/
theorem near_one_mul {x y : ℂ} {a b : ℝ} (ha : ‖x - 1‖ ≤ a - 1) (hb : ‖y - 1‖ ≤ b - 1) : ‖x * y - 1‖ ≤ a * b - 1 := by
  have hx : ‖x‖ ≤ a := by
    calc ‖x‖ = ‖(x - 1) + 1‖ := by ring_nf
      _ ≤ ‖x - 1‖ + 1 := (norm_add_le _ _).trans (by simp)
      _ ≤ a := by linarith
  have ha0 : 1 ≤ a := by linarith [norm_nonneg (x - 1)]
  calc ‖x * y - 1‖ = ‖x * (y - 1) + (x - 1)‖ := by ring_nf
    _ ≤ ‖x‖ * ‖y - 1‖ + ‖x - 1‖ := (norm_add_le _ _).trans (by rw [norm_mul])
    _ ≤ a * (b - 1) + (a - 1) := by gcongr
    _ = a * b - 1 := by ring

theorem near_one_list {f : Spec.M2 → Spec.M2} {B : ℝ} (l : List Spec.M2) (hl : ∀ X ∈ l, ‖(f X).det - 1‖ ≤ B - 1) :
    ‖((l.map f).prod).det - 1‖ ≤ B ^ l.length - 1 := by
  induction l with
  | nil => simp
  | cons X l ih =>
    rw [List.map_cons, List.prod_cons, Matrix.det_mul, List.length_cons, pow_succ, mul_comm (B ^ _)]
    exact near_one_mul (hl X (by simp)) (ih fun Y hY => hl Y (by simp [hY]))

theorem chain_det_near {U : ℕ → Spec.M2} {B : ℝ} (N : ℕ) (h : ∀ n, n < N → ‖(U n).det - 1‖ ≤ B - 1) :
    ‖(Spec.chain U N).det - 1‖ ≤ B ^ N - 1 := by
  induction N with
  | zero => simp [chain_zero]
  | succ N ih =>
    rw [chain_succ, Matrix.det_mul, pow_succ, mul_comm (B ^ _)]
    exact near_one_mul (h N (by omega)) (ih fun n hn => h n (by omega))

theorem chain_det_one {U : ℕ → Spec.M2} (N : ℕ) (h : ∀ n, n < N → (U n).det = 1) : (Spec.chain U N).det = 1 := by
  induction N with
  | zero => simp [chain_zero]
  | succ N ih => rw [chain_succ, Matrix.det_mul, h N (by omega), ih fun n hn => h n (by omega), one_mul]

theorem step_det_near (d : AknsDisc) (h : ℝ) (w q r : ℕ → ℂ) (l : ℂ) (n : ℕ) :
    ‖(Spec.slowStep expS d h w q r l n).det - 1‖ ≤ (1 + 1e-48) ^ 3 - 1 := by
  rw [slowStep_prod]
  refine (near_one_list (B := 1 + 1e-48) _ fun X hX => ?_).trans ?_
  · have := expS_det_near (slowExponents_traceless hX); linarith
  · have : ((1 : ℝ) + 1e-48) ^ (Spec.slowExponents d h w q r l n).length ≤ (1 + 1e-48) ^ 3 :=
      pow_le_pow_right₀ (by norm_num) (slowExponents_length _ _ _ _ _ _ _)
    linarith

theorem step_det_one {d : AknsDisc} {h : ℝ} {w q r : ℕ → ℂ} {l : ℂ} {n : ℕ}
    (hreg : ∀ X ∈ Spec.slowExponents d h w q r l n, X.det = 0 ∨ 1e-16 ≤ ‖X.det‖) :
    (Spec.slowStep expS d h w q r l n).det = 1 := by
  rw [slowStep_prod]
  have : ∀ L : List Spec.M2, (∀ X ∈ L, X 1 1 = -X 0 0 ∧ (X.det = 0 ∨ 1e-16 ≤ ‖X.det‖)) → ((L.map expS).prod).det = 1 := by
    intro L
    induction L with
    | nil => simp
    | cons X L ih =>
      intro hL
      rw [List.map_cons, List.prod_cons, Matrix.det_mul, ih fun Y hY => hL Y (by simp [hY]),
        expS_det_exact (hL X (by simp)).1 (hL X (by simp)).2, one_mul]
  exact this _ fun X hX => ⟨slowExponents_traceless hX, hreg X hX⟩

theorem sandwich_det {A C B : Spec.M2} (h : A * B = 1) : (sandwich A C B).det = C.det := by
  rw [sandwich, Matrix.det_mul, Matrix.det_mul]
  have : A.det * B.det = 1 := by rw [← Matrix.det_mul, h, Matrix.det_one]
  linear_combination C.det * this

/-- C25. The determinant of the returned matrix, times `2^(2 W)`, is one up to `(1+1e-48)^(3N) - 1`, and
exactly one if no exponent falls under the Taylor threshold. -/
theorem C25_unimodular (D : ℕ) (q r : Buf ℂ) (qf rf : ℕ → ℂ) (eps : ℝ) (K : ℕ) (lambda : Buf ℂ) (lf : ℕ → ℂ)
    (result : Buf ℂ) (W : Option (Buf ℤ)) (d : AknsDisc) (pde : AknsPde) (vanilla : ℕ) (deriv : Bool)
    (h : Spec.ScatArgs D q r qf rf eps K lambda lf result W d pde (if deriv then 8 else 4)) :
    ∃ (res : ScatRes) (a : ℕ → ℤ) (S : ℕ → Spec.M2),
      akns_scatter_matrix D (some q) (some r) eps K (some lambda) (some result) W d pde vanilla
        (if deriv then 1 else 0) = some res ∧ res.ret = SUCCESS ∧
      (∀ V, W = some V → ∃ V', res.W = some V' ∧ ∀ i, i < K → V'.rd i = some (a i)) ∧ (W = none → ∀ i, a i = 0) ∧
      ∀ i, i < K →
        (∀ j k : Fin 2, res.result.rd ((if deriv then 8 else 4) * i + (2 * j + k)) = some (S i j k)) ∧
        ‖(S i).det * (2 : ℂ) ^ (2 * a i) - 1‖ ≤ ((1 + 1e-48) ^ 3) ^ Spec.slowCount d D - 1 ∧
        (Spec.Regular d eps (Spec.cfWeight d) qf rf (lf i) (Spec.slowCount d D) → (S i).det * (2 : ℂ) ^ (2 * a i) = 1) := by
  obtain ⟨res, a, h1, h2, h3, h4, h5, h6, h7⟩ := scatter_matrix_ok h.hD h.hq h.hr h.heps h.hK h.hl h.hd h.hs h.hp h.hx
    vanilla deriv result h.hres W h.hW
  refine ⟨res, a, fun i => (2 : ℂ) ^ (-a i) • sandwich (basisTo eps d (vanilla ≠ 0) pde (lf i))
            (Spec.chain (Spec.slowStep expS d eps (Spec.cfWeight d) qf rf (lf i)) (Spec.slowCount d D))
            (basisFrom eps d (vanilla ≠ 0) pde (lf i)), h1, h2, ?_, fun hN => (h7 hN).2, fun i hi => ⟨?_, ?_⟩⟩
  · intro V hV
    obtain ⟨V', v1, -, v3, -⟩ := h6 V hV
    exact ⟨V', v1, v3⟩
  · intro j k
    rw [h4 i hi (2 * j + k) (by have := j.2; have := k.2; cases deriv <;> simp <;> omega), outList_four]
  · have hdet : ((2 : ℂ) ^ (-a i) • sandwich (basisTo eps d (vanilla ≠ 0) pde (lf i))
            (Spec.chain (Spec.slowStep expS d eps (Spec.cfWeight d) qf rf (lf i)) (Spec.slowCount d D))
            (basisFrom eps d (vanilla ≠ 0) pde (lf i))).det * (2 : ℂ) ^ (2 * a i) =
          (Spec.chain (Spec.slowStep expS d eps (Spec.cfWeight d) qf rf (lf i)) (Spec.slowCount d D)).det := by
      rw [Matrix.det_smul, sandwich_det (basis_inv _ _ _ _ _ fun hk => h.hx hk i hi).1, Fintype.card_fin]
      have : ((2 : ℂ) ^ (-a i)) ^ 2 * (2 : ℂ) ^ (2 * a i) = 1 := by
        rw [← zpow_natCast, ← _root_.zpow_mul, ← zpow_add₀ (by norm_num)]
        have : -a i * ((2 : ℕ) : ℤ) + 2 * a i = 0 := by push_cast; ring
        rw [this, zpow_zero]
      linear_combination (Spec.chain (Spec.slowStep expS d eps (Spec.cfWeight d) qf rf (lf i)) (Spec.slowCount d D)).det * this
    rw [hdet]
    exact ⟨chain_det_near _ fun n _ => step_det_near _ _ _ _ _ _ _,
      fun hreg => chain_det_one _ fun n hn => step_det_one (hreg n hn)⟩

/-- The matrices computed for the steps `h` and `-h` (backward scattering of bound states) are inverse to
each other up to the determinant, which is one up to `1e-48`, and exactly one outside of the threshold. -/
theorem C25_step_inverse (q r l h : ℂ) (A B : Spec.M2) (hA : Spec.Stores (Buf.ofList (U_BO q r l h)) A)
    (hB : Spec.Stores (Buf.ofList (U_BO q r l (-h))) B) :
    A * B = A.det • (1 : Spec.M2) ∧ B * A = A.det • (1 : Spec.M2) ∧ ‖A.det - 1‖ ≤ 1e-48 ∧
      (1e-16 ≤ ‖h ^ 2 * (q * r - l ^ 2)‖ → A.det = 1) := by
  have hu : ∀ {b : Buf ℂ} {M N : Spec.M2}, Spec.Stores b M → Spec.Stores b N → M = N := by
    intro b M N h1 h2
    ext i j
    have := (h1 i j).symm.trans (h2 i j)
    exact Option.some.inj this
  have hA := hu hA (stores_U_BO q r l h)
  have hB := hu hB (stores_U_BO q r l (-h))
  rw [neg_smul] at hB
  subst hA hB
  have ht : (h • Spec.aknsP q r l) 1 1 = -(h • Spec.aknsP q r l) 0 0 := by simp [Spec.aknsP]
  have ht' : (-(h • Spec.aknsP q r l)) 1 1 = -(-(h • Spec.aknsP q r l)) 0 0 := by simp [Spec.aknsP]
  have hdet : (h • Spec.aknsP q r l).det = -(h ^ 2 * (q * r - l ^ 2)) := by
    rw [Matrix.det_fin_two]; simp [Spec.aknsP]; linear_combination (-h ^ 2 * l ^ 2) * I_mul_I
  have e1 := expS_neg ht
  have e2 := expS_neg ht'
  rw [neg_neg] at e2
  have e3 : (expS (-(h • Spec.aknsP q r l))).det = (expS (h • Spec.aknsP q r l)).det := by
    rw [expS_det ht, expS_det ht']
    congr 2
    · rw [Matrix.det_neg]; simp
    · rw [Matrix.det_neg]; simp
    · rw [Matrix.det_neg]; simp
  rw [e3] at e2
  exact ⟨e1, e2, expS_det_near ht, fun hh => expS_det_exact ht (Or.inr (by rw [hdet, norm_neg]; exact hh))⟩

/-! ## C26 -/

theorem Sym.chain {κ : ℝ} {U : ℕ → Spec.M2} (N : ℕ) (h : ∀ n, n < N → Spec.Sym κ (U n)) : Spec.Sym κ (Spec.chain U N) := by
  induction N with
  | zero => rw [chain_zero]; exact Sym.one
  | succ N ih => rw [chain_succ]; exact Sym.mul (h N (by omega)) (ih fun n hn => h n (by omega))

theorem Sym.exponents {κ : ℝ} {d : AknsDisc} {h : ℝ} {w q r : ℕ → ℂ} {l : ℝ} {n : ℕ}
    (hw : ∀ n, (starRingEnd ℂ) (w n) = w n)
    (hr : ∀ m, m < 3 * n + 3 → r m = -κ * (starRingEnd ℂ) (q m)) :
    ∀ X ∈ Spec.slowExponents d h w q r l n, Spec.Sym κ X := by
  intro X hX
  have hP : ∀ (m : ℕ), m < 3 * n + 3 → Spec.Sym κ (Spec.aknsP (q m) (r m) l) := by
    intro m hm; constructor <;> simp [Spec.aknsP, hr m hm]
  have hPt : ∀ (m : ℕ), m < 3 * n + 3 → Spec.Sym κ (Spec.aknsPt (q m) (r m)) := by
    intro m hm; constructor <;> simp [Spec.aknsPt, hr m hm]
  have hc : ∀ (k : ℕ) (c : ℂ), (starRingEnd ℂ) c = c → (starRingEnd ℂ) ((h : ℂ) ^ k / c) = (h : ℂ) ^ k / c := by
    intro k c hc; rw [map_div₀, map_pow, conj_ofReal, hc]
  have c24 : (starRingEnd ℂ) 24 = 24 := map_ofNat _ _
  have c12 : (starRingEnd ℂ) 12 = 12 := map_ofNat _ _
  have c48 : (starRingEnd ℂ) 48 = 48 := map_ofNat _ _
  have sub : ∀ {A B : Spec.M2}, Spec.Sym κ A → Spec.Sym κ B → Spec.Sym κ (A - B) := by
    intro A B hA hB
    have : A - B = A + (-1 : ℂ) • B := by rw [neg_one_smul, sub_eq_add_neg]
    rw [this]; exact Sym.add hA (Sym.smul hB (by simp))
  cases d
  case ES4 =>
    simp only [Spec.slowExponents, List.mem_singleton] at hX
    subst hX
    have p0 := hP (3 * n) (by omega)
    have p1 := hPt (3 * n + 1) (by omega)
    have p2 := hPt (3 * n + 2) (by omega)
    exact sub (Sym.add (Sym.smul p0 (conj_ofReal h)) (Sym.smul p2 (hc 3 _ c24)))
      (Sym.smul (sub (Sym.mul p0 p1) (Sym.mul p1 p0)) (hc 3 _ c12))
  case TES4 =>
    simp only [Spec.slowExponents, List.mem_cons, List.not_mem_nil, or_false] at hX
    have p0 := hP (3 * n) (by omega)
    have p1 := hPt (3 * n + 1) (by omega)
    have p2 := hPt (3 * n + 2) (by omega)
    rcases hX with rfl | rfl | rfl
    · exact Sym.add (Sym.smul p2 (hc 3 _ c48)) (Sym.smul p1 (hc 2 _ c12))
    · exact Sym.smul p0 (conj_ofReal h)
    · exact sub (Sym.smul p2 (hc 3 _ c48)) (Sym.smul p1 (hc 2 _ c12))
  all_goals
    simp only [Spec.slowExponents, List.mem_singleton] at hX
    subst hX
    exact Sym.smul (hP n (by omega)) (by rw [map_mul, hw, conj_ofReal])

theorem Sym.listProd {κ : ℝ} (L : List Spec.M2) (h : ∀ X ∈ L, Spec.Sym κ X) : Spec.Sym κ ((L.map FNFT.expS).prod) := by
  induction L with
  | nil => simpa using Sym.one
  | cons X L ih =>
    rw [List.map_cons, List.prod_cons]
    exact Sym.mul (Sym.expS (h X (by simp))) (ih fun Y hY => h Y (by simp [hY]))

/-- Slow methods with real step weights. -/
def Spec.realSlow (d : AknsDisc) : Prop := d = BO ∨ d = CF4_2 ∨ d = CF4_3 ∨ d = ES4 ∨ d = TES4

/-- C26. NSE, `r = -κ conj q` (`κ = 1` focusing, `κ = -1` defocusing), real `lambda`, real-weight slow
discretization: with `a = S_11 2^W`, `b = S_21 2^W` the matrix is `[a, -κ conj b; b, conj a]` and
`|a|² + κ |b|² = 1`, up to `(1+1e-48)^(3N) - 1` in general and exactly outside of the Taylor threshold. -/
theorem C26_energy (D : ℕ) (q r : Buf ℂ) (qf rf : ℕ → ℂ) (eps : ℝ) (K : ℕ) (lambda : Buf ℂ) (lf : ℕ → ℝ)
    (result : Buf ℂ) (W : Option (Buf ℤ)) (d : AknsDisc) (vanilla : ℕ) (deriv : Bool) (κ : ℝ) (hκ : κ = 1 ∨ κ = -1)
    (hd : Spec.realSlow d) (hr : ∀ n, n < D → rf n = -κ * (starRingEnd ℂ) (qf n))
    (h : Spec.ScatArgs D q r qf rf eps K lambda (fun i => (lf i : ℂ)) result W d .NSE (if deriv then 8 else 4)) :
    ∃ (res : ScatRes) (w : ℕ → ℤ) (S : ℕ → Spec.M2),
      akns_scatter_matrix D (some q) (some r) eps K (some lambda) (some result) W d .NSE vanilla
        (if deriv then 1 else 0) = some res ∧ res.ret = SUCCESS ∧
      (∀ V, W = some V → ∃ V', res.W = some V' ∧ ∀ i, i < K → V'.rd i = some (w i)) ∧ (W = none → ∀ i, w i = 0) ∧
      ∀ i, i < K →
        (∀ j k : Fin 2, res.result.rd ((if deriv then 8 else 4) * i + (2 * j + k)) = some (S i j k)) ∧
        S i 1 1 = (starRingEnd ℂ) (S i 0 0) ∧ S i 0 1 = -κ * (starRingEnd ℂ) (S i 1 0) ∧
        |(‖S i 0 0‖ ^ 2 + κ * ‖S i 1 0‖ ^ 2) * (2 : ℝ) ^ (2 * w i) - 1| ≤ ((1 + 1e-48) ^ 3) ^ Spec.slowCount d D - 1 ∧
        (Spec.Regular d eps (Spec.cfWeight d) qf rf (lf i) (Spec.slowCount d D) →
          (‖S i 0 0‖ ^ 2 + κ * ‖S i 1 0‖ ^ 2) * (2 : ℝ) ^ (2 * w i) = 1) := by
  obtain ⟨res, a, S, h1, h2, h3, h4, h5⟩ := C25_unimodular D q r qf rf eps K lambda _ result W d .NSE vanilla deriv h
  obtain ⟨res', a', g1, g2, -, g4, -, g6, g7⟩ := scatter_matrix_ok h.hD h.hq h.hr h.heps h.hK h.hl h.hd h.hs h.hp h.hx
    vanilla deriv result h.hres W h.hW
  obtain rfl : res = res' := Option.some.inj (h1.symm.trans g1)
  refine ⟨res, a, S, h1, h2, h3, h4, fun i hi => ?_⟩
  obtain ⟨s1, s2, s3⟩ := h5 i hi
  have haa : a i = a' i := by
    cases hW : W with
    | none => rw [h4 hW, (g7 hW).2]
    | some V =>
      obtain ⟨V', v1, v2⟩ := h3 V hW
      obtain ⟨V'', u1, -, u2, -⟩ := g6 V hW
      rw [v1] at u1; cases u1
      exact Option.some.inj ((v2 i hi).symm.trans (u2 i hi))
  have hS : S i = (2 : ℂ) ^ (-a i) • Spec.chain (Spec.slowStep expS d eps (Spec.cfWeight d) qf rf (lf i)) (Spec.slowCount d D) := by
    ext j k
    have e1 := s1 j k
    rw [g4 i hi (2 * j + k) (by have := j.2; have := k.2; cases deriv <;> simp <;> omega), outList_four] at e1
    rw [← Option.some.inj e1, haa, slow_from h.hd, slow_to h.hd _ _ _ _ (fun hk => by cases hk)]
    simp [sandwich, Spec.fromS]
  have hw : ∀ n, (starRingEnd ℂ) (Spec.cfWeight d n) = Spec.cfWeight d n := by
    intro n
    rcases hd with rfl | rfl | rfl | rfl | rfl <;> simp only [Spec.cfWeight]
    all_goals (try split_ifs)
    all_goals simp [map_ofNat]
  have hsym : Spec.Sym κ (S i) := by
    rw [hS]
    refine Sym.smul (Sym.chain _ fun n hn => ?_) (by rw [map_zpow₀, map_ofNat])
    -- beyond D the values of `q`, `r` do not matter
    have hloc : Spec.slowExponents d eps (Spec.cfWeight d) qf rf (lf i) n =
        Spec.slowExponents d eps (Spec.cfWeight d) qf (fun m => if m < D then rf m else -κ * (starRingEnd ℂ) (qf m)) (lf i) n := by
      have hs := h.hs
      rcases hd with rfl | rfl | rfl | rfl | rfl
      all_goals simp only [Spec.slowCount] at hn
      all_goals simp only [Spec.slowExponents]
      · rw [if_pos hn]
      · rw [if_pos hn]
      · rw [if_pos hn]
      · rw [if_pos (by omega), if_pos (by omega), if_pos (by omega)]
      · rw [if_pos (by omega), if_pos (by omega), if_pos (by omega)]
    rw [slowStep_prod, hloc]
    refine Sym.listProd _ (Sym.exponents hw fun m _ => ?_)
    by_cases hm : m < D
    · simp only [if_pos hm, hr m hm]
    · simp only [if_neg hm]
  have hκ2 : κ * κ = 1 := by rcases hκ with rfl | rfl <;> norm_num
  have h01 : S i 0 1 = -κ * (starRingEnd ℂ) (S i 1 0) := by
    have hκc : (κ : ℂ) * κ = 1 := by rw [← ofReal_mul, hκ2, ofReal_one]
    rw [hsym.2, map_mul, map_neg, conj_ofReal, conj_conj]
    linear_combination (-(S i 0 1)) * hκc
  have hn01 : ‖S i 0 1‖ = ‖S i 1 0‖ := by
    rw [h01, norm_mul, norm_conj, norm_neg, norm_real, Real.norm_eq_abs]
    rcases hκ with rfl | rfl <;> simp
  have hdet := Sym.det hsym
  rw [hn01] at hdet
  have hcast : (((‖S i 0 0‖ ^ 2 + κ * ‖S i 1 0‖ ^ 2) * (2 : ℝ) ^ (2 * a i) - 1 : ℝ) : ℂ) = (S i).det * (2 : ℂ) ^ (2 * a i) - 1 := by
    rw [← hdet]; push_cast; rfl
  refine ⟨s1, hsym.1, h01, ?_, fun hreg => ?_⟩
  · rw [← Real.norm_eq_abs, ← norm_real, hcast]; exact s2
  · have := s3 hreg
    rw [← sub_eq_zero, ← hcast, ofReal_eq_zero] at this
    linarith

/-! ## A call that meets the hypotheses -/

/-- Two samples, one real `lambda`, Boffetta-Osborne discretization. -/
example : Spec.ScatArgs 2 (Buf.ofList [1, 2]) (Buf.ofList [-1, -2]) (fun i => ([1, 2] : List ℂ).getD i 0)
    (fun i => ([-1, -2] : List ℂ).getD i 0) (1 / 2) 1 (Buf.ofList [3]) (fun _ => 3) (Buf.malloc 8) (some (Buf.malloc 1))
    BO .NSE 8 where
  hD := by norm_num
  hq := by intro i hi; interval_cases i <;> rfl
  hr := by intro i hi; interval_cases i <;> rfl
  heps := by norm_num
  hK := by norm_num
  hl := by intro i hi; interval_cases i; rfl
  hd := Or.inl rfl
  hs := trivial
  hp := Or.inr rfl
  hx := by intro h; cases h
  hres := by simp
  hW := by rintro V h; cases h; simp

/-- Six samples of `ES4` (two steps). -/
example : Spec.ScatArgs 6 (Buf.ofFn 6 fun i => (i : ℂ)) (Buf.ofFn 6 fun i => -(i : ℂ)) (fun i => (i : ℂ))
    (fun i => -(i : ℂ)) (1 / 2) 1 (Buf.ofList [3]) (fun _ => 3) (Buf.malloc 4) none ES4 .KdV 4 where
  hD := by norm_num
  hq := Buf.holds_ofFn _ _
  hr := Buf.holds_ofFn _ _
  heps := by norm_num
  hK := by norm_num
  hl := by intro i hi; interval_cases i; rfl
  hd := by simp [Spec.slow]
  hs := ⟨2, rfl⟩
  hp := Or.inl rfl
  hx := by intro _ i _; norm_num
  hres := by simp
  hW := by rintro V h; cases h

end FNFT

import Verif.Proofs.ExpDeriv
import Verif.Props.AknsScatter
/-!
# Property C27: derivatives with respect to `lambda`
-/
namespace FNFT
open Complex Matrix AknsDisc

local notation "mexp" => NormedSpace.exp

/-- Entrywise derivative of a matrix function. -/
def Spec.MDeriv (A : ℂ → Spec.M2) (A' : Spec.M2) (l : ℂ) : Prop := ∀ i j, HasDerivAt (fun z => A z i j) (A' i j) l

theorem MDeriv.mul {A B : ℂ → Spec.M2} {A' B' : Spec.M2} {l : ℂ} (hA : Spec.MDeriv A A' l) (hB : Spec.MDeriv B B' l) :
    Spec.MDeriv (fun z => A z * B z) (A' * B l + A l * B') l := by
  intro i j
  have := ((hA i 0).mul (hB 0 j)).add ((hA i 1).mul (hB 1 j))
  exact hda this (fun y => by simp [Matrix.mul_apply, Fin.sum_univ_two])
    (by simp [Matrix.mul_apply, Fin.sum_univ_two]; ring)

theorem MDeriv.const (A : Spec.M2) (l : ℂ) : Spec.MDeriv (fun _ => A) 0 l := fun i j => hasDerivAt_const l (A i j)

theorem MDeriv.chain {U : ℂ → ℕ → Spec.M2} {U' : ℕ → Spec.M2} {l : ℂ} (N : ℕ)
    (h : ∀ n, n < N → Spec.MDeriv (fun z => U z n) (U' n) l) :
    Spec.MDeriv (fun z => Spec.chain (U z) N) (Spec.dchain (U l) U' N) l := by
  induction N with
  | zero => simp only [chain_zero, Spec.dchain]; exact MDeriv.const 1 l
  | succ N ih =>
    simp only [chain_succ, Spec.dchain]
    exact MDeriv.mul (h N (by omega)) (ih fun n hn => h n (by omega))

theorem fromS_deriv {d : AknsDisc} (hd : Spec.slow d) (eps : ℝ) (vanilla : Bool) (pde : AknsPde) (l : ℂ) (hl : pde = .KdV → l ≠ 0) :
    Spec.MDeriv (fun z => Spec.fromS (decide (pde = .KdV)) vanilla z) (basisFrom' eps d vanilla pde l) l ∧
    Spec.MDeriv (fun z => (Spec.fromS (decide (pde = .KdV)) vanilla z)⁻¹) (basisTo' eps d vanilla pde l) l := by
  constructor
  · intro i j
    have := (basis_deriv eps d vanilla pde l hl i j).2
    simpa only [slow_from hd] using this
  · intro i j
    have := (basis_deriv eps d vanilla pde l hl i j).1
    refine this.congr_of_eventuallyEq ?_
    by_cases hk : pde = .KdV
    · filter_upwards [isOpen_ne.mem_nhds (hl hk)] with y hy
      rw [slow_to hd eps vanilla pde y fun _ => hy]
    · exact Filter.Eventually.of_forall fun y => by
        show (Spec.fromS (decide (pde = .KdV)) vanilla y)⁻¹ i j = basisTo eps d vanilla pde y i j
        rw [slow_to hd eps vanilla pde y fun h => absurd h hk]

theorem outList_deriv {M M' : Spec.M2} (j k : Fin 2) : (outList true M M')[4 + (2 * j.1 + k.1)]? = some (M' j k) := by
  fin_cases j <;> fin_cases k <;> rfl

theorem dchain_congr {U V U' V' : ℕ → Spec.M2} (N : ℕ) (h : ∀ n, n < N → U n = V n) (h' : ∀ n, n < N → U' n = V' n) :
    Spec.chain U N = Spec.chain V N ∧ Spec.dchain U U' N = Spec.dchain V V' N := by
  induction N with
  | zero => simp [chain_zero, Spec.dchain]
  | succ N ih =>
    obtain ⟨e1, e2⟩ := ih (fun n hn => h n (by omega)) (fun n hn => h' n (by omega))
    simp only [chain_succ, Spec.dchain, e1, e2, h N (by omega), h' N (by omega), and_self]

/-- C27. With `derivative_flag = 1` entries `4..7` of the result for `lambda_i` are obtained by the product
rule from `2^(-W_i) B⁻¹ (U_(N-1) ⋯ U_0) B` (see C24) with the true derivatives of `B` and `B⁻¹`
and one-step derivatives `V_n` that agree with `d/dλ exp(X_n(λ))` up to `Spec.derivTol`, and exactly
if `|det X_n| ≥ 1` (`X_n` is the exponent of step `n`, and must have nonzero determinant: the code divides by it). -/
theorem C27_derivative_block : ∃ E : Spec.M2 → Spec.M2, Spec.NearExp E ∧
    ∀ (D : ℕ) (q r : Buf ℂ) (qf rf : ℕ → ℂ) (eps : ℝ) (K : ℕ) (lambda : Buf ℂ) (lf : ℕ → ℂ) (result : Buf ℂ)
      (W : Option (Buf ℤ)) (d : AknsDisc) (pde : AknsPde) (vanilla : ℕ),
      Spec.ScatArgs D q r qf rf eps K lambda lf result W d pde 8 →
    ∃ (res : ScatRes) (a : ℕ → ℤ), akns_scatter_matrix D (some q) (some r) eps K (some lambda) (some result) W d pde vanilla 1 =
        some res ∧ res.ret = SUCCESS ∧
      (∀ V, W = some V → ∃ V', res.W = some V' ∧ ∀ i, i < K → V'.rd i = some (a i)) ∧ (W = none → ∀ i, a i = 0) ∧
      ∀ i, i < K →
        (∀ n, n < Spec.slowCount d D → (Spec.mainExponent d eps (Spec.cfWeight d) qf rf n (lf i)).det ≠ 0) →
        ∃ (V : ℕ → Spec.M2) (A' B' : Spec.M2),
          (∀ n, n < Spec.slowCount d D → Spec.NearDeriv (V n) (Spec.mainExponent d eps (Spec.cfWeight d) qf rf n) (lf i)) ∧
          Spec.MDeriv (fun z => (Spec.fromS (decide (pde = .KdV)) (vanilla ≠ 0) z)⁻¹) A' (lf i) ∧
          Spec.MDeriv (fun z => Spec.fromS (decide (pde = .KdV)) (vanilla ≠ 0) z) B' (lf i) ∧
          let A := (Spec.fromS (decide (pde = .KdV)) (vanilla ≠ 0) (lf i))⁻¹
          let B := Spec.fromS (decide (pde = .KdV)) (vanilla ≠ 0) (lf i)
          let U := Spec.slowStep E d eps (Spec.cfWeight d) qf rf (lf i)
          let U' := fun n => ((Spec.outerExponents d eps qf rf n).1.map E).prod * V n *
            ((Spec.outerExponents d eps qf rf n).2.map E).prod
          let N := Spec.slowCount d D
          ∀ j k : Fin 2,
            res.result.rd (8 * i + (2 * j + k)) = some ((2 : ℂ) ^ (-a i) * (A * Spec.chain U N * B) j k) ∧
            res.result.rd (8 * i + (4 + (2 * j + k))) = some ((2 : ℂ) ^ (-a i) *
              ((A' * Spec.chain U N + A * Spec.dchain U U' N) * B + A * Spec.chain U N * B') j k) := by
  refine ⟨expS, fun X hX => ⟨expS_exact hX, expS_near hX⟩, ?_⟩
  intro D q r qf rf eps K lambda lf result W d pde vanilla h
  obtain ⟨res, a, h1, h2, h3, h4, h5, h6, h7⟩ := scatter_matrix_ok h.hD h.hq h.hr h.heps h.hK h.hl h.hd h.hs h.hp h.hx
    vanilla true result h.hres W h.hW
  simp only [if_true] at h1 h4
  refine ⟨res, a, h1, h2, ?_, fun hN => (h7 hN).2, fun i hi hdet => ?_⟩
  · intro V hV
    obtain ⟨V', v1, -, v3, -⟩ := h6 V hV
    exact ⟨V', v1, v3⟩
  have hV : ∀ n, ∃ V, n < Spec.slowCount d D → Spec.NearDeriv V (Spec.mainExponent d eps (Spec.cfWeight d) qf rf n) (lf i) ∧
      slowStepD d eps (Spec.cfWeight d) qf rf (lf i) n = ((Spec.outerExponents d eps qf rf n).1.map expS).prod * V *
        ((Spec.outerExponents d eps qf rf n).2.map expS).prod := by
    intro n
    by_cases hn : n < Spec.slowCount d D
    · obtain ⟨V, v1, v2⟩ := slowStepD_near d eps (Spec.cfWeight d) qf rf (lf i) n (hdet n hn)
      exact ⟨V, fun _ => ⟨v1, v2⟩⟩
    · exact ⟨0, fun h => absurd h hn⟩
  choose V hV using hV
  obtain ⟨hB, hA⟩ := fromS_deriv h.hd eps (decide (vanilla ≠ 0)) pde (lf i) fun hk => h.hx hk i hi
  refine ⟨V, _, _, fun n hn => (hV n hn).1, hA, hB, fun j k => ⟨?_, ?_⟩⟩
  · rw [h4 i hi (2 * j + k) (by have := j.2; have := k.2; omega), outList_four,
      slow_from h.hd, slow_to h.hd _ _ _ _ fun hk => h.hx hk i hi]
    rfl
  · rw [h4 i hi (4 + (2 * j + k)) (by have := j.2; have := k.2; omega), outList_deriv,
      slow_from h.hd, slow_to h.hd _ _ _ _ fun hk => h.hx hk i hi,
      (dchain_congr (Spec.slowCount d D) (fun _ _ => rfl) fun n hn => (hV n hn).2).2]
    rfl

/-- C27, exact case: if all exponents have `|det X_n| ≥ 1` (and those of the outer factors of `TES4` avoid the
Taylor threshold), entries `4..7` times `2^(W_i)` are exactly the derivatives at `lambda_i` of the entries of
`λ ↦ B(λ)⁻¹ exp(X_(N-1)(λ)) ⋯ exp(X_0(λ)) B(λ)`, whose values are entries `0..3` times `2^(W_i)`. -/
theorem C27_derivative_exact (D : ℕ) (q r : Buf ℂ) (qf rf : ℕ → ℂ) (eps : ℝ) (K : ℕ) (lambda : Buf ℂ) (lf : ℕ → ℂ)
    (result : Buf ℂ) (W : Option (Buf ℤ)) (d : AknsDisc) (pde : AknsPde) (vanilla : ℕ)
    (h : Spec.ScatArgs D q r qf rf eps K lambda lf result W d pde 8) :
    ∃ (res : ScatRes) (a : ℕ → ℤ), akns_scatter_matrix D (some q) (some r) eps K (some lambda) (some result) W d pde vanilla 1 =
        some res ∧ res.ret = SUCCESS ∧
      (∀ V, W = some V → ∃ V', res.W = some V' ∧ ∀ i, i < K → V'.rd i = some (a i)) ∧ (W = none → ∀ i, a i = 0) ∧
      ∀ i, i < K → Spec.Regular d eps (Spec.cfWeight d) qf rf (lf i) (Spec.slowCount d D) →
        (∀ n, n < Spec.slowCount d D → 1 ≤ ‖(Spec.mainExponent d eps (Spec.cfWeight d) qf rf n (lf i)).det‖) →
        ∀ j k : Fin 2, ∃ s s' : ℂ, res.result.rd (8 * i + (2 * j + k)) = some s ∧
          res.result.rd (8 * i + (4 + (2 * j + k))) = some s' ∧
          let S := fun z => ((Spec.fromS (decide (pde = .KdV)) (vanilla ≠ 0) z)⁻¹ *
            Spec.chain (Spec.slowStep mexp d eps (Spec.cfWeight d) qf rf z) (Spec.slowCount d D) *
            Spec.fromS (decide (pde = .KdV)) (vanilla ≠ 0) z) j k
          S (lf i) = (2 : ℂ) ^ (a i) * s ∧ HasDerivAt S ((2 : ℂ) ^ (a i) * s') (lf i) := by
  obtain ⟨E, hE, hall⟩ := C27_derivative_block
  obtain ⟨res, a, h1, h2, h3, h4, h5⟩ := hall D q r qf rf eps K lambda lf result W d pde vanilla h
  refine ⟨res, a, h1, h2, h3, h4, fun i hi hreg hone j k => ?_⟩
  obtain ⟨V, A', B', hV, hA, hB, hres⟩ := h5 i hi fun n hn h0 => by
    have := hone n hn; rw [h0, norm_zero] at this; norm_num at this
  obtain ⟨r1, r2⟩ := hres j k
  refine ⟨_, _, r1, r2, ?_⟩
  have hcancel : ∀ x : ℂ, (2 : ℂ) ^ (a i) * ((2 : ℂ) ^ (-a i) * x) = x := by
    intro x
    rw [← mul_assoc, ← zpow_add₀ (by norm_num), add_neg_cancel, zpow_zero, one_mul]
  simp only [hcancel]
  -- all steps are exact
  have hEx : ∀ n, n < Spec.slowCount d D → ∀ X ∈ Spec.slowExponents d eps (Spec.cfWeight d) qf rf (lf i) n, E X = mexp X :=
    fun n hn X hX => (hE X (slowExponents_traceless hX)).1 (hreg n hn X hX)
  have hU : ∀ n, n < Spec.slowCount d D → Spec.slowStep E d eps (Spec.cfWeight d) qf rf (lf i) n =
      Spec.slowStep mexp d eps (Spec.cfWeight d) qf rf (lf i) n := by
    intro n hn
    rw [slowStep_prod, slowStep_prod]
    congr 1
    exact List.map_congr_left (hEx n hn)
  have hO : ∀ n, n < Spec.slowCount d D →
      ((Spec.outerExponents d eps qf rf n).1.map E).prod * V n * ((Spec.outerExponents d eps qf rf n).2.map E).prod =
      ((Spec.outerExponents d eps qf rf n).1.map mexp).prod * V n * ((Spec.outerExponents d eps qf rf n).2.map mexp).prod := by
    intro n hn
    congr 1
    · congr 2
      refine List.map_congr_left fun X hX => hEx n hn X ?_
      rw [slowExponents_split]; simp [hX]
    · congr 1
      refine List.map_congr_left fun X hX => hEx n hn X ?_
      rw [slowExponents_split]; simp [hX]
  obtain ⟨e1, e2⟩ := dchain_congr (Spec.slowCount d D) hU hO
  rw [e1, e2]
  refine ⟨rfl, ?_⟩
  have hstep : ∀ n, n < Spec.slowCount d D → Spec.MDeriv (fun z => Spec.slowStep mexp d eps (Spec.cfWeight d) qf rf z n)
      (((Spec.outerExponents d eps qf rf n).1.map mexp).prod * V n * ((Spec.outerExponents d eps qf rf n).2.map mexp).prod) (lf i) := by
    intro n hn
    obtain ⟨X', F', -, f2, -, f4⟩ := hV n hn
    rw [f4 (hone n hn)]
    have := MDeriv.mul (MDeriv.mul (MDeriv.const ((Spec.outerExponents d eps qf rf n).1.map mexp).prod (lf i)) f2)
      (MDeriv.const ((Spec.outerExponents d eps qf rf n).2.map mexp).prod (lf i))
    simp only [Matrix.zero_mul, zero_add, Matrix.mul_zero, add_zero] at this
    have e : (fun z => Spec.slowStep mexp d eps (Spec.cfWeight d) qf rf z n) = fun z =>
        ((Spec.outerExponents d eps qf rf n).1.map mexp).prod * mexp (Spec.mainExponent d eps (Spec.cfWeight d) qf rf n z) *
          ((Spec.outerExponents d eps qf rf n).2.map mexp).prod := by
      funext z
      rw [slowStep_prod, slowExponents_split]; simp [Matrix.mul_assoc]
    rw [e]
    exact this
  exact MDeriv.mul (MDeriv.mul hA (MDeriv.chain _ hstep)) hB j k

/-- The conditions of `C27_derivative_exact` hold for two Boffetta-Osborne steps with samples 1, 2 and `r = -q` at
`lambda = 3`, step 1/2 (`ScatArgs` for this call is an example in `Verif.Props.AknsScatter`). -/
example : Spec.Regular BO (1 / 2) (Spec.cfWeight BO) (fun i => ([1, 2] : List ℂ).getD i 0)
      (fun i => ([-1, -2] : List ℂ).getD i 0) 3 (Spec.slowCount BO 2) ∧
    ∀ n, n < Spec.slowCount BO 2 → 1 ≤ ‖(Spec.mainExponent BO (1 / 2) (Spec.cfWeight BO) (fun i => ([1, 2] : List ℂ).getD i 0)
      (fun i => ([-1, -2] : List ℂ).getD i 0) n 3).det‖ := by
  have h0 : (Spec.mainExponent BO (1 / 2) (Spec.cfWeight BO) (fun i => ([1, 2] : List ℂ).getD i 0)
      (fun i => ([-1, -2] : List ℂ).getD i 0) 0 3).det = 5 / 2 := by
    rw [Matrix.det_fin_two]; simp [Spec.mainExponent, Spec.cfWeight, Spec.aknsP]; ring_nf; simp; norm_num
  have h1 : (Spec.mainExponent BO (1 / 2) (Spec.cfWeight BO) (fun i => ([1, 2] : List ℂ).getD i 0)
      (fun i => ([-1, -2] : List ℂ).getD i 0) 1 3).det = 13 / 4 := by
    rw [Matrix.det_fin_two]; simp [Spec.mainExponent, Spec.cfWeight, Spec.aknsP]; ring_nf; simp; norm_num
  have key : ∀ n, n < Spec.slowCount BO 2 → 1 ≤ ‖(Spec.mainExponent BO (1 / 2) (Spec.cfWeight BO) (fun i => ([1, 2] : List ℂ).getD i 0)
      (fun i => ([-1, -2] : List ℂ).getD i 0) n 3).det‖ := by
    intro n hn
    have hn : n < 2 := hn
    interval_cases n
    · rw [h0]; simp; norm_num
    · rw [h1]; simp; norm_num
  refine ⟨fun n hn X hX => Or.inr ?_, key⟩
  rw [slowExponents_split] at hX
  simp only [Spec.outerExponents, List.nil_append, List.append_nil, List.mem_singleton] at hX
  rw [hX]
  exact le_trans (by norm_num : (1e-16 : ℝ) ≤ 1) (key n hn)

end FNFT

import Verif.Props.NsevInvSeed
import Verif.Proofs.SeedCells
/-!
# Residues together with a continuous spectrum
-/
namespace FNFT
open Complex Filter Spec

local notation "conj" => starRingEnd ℂ

/-- C69. The coefficient `a` of a piecewise constant potential exists (and is unique) in the upper half plane. -/
theorem C69_cell_coefficient {T0 eps : ℝ} (he : 0 < eps) (D : ℕ) (qf : ℕ → ℂ) : ∃ ac : ℂ → ℂ, (∀ l, 0 < l.im → ∃ E : Set ℝ, E.Finite ∧ ScatUpper E (cellQ T0 eps D qf) l (ac l)) ∧
    ∀ (l : ℂ) (E : Set ℝ) (a : ℂ), 0 < l.im → E.Finite → ScatUpper E (cellQ T0 eps D qf) l a → a = ac l := by
  have JFc := JF.cells (T0 := T0) he D qf
  exact ⟨_, fun l hl => ⟨_, pcE_finite _ _, JFc.upper hl⟩, fun l E a hl hE h => scatUpper_unique hE (pcE_finite _ _) hl.le h (JFc.upper hl)⟩

/-- C69: both spectra, with residues. Let `qf` be the samples of the potential that the routine computes for the continuous spectrum alone (as in `C68_mixed`), and let `ac` be the coefficient `a` of the piecewise constant
potential with these samples (each in the middle of its cell). If `rf k` is the residue that belongs to the norming constant `bf k` for the product of `ac` and the Blaschke product, the routine adds the given eigenvalues with the norming constants `bf`.
(The eigenvalues are added to a potential whose first and last cell have half the length. The norming constants of the result are exact, but in general not the residues.) -/
theorem C69_mixed_residues {M K D : ℕ} (hK : 0 < K) {cf lf bf rf qf : ℕ → ℂ} {T0 T1 eps : ℝ} {XI : ℝ × ℝ} (hdata : DiscData K lf bf) (hD : ∃ p, 1 ≤ p ∧ D = 2 ^ p)
    (hM : M % 2 = 0) (hDM : D ≤ M) (hT : T0 < T1) (he : eps = (T1 - T0) / ((D : ℝ) - 1)) (hno : ∀ k, k < K → NoEigen (seedQ T0 eps D qf) (lf k))
    {ac : ℂ → ℂ} (hac : ∀ l, 0 < l.im → ∃ E : Set ℝ, E.Finite ∧ ScatUpper E (cellQ T0 eps D qf) l (ac l))
    (hres : ∀ k, k < K → Residue (fun l => blaschke ((List.range K).map lf) l * ac l) (lf k) (bf k) (rf k))
    (hks : ∀ k n, k < K → n < D → 1e-16 ≤ ‖(eps : ℂ) ^ 2 * (lf k ^ 2 + ((‖qf n‖ ^ 2 : ℝ) : ℂ))‖) {o : InvOpts} (hcs : ∀ n, o.cs ≠ .other n) {cs bs : Buf ℂ} (hc : cs.Holds 0 M cf)
    (hbs : bs.Holds 0 K lf) (hd : o.disc = .D2SPLIT2A ∨ o.disc = .D2SPLIT2_MODAL) (hm : o.meth ≠ .USE_SEED) (hds : o.ds = .RESIDUES) :
    ∃ Q : ℝ → ℂ, AddedTo (seedQ T0 eps D qf) K lf bf Q ∧ ∃ cs' : Buf ℂ, cs'.len = cs.len ∧
      cs'.Holds 0 M (fun i => if o.cs = .REFLECTION_COEFFICIENT then
        cf i * blaschke ((List.range K).map lf) ((XI.1 + i * ((XI.2 - XI.1) / ((M : ℝ) - 1)) : ℝ) : ℂ) else cf i) ∧
      ∀ (nc q : Buf ℂ) (g : Garbage) (R0 R : InvRes) (q0 : Buf ℂ), nc.Holds 0 K rf →
        fnft_nsev_inverse M (some cs') (some XI) 0 none none D (some q) (some (T0, T1)) 1 o g = some R0 → R0.ret = SUCCESS → R0.q = some q0 → q0.Holds 0 D qf →
        fnft_nsev_inverse M (some cs) (some XI) K (some bs) (some nc) D (some q) (some (T0, T1)) 1 o g = some R →
        R.ret = SUCCESS ∧ R.cs = R0.cs ∧ ∃ q', R.q = some q' ∧ q'.len = q0.len ∧ ∀ n, n < D → q'.rd n = some (Q (T0 + eps * n)) := by
  have hl := fun k hk => (hdata.1 k hk).1
  have hb0 := fun k hk => (hdata.1 k hk).2
  have hD2 := pow_two_le hD
  have hepos := eps_pos hD2 hT he
  have JFc := JF.cells (T0 := T0) hepos D qf
  have hac' : ∀ l, 0 < l.im → ac l = pcA (T0 - eps / 2) (fullL eps qf 0 D) l := by
    intro l hl
    obtain ⟨E, hE, h⟩ := hac l hl
    exact scatUpper_unique hE (pcE_finite _ _) hl.le h (JFc.upper hl)
  have hD1 : (0 : ℝ) < D - 1 := by
    have : (2 : ℝ) ≤ D := by exact_mod_cast hD2
    linarith
  have hT1 : T1 = T0 + (D - 1) * eps := by rw [he]; field_simp; ring
  have hval : ∀ k, k < K → slowA expS .BO D T0 T1 eps qf (fun n => -conj (qf n)) (lf k) = ac (lf k) := by
    intro k hk
    rw [hac' _ (hl k hk), pcA_full hT1 qf (lf k) _ fun n hn => ?_]
    · rfl
    · exact bo_step (Or.inr (hks k n hk hn))
  have hks' : ∀ k n, k < K → n < D → lf k ^ 2 ≠ -((‖qf n‖ ^ 2 : ℝ) : ℂ) := by
    intro k n hk hn h0
    have := hks k n hk hn
    rw [h0] at this
    norm_num at this
  have hr : ∀ k, k < K → rf k * resD K lf (ac (lf k)) k = bf k := by
    intro k hk
    obtain ⟨d, hd0, hd1, hr⟩ := hres k hk
    have hcont : ContinuousAt ac (lf k) := by
      refine (pcA_continuous (T0 := T0) (eps := eps) (D := D) qf).continuousAt.congr ?_
      filter_upwards [(Complex.continuous_im.isOpen_preimage _ isOpen_Ioi).mem_nhds (show (lf k).im ∈ Set.Ioi 0 from hl k hk)] with l hl'
      exact (hac' l hl').symm
    rw [hr, (resD_deriv hl hk hcont).unique hd1, div_mul_cancel₀ _ hd0]
  refine ⟨seedS K lf bf T0 eps D qf, seedS_scat (eps_pos hD2 hT he) hD2 hl hb0 hdata.2 hno, ?_⟩
  obtain ⟨cs', p1, p2, p3⟩ : ∃ cs', (if o.cs = .REFLECTION_COEFFICIENT then invPrecomp M cs XI.1 XI.2 K bs = some cs' else cs' = cs) ∧ cs'.len = cs.len ∧
      cs'.Holds 0 M (fun i => if o.cs = .REFLECTION_COEFFICIENT then
        cf i * blaschke ((List.range K).map lf) ((XI.1 + i * ((XI.2 - XI.1) / ((M : ℝ) - 1)) : ℝ) : ℂ) else cf i) := by
    by_cases ho : o.cs = .REFLECTION_COEFFICIENT
    · obtain ⟨cs', h1, h2, h3⟩ := invPrecomp_ok (XI0 := XI.1) (XI1 := XI.2) hc hbs hl
      exact ⟨cs', by rw [if_pos ho]; exact h1, h2, by simp only [if_pos ho]; exact h3⟩
    · exact ⟨cs, by rw [if_neg ho], rfl, by simp only [if_neg ho]; exact hc⟩
  refine ⟨cs', p2, p3, ?_⟩
  intro nc q g R0 R q0 hnc h0 hr0 hq0 hqf h
  have hdeg : D * nse_degree o.disc ≠ 0 := by
    refine Nat.mul_ne_zero (by omega) ?_
    rcases hd with h | h <;> rw [h] <;> decide
  rw [inverse_cont hM hDM (Or.inl rfl) (fun h => absurd h (lt_irrefl 0)) (fun h => absurd h (lt_irrefl 0)) (fun h => absurd h (lt_irrefl 0)) rfl hD hT hd (Or.inl (by simp))] at h0
  rw [inverse_cont hM hDM (Or.inl rfl) (fun _ => rfl) (fun _ => by simp) (fun _ => by simp) (by exact invLower_false hbs hl) hD hT hd (Or.inl (by simp))] at h
  simp only [Option.getD_some] at h0 h
  rw [invCont_precomp (b0 := (none : Option (Buf ℂ)).getD (Buf.malloc 0)) p1 hcs hdeg] at h
  obtain ⟨C, hC, h0⟩ := Option.bind_eq_some_iff.mp h0
  rw [hC, Option.bind_eq_bind, Option.bind_some] at h
  have hC1 : C.1 = SUCCESS := by
    by_contra hne
    rw [if_pos hne] at h0
    cases h0
    exact hne hr0
  rw [if_neg (not_not.mpr hC1)] at h0 h
  have e0 : invDisc 0 ((none : Option (Buf ℂ)).getD (Buf.malloc 0)) ((none : Option (Buf ℂ)).getD (Buf.malloc 0)) D C.2.2 T0 T1 true o g = some (SUCCESS, C.2.2) := by
    unfold invDisc; rw [if_neg (lt_irrefl 0)]
  rw [e0, Option.bind_eq_bind, Option.bind_some] at h0
  cases h0
  cases hq0
  unfold invDisc at h
  rw [if_pos hK] at h
  obtain ⟨R2, hR2, h⟩ := Option.bind_eq_some_iff.mp h
  obtain ⟨R1, hR1, hR2⟩ := Option.bind_eq_some_iff.mp hR2
  have hnorm : ∀ bs' nc', bs'.Holds 0 K (srtL K lf) → nc'.Holds 0 K (fun i => rf (sortP K lf i)) →
      ∃ nc2, invNorm K bs' nc' D C.2.2 T0 T1 true o.ds g = some (.ok nc2) ∧ nc2.Holds 0 K (fun i => bf (sortP K lf i)) := by
    intro bs' nc' hb' hn'
    rw [hds]
    obtain ⟨nc2, e1, e2⟩ := invNorm_cont (g := g) hK hD2 he hb' hn' hqf (srt_im hl)
    refine ⟨nc2, e1, fun i hi => ?_⟩
    have hi' := (sortP_lt K lf i).mp hi
    rw [e2 i hi]
    dsimp only
    rw [resD_perm, ← hr _ hi', ← hval _ hi']
    rfl
  obtain ⟨a1, a2, a3⟩ := (invDiscrete_seed (bf := bf) hbs hnc hqf hl hdata.2 hD2 hT he hks' (Or.inr ⟨rfl, hm⟩)
    hnorm).1 hR1
  cases hR2
  cases h
  exact ⟨by dsimp only; rw [a1]; rfl, rfl, R1.2, rfl, a2, a3⟩

/-! ## The hypotheses can be met -/

/-- Two samples with the value `1` on `[0, 1]`, the eigenvalue `2i`, and the residue that belongs to the norming constant `1`. -/
example : DiscData 1 (fun _ => 2 * I) (fun _ => 1) ∧ NoEigen (seedQ 0 1 2 fun _ => 1) (2 * I) ∧ 1e-16 ≤ ‖((1 : ℝ) : ℂ) ^ 2 * ((2 * I) ^ 2 + ((‖(1 : ℂ)‖ ^ 2 : ℝ) : ℂ))‖ ∧
    ∃ (ac : ℂ → ℂ) (r : ℂ), (∀ l, 0 < l.im → ∃ E : Set ℝ, E.Finite ∧ ScatUpper E (cellQ 0 1 2 fun _ => 1) l (ac l)) ∧
      Residue (fun l => blaschke ((List.range 1).map fun _ => 2 * I) l * ac l) (2 * I) 1 r := by
  refine ⟨⟨fun k _ => ⟨by simp, one_ne_zero⟩, fun i j hi hj _ => by omega⟩, noEigen_ex, ?_, ?_⟩
  · have : (((1 : ℝ) : ℂ) ^ 2 * ((2 * I) ^ 2 + ((‖(1 : ℂ)‖ ^ 2 : ℝ) : ℂ))) = -3 := by
      rw [mul_pow, I_sq]; norm_num
    rw [this]; norm_num
  · have JFc := JF.cells (T0 := 0) (eps := 1) one_pos 2 (fun _ => (1 : ℂ))
    obtain ⟨r, hr, hk⟩ := fK_ex
    have hr' : (r : ℂ) ≠ 0 := by exact_mod_cast hr.ne'
    have e1 : fC (r : ℂ) 1 = ((Real.cosh r : ℝ) : ℂ) := by unfold fC; push_cast; rw [mul_one]
    have e2 : fS (r : ℂ) 1 = ((Real.sinh r / r : ℝ) : ℂ) := by unfold fS; rw [if_neg hr']; push_cast; rw [mul_one]
    obtain ⟨S, hS⟩ : ∃ S, S = Real.sinh r / r := ⟨_, rfl⟩
    obtain ⟨C, hC⟩ : ∃ C, C = Real.cosh r := ⟨_, rfl⟩
    have hS0 : 0 < S := by rw [hS]; exact div_pos (Real.sinh_pos_iff.mpr hr) hr
    have hC0 : 0 < C := by rw [hC]; exact Real.cosh_pos _
    rw [← hS] at e2
    rw [← hC] at e1
    have hfl : ∀ v, flow 1 (2 * I) 1 v = ((C + 2 * S) * v.1 + S * v.2, -S * v.1 + (C - 2 * S) * v.2) := by
      intro v
      unfold flow
      rw [hk, e1, e2, map_one]
      refine Prod.ext ?_ ?_ <;> dsimp only
      · linear_combination (-2 * (S : ℂ) * v.1) * I_mul_I
      · linear_combination (2 * (S : ℂ) * v.2) * I_mul_I
    have hA : pcA (0 - 1 / 2) (fullL 1 (fun _ => (1 : ℂ)) 0 2) (2 * I) ≠ 0 := by
      have hL : fullL 1 (fun _ => (1 : ℂ)) 0 2 = [(1, 1), (1, 1)] := rfl
      unfold pcA
      rw [hL]
      unfold segP segP segP
      rw [hfl, hfl]
      dsimp only
      refine mul_ne_zero ?_ (Complex.exp_ne_zero _)
      have : ((C : ℂ) + 2 * S) * ((C + 2 * S) * exp (-I * (2 * I) * ((0 - 1 / 2 : ℝ) : ℂ)) + S * 0) + S * (-S * exp (-I * (2 * I) * ((0 - 1 / 2 : ℝ) : ℂ)) + (C - 2 * S) * 0) =
          (((C + 2 * S) * (C + 2 * S) - S * S : ℝ) : ℂ) * exp (-I * (2 * I) * ((0 - 1 / 2 : ℝ) : ℂ)) := by push_cast; ring
      rw [this]
      refine mul_ne_zero ?_ (Complex.exp_ne_zero _)
      have h6 : 0 < (C + 2 * S) * (C + 2 * S) - S * S := by nlinarith [mul_pos hC0 hS0, mul_pos hC0 hC0, mul_pos hS0 hS0]
      exact_mod_cast h6.ne'
    have hl : ∀ i, i < 1 → 0 < ((fun _ : ℕ => 2 * I) i).im := by simp
    exact ⟨_, 1 / _, fun l hl => ⟨_, pcE_finite _ _, JFc.upper hl⟩, _, resD_ne hl (fun i j hi hj _ => by omega) one_pos hA,
      resD_deriv hl one_pos (pcA_continuous _).continuousAt, rfl⟩

end FNFT

import Verif.Proofs.KdvBase
import Verif.Proofs.NsevEval
/-!
# Proofs: `a`, `a'` and norming constants of the KdV at given points
-/
namespace FNFT
open Complex Matrix AknsDisc

local notation "mexp" => NormedSpace.exp

/-- The coefficient `a(λ)` of the slow discretization `d` for `D` (processed) samples; `E` is the matrix exponential. -/
noncomputable def Spec.kdvSlowA (E : Spec.M2 → Spec.M2) (d : AknsDisc) (vanilla : Bool) (D : ℕ) (T0 T1 eps : ℝ) (qf rf : ℕ → ℂ) (l : ℂ) : ℂ :=
  Spec.kdvA vanilla (fun l => Spec.slowStep E d eps (Spec.cfWeight d) qf rf l) (Spec.slowCount d D) T0 T1 eps l

theorem jostA_phiB (B : Spec.M2) (U : ℕ → Spec.M2) (N : ℕ) (T0 T1 h : ℝ) (l : ℂ) :
    exp (I * l * (T1 + h / 2 : ℝ)) * Spec.jostPhi B U (T0 - h / 2) l N 0 = Spec.jostA (B⁻¹ * Spec.chain U N * B) T0 T1 h l := by
  unfold Spec.jostPhi Spec.jostA
  rw [eq_div_iff (exp_ne_zero _), mul_comm, ← mul_assoc, ← exp_add, Matrix.mulVec_mulVec, Matrix.mulVec_mulVec, Matrix.mul_assoc]
  rw [show -I * l * (T1 + h / 2 : ℝ) + I * l * (T1 + h / 2 : ℝ) = 0 by ring, exp_zero, one_mul]

/-- `a'` as the program computes it. -/
noncomputable def kdvSlowA' (d : AknsDisc) (vanilla : Bool) (D : ℕ) (T0 T1 eps : ℝ) (qf rf : ℕ → ℂ) (l : ℂ) : ℂ :=
  exp (I * l * (T1 + eps / 2 : ℝ)) *
    (phiS' (basisTo eps d vanilla .KdV l) (basisTo' eps d vanilla .KdV l) (basisFrom eps d vanilla .KdV l) (basisFrom' eps d vanilla .KdV l)
      (Spec.slowStep expS d eps (Spec.cfWeight d) qf rf l) (slowStepD d eps (Spec.cfWeight d) qf rf l) (T0 - eps / 2) l (Spec.slowCount d D) 0 +
    I * (T1 + eps / 2 : ℝ) * phiS (basisTo eps d vanilla .KdV l) (basisFrom eps d vanilla .KdV l)
      (Spec.slowStep expS d eps (Spec.cfWeight d) qf rf l) (T0 - eps / 2) l (Spec.slowCount d D) 0)

/-- `a'` is the derivative of `a` if no exponent is in the region where Taylor polynomials are used. -/
theorem kdvSlowA'_deriv {d : AknsDisc} (hd : Spec.slow d) (vanilla : Bool) (D : ℕ) (T0 T1 eps : ℝ) (qf rf : ℕ → ℂ) {l : ℂ} (hl : l ≠ 0)
    (hreg : Spec.Regular d eps (Spec.cfWeight d) qf rf l (Spec.slowCount d D))
    (hone : ∀ n, n < Spec.slowCount d D → 1 ≤ ‖(Spec.mainExponent d eps (Spec.cfWeight d) qf rf n l).det‖) :
    HasDerivAt (Spec.kdvSlowA mexp d vanilla D T0 T1 eps qf rf) (kdvSlowA' d vanilla D T0 T1 eps qf rf l) l := by
  have hNear : Spec.NearExp expS := fun X hX => ⟨expS_exact hX, expS_near hX⟩
  have hU : ∀ n, n < Spec.slowCount d D → Spec.slowStep expS d eps (Spec.cfWeight d) qf rf l n =
      Spec.slowStep mexp d eps (Spec.cfWeight d) qf rf l n := fun n hn => slowStep_exact hNear hreg hn
  have hstep : ∀ n, n < Spec.slowCount d D → Spec.MDeriv (fun z => Spec.slowStep mexp d eps (Spec.cfWeight d) qf rf z n)
      (slowStepD d eps (Spec.cfWeight d) qf rf l n) l := fun n hn => step_deriv (hreg n hn) (hone n hn)
  obtain ⟨hB, hA⟩ := fromS_deriv hd eps vanilla .KdV l (fun _ => hl)
  have hk : decide (AknsPde.KdV = AknsPde.KdV) = true := rfl
  rw [hk] at hB hA
  have hS := MDeriv.mul (MDeriv.mul hA (MDeriv.chain (Spec.slowCount d D) hstep)) hB
  have hS00 := hS 0 0
  obtain ⟨t0, ht0⟩ : ∃ t : ℝ, t = T0 - eps / 2 := ⟨_, rfl⟩
  obtain ⟨tb, htb⟩ : ∃ t : ℝ, t = T1 + eps / 2 := ⟨_, rfl⟩
  have he0 : HasDerivAt (fun z : ℂ => exp (-I * z * t0)) (exp (-I * l * t0) * (-I * t0)) l := by
    have : HasDerivAt (fun z : ℂ => -I * z * t0) (-I * t0) l := by
      simpa using ((hasDerivAt_id l).const_mul (-I)).mul_const (t0 : ℂ)
    exact this.cexp
  have heb : HasDerivAt (fun z : ℂ => exp (I * z * tb)) (exp (I * l * tb) * (I * tb)) l := by
    have : HasDerivAt (fun z : ℂ => I * z * tb) (I * tb) l := by
      simpa using ((hasDerivAt_id l).const_mul I).mul_const (tb : ℂ)
    exact this.cexp
  have hall := heb.mul (hS00.mul he0)
  have haFun : ∀ z, Spec.kdvSlowA mexp d vanilla D T0 T1 eps qf rf z = exp (I * z * tb) * ((((Spec.fromS true vanilla z)⁻¹ *
      Spec.chain (Spec.slowStep mexp d eps (Spec.cfWeight d) qf rf z) (Spec.slowCount d D)) *
      Spec.fromS true vanilla z) 0 0 * exp (-I * z * t0)) := by
    intro z
    unfold Spec.kdvSlowA Spec.kdvA Spec.kdvS
    rw [← jostA_phiB, htb, ht0]
    congr 1
    unfold Spec.jostPhi
    rw [Matrix.mulVec_mulVec, Matrix.mulVec_mulVec]
    simp [Matrix.mulVec, dotProduct, Fin.sum_univ_two]
  obtain ⟨c1, c2⟩ := dchain_congr (U' := slowStepD d eps (Spec.cfWeight d) qf rf l) (V' := slowStepD d eps (Spec.cfWeight d) qf rf l)
    (Spec.slowCount d D) hU fun _ _ => rfl
  have hto : basisTo eps d vanilla .KdV l = (Spec.fromS true vanilla l)⁻¹ := slow_to hd eps vanilla .KdV l (fun _ => hl)
  have hfr : basisFrom eps d vanilla .KdV l = Spec.fromS true vanilla l := slow_from hd eps vanilla .KdV l
  have hval : phiS (basisTo eps d vanilla .KdV l) (basisFrom eps d vanilla .KdV l)
      (Spec.slowStep expS d eps (Spec.cfWeight d) qf rf l) t0 l (Spec.slowCount d D) 0 =
      (((Spec.fromS true vanilla l)⁻¹ *
      Spec.chain (Spec.slowStep mexp d eps (Spec.cfWeight d) qf rf l) (Spec.slowCount d D)) *
      Spec.fromS true vanilla l) 0 0 * exp (-I * l * t0) := by
    unfold phiS
    rw [c1, hto, hfr, Matrix.mulVec_mulVec, Matrix.mulVec_mulVec]
    simp [Matrix.mulVec, dotProduct, Fin.sum_univ_two]
  unfold kdvSlowA'
  rw [← ht0, ← htb]
  refine (hda hall (fun y => by rw [haFun]; rfl) ?_)
  have hder : phiS' (basisTo eps d vanilla .KdV l) (basisTo' eps d vanilla .KdV l)
      (basisFrom eps d vanilla .KdV l) (basisFrom' eps d vanilla .KdV l)
      (Spec.slowStep expS d eps (Spec.cfWeight d) qf rf l) (slowStepD d eps (Spec.cfWeight d) qf rf l) t0 l (Spec.slowCount d D) 0 =
      ((basisTo' eps d vanilla .KdV l * Spec.chain (Spec.slowStep mexp d eps (Spec.cfWeight d) qf rf l) (Spec.slowCount d D) +
        (Spec.fromS true vanilla l)⁻¹ *
          Spec.dchain (Spec.slowStep mexp d eps (Spec.cfWeight d) qf rf l) (slowStepD d eps (Spec.cfWeight d) qf rf l) (Spec.slowCount d D)) *
        Spec.fromS true vanilla l +
        (Spec.fromS true vanilla l)⁻¹ *
          Spec.chain (Spec.slowStep mexp d eps (Spec.cfWeight d) qf rf l) (Spec.slowCount d D) * basisFrom' eps d vanilla .KdV l) 0 0 *
        exp (-I * l * t0) +
      (((Spec.fromS true vanilla l)⁻¹ *
        Spec.chain (Spec.slowStep mexp d eps (Spec.cfWeight d) qf rf l) (Spec.slowCount d D)) *
        Spec.fromS true vanilla l) 0 0 * (exp (-I * l * t0) * (-I * t0)) := by
    unfold phiS'
    rw [c1, c2, hto, hfr]
    simp only [Matrix.mulVec_mulVec, Matrix.mulVec_add, Pi.add_apply, Matrix.add_mul, Matrix.add_apply, Matrix.mul_assoc]
    simp [Matrix.mulVec, dotProduct, Fin.sum_univ_two]
    ring
  rw [hval, hder, Pi.mul_apply]
  ring

theorem kdv_bs_eq {nd : KdvDisc} {d : AknsDisc} {v : ℕ} (hd : kdv_to_akns nd = .ok d) (hv : kdv_vanilla_flag nd = .ok v) (D : ℕ) (q r : Buf ℂ)
    (T0 T1 : ℝ) (K : ℕ) (bs a ap b : Option (Buf ℂ)) (W : Option (Buf ℤ)) (skip : ℕ) (gPHI gPSI : ℕ → ℤ) :
    kdv_scatter_bound_states D (some q) (some r) T0 T1 K bs a ap b W nd skip gPHI gPSI =
      (akns_scatter_bound_states D (some (swapIf v q r)) (some (swapIf v r q)) T0 T1 K bs a ap b W d .KdV v skip gPHI gPSI).map
        fun R => { R with ret := chk R.ret } := by
  unfold kdv_scatter_bound_states
  dsimp only
  rw [hv]
  dsimp only
  rw [hd]
  dsimp only
  unfold swapIf
  by_cases hv0 : v = 0
  · rw [if_neg (by simpa using hv0)]
    simp only [hv0, ne_eq, not_true_eq_false, if_false]
    cases akns_scatter_bound_states D (some r) (some q) T0 T1 K bs a ap b W d .KdV 0 skip gPHI gPSI <;> rfl
  · rw [if_pos hv0]
    simp only [ne_eq, hv0, not_false_eq_true, if_true]
    cases akns_scatter_bound_states D (some q) (some r) T0 T1 K bs a ap b W d .KdV v skip gPHI gPSI <;> rfl

theorem kdv_bound_ok {D Dg : ℕ} {q r : Buf ℂ} {qf rf : ℕ → ℂ} {K : ℕ} {bs : Buf ℂ} {lf : ℕ → ℂ}
    {a ap : Buf ℂ} {b : Option (Buf ℂ)} {W : Option (Buf ℤ)} {d : AknsDisc} {skip v : ℕ}
    (h : Spec.BoundArgs D Dg (swapIf v q r) (swapIf v r q) qf rf K bs lf a ap b W d .KdV skip) {nd : KdvDisc} (hnd : kdv_to_akns nd = .ok d)
    (hv : kdv_vanilla_flag nd = .ok v) (T0 T1 : ℝ) (gPHI gPSI : ℕ → ℤ) :
    let eps := (T1 - T0) / (Dg - 1)
    let U := fun l => Spec.slowStep expS d eps (Spec.cfWeight d) qf rf l
    let B := fun l => Spec.fromS true (decide (v ≠ 0)) l
    ∃ (res : BsRes) (wt : ℕ → ℤ) (u : ℕ → Option ℂ),
      kdv_scatter_bound_states D (some q) (some r) T0 T1 K (some bs) (some a) (some ap) b W nd skip gPHI gPSI = some res ∧
      res.ret = SUCCESS ∧
      (∀ i, i < K → (∃ x : ℝ, res.a.rd i = some (x : ℂ) ∧ (2 : ℝ) ^ wt i * x = (Spec.kdvSlowA expS d (v ≠ 0) D T0 T1 eps qf rf (lf i)).re) ∧
        ∃ x : ℝ, res.aprime.rd i = some (I * (x : ℂ)) ∧ (2 : ℝ) ^ wt i * x = (kdvSlowA' d (v ≠ 0) D T0 T1 eps qf rf (lf i)).im) ∧
      (skip = 0 → ∀ b0, b = some b0 → ∃ b', res.b = some b' ∧ b'.len = b0.len ∧
        (∀ i, i < K → b'.rd i = match u i with | none => b0.rd i | some x => some x) ∧ ∀ i, K ≤ i → b'.rd i = b0.rd i) ∧
      (∀ V, W = some V → ∃ V', res.Ws = some V' ∧ V'.len = V.len ∧ (∀ i, i < K → V'.rd i = some (wt i))) ∧
      (W = none → res.Ws = none ∧ ∀ i, wt i = 0) ∧
      ∀ i, i < K → skip = 0 → Spec.Best true (fun n => Spec.jostPhi (B (lf i)) (U (lf i)) (T0 - eps / 2) (lf i) (n * Spec.perSample d))
        (fun n => Spec.jostPsi (B (lf i)) (U (lf i)) (Spec.slowCount d D) (T1 + eps / 2) (lf i) (n * Spec.perSample d)) Dg (u i) := by
  intro eps U B
  obtain ⟨res, va, vap, w, u, h1, h2, h3, h3', h4, h5, h6, h7, h8, h9, h10⟩ := bound_states_ok h T0 T1 v gPHI gPSI
  have ht0 : T0 - eps / 2 = T0 - (T1 - T0) / ((Dg : ℝ) - 1) * ((1 / 2 : ℚ) : ℝ) := by
    rw [half_rat]; ring
  have htb : T1 + eps / 2 = T1 + (T1 - T0) / ((Dg : ℝ) - 1) * ((1 / 2 : ℚ) : ℝ) := by
    rw [half_rat]; ring
  have hN : Spec.slowCount d D = Dg * Spec.perSample d := count_eq h.hd h.hD
  rw [← ht0, ← htb, ← hN] at h10
  have hre : ∀ (w : ℤ) (z : ℂ), ((2 : ℂ) ^ w * z).re = (2 : ℝ) ^ w * z.re := fun w z => by
    have e : (2 : ℂ) ^ w = (((2 : ℝ) ^ w : ℝ) : ℂ) := by push_cast; rfl
    rw [e, Complex.re_ofReal_mul]
  have him : ∀ (w : ℤ) (z : ℂ), ((2 : ℂ) ^ w * z).im = (2 : ℝ) ^ w * z.im := fun w z => by
    have e : (2 : ℂ) ^ w = (((2 : ℝ) ^ w : ℝ) : ℂ) := by push_cast; rfl
    rw [e, Complex.im_ofReal_mul]
  refine ⟨{ res with ret := SUCCESS }, w, u, ?_, rfl, fun i hi => ?_, h7, ?_, h9, fun i hi hs => ?_⟩
  · rw [kdv_bs_eq hnd hv, h1, Option.map_some, h2]; rfl
  · obtain ⟨e1, e2⟩ := h4 i hi
    obtain ⟨r1, r2, -⟩ := h10 i hi
    have hx := fun hk => h.hx hk i hi
    refine ⟨⟨(va i).re, ?_, ?_⟩, ⟨(vap i).im, ?_, ?_⟩⟩
    · show res.a.rd i = _
      rw [e1]; rfl
    · rw [← hre, r1, (phiS_eq h.hd _ _ _ _ hx _ (Spec.slowCount d D) (T0 - eps / 2) (T1 + eps / 2) _).1]
      congr 1
      exact jostA_phiB _ _ _ _ _ _ _
    · show res.aprime.rd i = _
      rw [e2, if_pos rfl]
    · rw [← him, r2]
      rfl
  · intro V hV
    obtain ⟨V', v1, v2, v3, -⟩ := h8 V hV
    exact ⟨V', v1, v2, v3⟩
  · have hx := fun hk => h.hx hk i hi
    have := (h10 i hi).b (by simpa using hs)
    have hT : decide True = true := rfl
    simpa only [hT, (phiS_eq h.hd _ _ _ _ hx _ (Spec.slowCount d D) (T0 - eps / 2) (T1 + eps / 2) _).1,
      (phiS_eq h.hd _ _ _ _ hx _ (Spec.slowCount d D) (T0 - eps / 2) (T1 + eps / 2) _).2] using this

/-- At `λ = 0` there is no S basis: the function returns an error. -/
theorem kdv_bound_zero {D Dg : ℕ} {q r : Buf ℂ} {qf rf : ℕ → ℂ} {K : ℕ} {bs : Buf ℂ} {lf : ℕ → ℂ}
    {a ap : Buf ℂ} {b : Option (Buf ℂ)} {W : Option (Buf ℤ)} {d : AknsDisc} {skip v : ℕ}
    (hDg : 2 ≤ Dg) (hD : D = Dg * akns_upsampling_factor d) (hq : q.Holds 0 D qf) (hr : r.Holds 0 D rf) (hd : Spec.slow d)
    (hb : skip = 0 → b ≠ none) (hK : K = 1) (hl : bs.Holds 0 K lf) (h0 : lf 0 = 0) {nd : KdvDisc} (hnd : kdv_to_akns nd = .ok d)
    (hv : kdv_vanilla_flag nd = .ok v) (T0 T1 : ℝ) (gPHI gPSI : ℕ → ℤ) :
    ∃ res, kdv_scatter_bound_states D (some q) (some r) T0 T1 K (some bs) (some a) (some ap) b W nd skip gPHI gPSI = some res ∧
      res.ret = E_SUBROUTINE EC_DIV_BY_ZERO := by
  have hq' : (swapIf v q r).Holds 0 D (swapIf v qf rf) := by unfold swapIf; split_ifs <;> assumption
  have hr' : (swapIf v r q).Holds 0 D (swapIf v rf qf) := by unfold swapIf; split_ifs <;> assumption
  obtain ⟨T, hT1, hT⟩ := bsPre_ok hd hD hq' hr' ((T1 - T0) / (Dg - 1)) (decide (skip ≠ 0))
  have hbc : akns_boundary_coeff d = some (1 / 2) := by
    rcases hd with rfl | rfl | rfl | rfl | rfl | rfl | rfl <;> rfl
  have hup : akns_upsampling_factor d ≠ 0 := by
    rcases hd with rfl | rfl | rfl | rfl | rfl | rfl | rfl <;> simp [akns_upsampling_factor]
  have hdiv : D / akns_upsampling_factor d = Dg := by rw [hD, Nat.mul_div_cancel _ (Nat.pos_of_ne_zero hup)]
  have hmod : D % akns_upsampling_factor d = 0 := by rw [hD]; simp
  have hD0 : D ≠ 0 := by rw [hD]; exact Nat.mul_ne_zero (by omega) hup
  have hrd : bs.rd 0 = some 0 := by have := hl 0 (by omega); rw [Nat.zero_add, h0] at this; exact this
  refine ⟨⟨chk (E_SUBROUTINE (E_SUBROUTINE EC_DIV_BY_ZERO)), a, ap, b, W⟩, ?_, rfl⟩
  rw [kdv_bs_eq hnd hv]
  unfold akns_scatter_bound_states
  dsimp only
  rw [if_neg hD0, if_neg (by omega), if_neg (by rintro ⟨c1, c2⟩; exact hb c1 c2), if_neg hup, hbc]
  dsimp only
  rw [if_neg (by simpa using hmod), if_neg (by simp), hdiv, if_neg (by omega), hT1]
  simp only [Option.bind_eq_bind, Option.bind_some, hK]
  have e : ∀ (body : ℕ → BsRes → Option BsRes) (s : BsRes), forLoop 1 body s = body 0 s := fun body s => by
    simp [forLoop]
  rw [e]
  unfold bsOne
  have hB : akns_basis_from_S 0 true ((T1 - T0) / ((Dg : ℝ) - 1)) d (decide (v ≠ 0)) .KdV = .error (E_SUBROUTINE EC_DIV_BY_ZERO) := by
    unfold akns_basis_from_S
    rw [if_pos rfl]
  rw [if_neg (by simp), hrd]
  simp only [Option.bind_eq_bind, Option.bind_some, hB, Option.pure_def, Option.map_some]

end FNFT

import Verif.Proofs.NsevNewton
import Verif.Proofs.NsevBase
import Verif.Props.AknsBound
/-!
# Proofs: `a`, `a'` and norming constants of the NSE at given points
-/
namespace FNFT
open Complex Matrix AknsDisc

local notation "mexp" => NormedSpace.exp

/-- The coefficient `a(λ)` of the slow discretization `d` for `D` (processed) samples; `E` is the matrix exponential. -/
noncomputable def Spec.slowA (E : Spec.M2 → Spec.M2) (d : AknsDisc) (D : ℕ) (T0 T1 eps : ℝ) (qf rf : ℕ → ℂ) (l : ℂ) : ℂ :=
  Spec.jostA (Spec.chain (Spec.slowStep E d eps (Spec.cfWeight d) qf rf l) (Spec.slowCount d D)) T0 T1 eps l

/-- `y` is the derivative of `a` at `l`: exactly if no exponent is in the region where Taylor polynomials are used; in general it is
obtained by the product rule from one-step derivatives that are correct up to `Spec.derivTol` (if no exponent has determinant
zero). -/
structure Spec.DerivA (E : Spec.M2 → Spec.M2) (d : AknsDisc) (D : ℕ) (T0 T1 eps : ℝ) (qf rf : ℕ → ℂ) (l y : ℂ) : Prop where
  exact' : Spec.Regular d eps (Spec.cfWeight d) qf rf l (Spec.slowCount d D) →
    (∀ n, n < Spec.slowCount d D → 1 ≤ ‖(Spec.mainExponent d eps (Spec.cfWeight d) qf rf n l).det‖) →
    HasDerivAt (Spec.slowA mexp d D T0 T1 eps qf rf) y l
  near : (∀ n, n < Spec.slowCount d D → (Spec.mainExponent d eps (Spec.cfWeight d) qf rf n l).det ≠ 0) →
    ∃ V : ℕ → Spec.M2, (∀ n, n < Spec.slowCount d D → Spec.NearDeriv (V n) (Spec.mainExponent d eps (Spec.cfWeight d) qf rf n) l) ∧
      let U := Spec.slowStep E d eps (Spec.cfWeight d) qf rf l
      let U' := fun n => ((Spec.outerExponents d eps qf rf n).1.map E).prod * V n * ((Spec.outerExponents d eps qf rf n).2.map E).prod
      y = exp (I * l * (T1 - T0 + eps : ℝ)) * (Spec.dchain U U' (Spec.slowCount d D) 0 0 +
        I * (T1 - T0 + eps : ℝ) * Spec.chain U (Spec.slowCount d D) 0 0)

theorem nse_from {d : AknsDisc} (hd : Spec.slow d) (eps : ℝ) (l : ℂ) :
    basisFrom eps d false .NSE l = 1 ∧ basisTo eps d false .NSE l = 1 ∧ basisFrom' eps d false .NSE l = 0 ∧
      basisTo' eps d false .NSE l = 0 := by
  obtain ⟨h1, h2⟩ := fromS_deriv hd eps false .NSE l (fun h => by cases h)
  have hf : ∀ z, Spec.fromS (decide (AknsPde.NSE = .KdV)) false z = 1 := fun z => rfl
  refine ⟨?_, ?_, ?_, ?_⟩
  · rw [slow_from hd]; rfl
  · rw [slow_to hd eps false .NSE l (fun h => by cases h)]
    show (1 : Spec.M2)⁻¹ = 1
    rw [inv_one]
  · ext i j
    have := h1 i j
    simp only [hf] at this
    exact this.unique (hasDerivAt_const _ _)
  · ext i j
    have := h2 i j
    simp only [hf, inv_one] at this
    exact this.unique (hasDerivAt_const _ _)

theorem jostA_phi (U : ℕ → Spec.M2) (N : ℕ) (T0 T1 h : ℝ) (l : ℂ) :
    exp (I * l * (T1 + h / 2 : ℝ)) * Spec.jostPhi 1 U (T0 - h / 2) l N 0 = Spec.jostA (Spec.chain U N) T0 T1 h l := by
  unfold Spec.jostPhi Spec.jostA
  rw [inv_one, Matrix.one_mulVec, Matrix.one_mulVec, eq_div_iff (exp_ne_zero _), mul_comm, ← mul_assoc, ← exp_add]
  rw [show -I * l * (T1 + h / 2 : ℝ) + I * l * (T1 + h / 2 : ℝ) = 0 by ring, exp_zero, one_mul]

/-- `a'` as the program computes it. -/
noncomputable def slowA' (d : AknsDisc) (D : ℕ) (T0 T1 eps : ℝ) (qf rf : ℕ → ℂ) (l : ℂ) : ℂ :=
  exp (I * l * (T1 - T0 + eps : ℝ)) * (Spec.dchain (Spec.slowStep expS d eps (Spec.cfWeight d) qf rf l)
    (slowStepD d eps (Spec.cfWeight d) qf rf l) (Spec.slowCount d D) 0 0 +
      I * (T1 - T0 + eps : ℝ) * Spec.chain (Spec.slowStep expS d eps (Spec.cfWeight d) qf rf l) (Spec.slowCount d D) 0 0)

theorem nse_bound_ok {D Dg : ℕ} {q r : Buf ℂ} {qf rf : ℕ → ℂ} {K : ℕ} {bs : Buf ℂ} {lf : ℕ → ℂ}
    {a ap : Buf ℂ} {b : Option (Buf ℂ)} {W : Option (Buf ℤ)} {d : AknsDisc} {skip : ℕ}
    (h : Spec.BoundArgs D Dg q r qf rf K bs lf a ap b W d .NSE skip) {nd : NseDisc} (hnd : nse_to_akns nd = .ok d) (T0 T1 : ℝ)
    (gPHI gPSI : ℕ → ℤ) :
    let eps := (T1 - T0) / (Dg - 1)
    let U := fun l => Spec.slowStep expS d eps (Spec.cfWeight d) qf rf l
    ∃ (res : BsRes) (wt : ℕ → ℤ) (v : ℕ → Option ℂ),
      nse_scatter_bound_states D (some q) (some r) T0 T1 K (some bs) (some a) (some ap) b W nd skip gPHI gPSI = some res ∧
      res.ret = SUCCESS ∧
      (∀ i, i < K → (∃ x, res.a.rd i = some x ∧ (2 : ℂ) ^ wt i * x = Spec.slowA expS d D T0 T1 eps qf rf (lf i)) ∧
        ∃ x, res.aprime.rd i = some x ∧ (2 : ℂ) ^ wt i * x = slowA' d D T0 T1 eps qf rf (lf i)) ∧
      (skip = 0 → ∀ b0, b = some b0 → ∃ b', res.b = some b' ∧ b'.len = b0.len ∧
        (∀ i, i < K → b'.rd i = match v i with | none => b0.rd i | some x => some x) ∧ ∀ i, K ≤ i → b'.rd i = b0.rd i) ∧
      (∀ V, W = some V → ∃ V', res.Ws = some V' ∧ V'.len = V.len ∧ (∀ i, i < K → V'.rd i = some (wt i))) ∧
      (W = none → res.Ws = none ∧ ∀ i, wt i = 0) ∧
      ∀ i, i < K → skip = 0 → Spec.Best false (fun n => Spec.jostPhi 1 (U (lf i)) (T0 - eps / 2) (lf i) (n * Spec.perSample d))
        (fun n => Spec.jostPsi 1 (U (lf i)) (Spec.slowCount d D) (T1 + eps / 2) (lf i) (n * Spec.perSample d)) Dg (v i) := by
  intro eps U
  obtain ⟨res, va, vap, w, v, h1, h2, h3, h3', h4, h5, h6, h7, h8, h9, h10⟩ := bound_states_ok h T0 T1 0 gPHI gPSI
  have ht0 : T0 - eps / 2 = T0 - (T1 - T0) / ((Dg : ℝ) - 1) * ((1 / 2 : ℚ) : ℝ) := by
    rw [half_rat]; ring
  have htb : T1 + eps / 2 = T1 + (T1 - T0) / ((Dg : ℝ) - 1) * ((1 / 2 : ℚ) : ℝ) := by
    rw [half_rat]; ring
  have hN : Spec.slowCount d D = Dg * Spec.perSample d := count_eq h.hd h.hD
  rw [← ht0, ← htb, ← hN] at h10
  have hF := fun l => nse_from h.hd eps l
  have hdec : decide ((0 : ℕ) ≠ 0) = false := rfl
  have hk : decide (AknsPde.NSE = AknsPde.KdV) = false := rfl
  simp only [hdec, hk] at h10 h4
  have hone : (1 : Spec.M2)⁻¹ = 1 := inv_one
  have hphi : ∀ l k, phiS 1 1 (U l) (T0 - eps / 2) l k = Spec.jostPhi 1 (U l) (T0 - eps / 2) l k := fun l k => by
    unfold phiS Spec.jostPhi; rw [hone]
  have hpsi : ∀ l k, psiS 1 1 (U l) (Spec.slowCount d D) (T1 + eps / 2) l k =
      Spec.jostPsi 1 (U l) (Spec.slowCount d D) (T1 + eps / 2) l k := fun l k => by
    unfold psiS Spec.jostPsi; rw [hone]
  refine ⟨{ res with ret := SUCCESS }, w, v, ?_, rfl, fun i hi => ?_, h7, ?_, h9, fun i hi hs => ?_⟩
  · unfold nse_scatter_bound_states
    rw [hnd]
    dsimp only
    rw [h1]
    simp only [Option.bind_eq_bind, Option.bind_some, h2, if_true]
    rfl
  · obtain ⟨e1, e2⟩ := h4 i hi
    obtain ⟨r1, r2, -⟩ := h10 i hi
    obtain ⟨f1, f2, f3, f4⟩ := hF (lf i)
    have f1' : basisFrom ((T1 - T0) / ((Dg : ℝ) - 1)) d false .NSE (lf i) = 1 := f1
    have f2' : basisTo ((T1 - T0) / ((Dg : ℝ) - 1)) d false .NSE (lf i) = 1 := f2
    have f3' : basisFrom' ((T1 - T0) / ((Dg : ℝ) - 1)) d false .NSE (lf i) = 0 := f3
    have f4' : basisTo' ((T1 - T0) / ((Dg : ℝ) - 1)) d false .NSE (lf i) = 0 := f4
    rw [f1', f2'] at r1
    rw [f1', f2', f3', f4'] at r2
    refine ⟨⟨_, e1, ?_⟩, ⟨_, e2, ?_⟩⟩
    · have : (2 : ℂ) ^ w i * va i = exp (I * lf i * (T1 + eps / 2 : ℝ)) * phiS 1 1 (U (lf i)) (T0 - eps / 2) (lf i) (Spec.slowCount d D) 0 := r1
      show (2 : ℂ) ^ w i * va i = _
      rw [this, hphi, jostA_phi]; rfl
    · have : (2 : ℂ) ^ w i * vap i = exp (I * lf i * (T1 + eps / 2 : ℝ)) * (phiS' 1 0 1 0 (U (lf i)) (slowStepD d eps (Spec.cfWeight d) qf rf (lf i))
        (T0 - eps / 2) (lf i) (Spec.slowCount d D) 0 + I * (T1 + eps / 2 : ℝ) * phiS 1 1 (U (lf i)) (T0 - eps / 2) (lf i) (Spec.slowCount d D) 0) := r2
      rw [if_neg (by decide), this]
      unfold phiS' phiS slowA'
      simp only [Matrix.zero_mulVec, Matrix.one_mulVec, zero_add]
      have hexp : exp (I * lf i * (T1 - T0 + eps : ℝ)) = exp (I * lf i * (T1 + eps / 2 : ℝ)) * exp (-I * lf i * (T0 - eps / 2 : ℝ)) := by
        rw [← exp_add]; congr 1; push_cast; ring
      rw [hexp]
      simp only [Matrix.mulVec, dotProduct, Fin.sum_univ_two, Pi.add_apply, Matrix.cons_val_zero, Matrix.cons_val_one, mul_zero, add_zero]
      push_cast
      ring
  · intro V hV
    obtain ⟨V', v1, v2, v3, -⟩ := h8 V hV
    exact ⟨V', v1, v2, v3⟩
  · obtain ⟨f1, f2, f3, f4⟩ := hF (lf i)
    have f1' : basisFrom ((T1 - T0) / ((Dg : ℝ) - 1)) d false .NSE (lf i) = 1 := f1
    have f2' : basisTo ((T1 - T0) / ((Dg : ℝ) - 1)) d false .NSE (lf i) = 1 := f2
    have := (h10 i hi).b (by simpa using hs)
    rw [f1', f2'] at this
    have this : Spec.Best false (fun n => phiS 1 1 (U (lf i)) (T0 - eps / 2) (lf i) (n * Spec.perSample d))
      (fun n => psiS 1 1 (U (lf i)) (Spec.slowCount d D) (T1 + eps / 2) (lf i) (n * Spec.perSample d)) Dg (v i) := this
    simpa only [hphi, hpsi] using this

theorem step_deriv {d : AknsDisc} {eps : ℝ} {qf rf : ℕ → ℂ} {l : ℂ} {n : ℕ}
    (hreg : ∀ X ∈ Spec.slowExponents d eps (Spec.cfWeight d) qf rf l n, X.det = 0 ∨ 1e-16 ≤ ‖X.det‖)
    (hone : 1 ≤ ‖(Spec.mainExponent d eps (Spec.cfWeight d) qf rf n l).det‖) :
    Spec.MDeriv (fun z => Spec.slowStep mexp d eps (Spec.cfWeight d) qf rf z n) (slowStepD d eps (Spec.cfWeight d) qf rf l n) l := by
  have hNear : Spec.NearExp expS := fun X hX => ⟨expS_exact hX, expS_near hX⟩
  obtain ⟨V, hV, v2⟩ := slowStepD_near d eps (Spec.cfWeight d) qf rf l n (fun h0 => by
    rw [h0, norm_zero] at hone; norm_num at hone)
  obtain ⟨X', F', -, f2, -, f4⟩ := hV
  have hEx : ∀ X ∈ Spec.slowExponents d eps (Spec.cfWeight d) qf rf l n, expS X = mexp X :=
    fun X hX => (hNear X (slowExponents_traceless hX)).1 (hreg X hX)
  have hO1 : (Spec.outerExponents d eps qf rf n).1.map expS = (Spec.outerExponents d eps qf rf n).1.map mexp :=
    List.map_congr_left fun X hX => hEx X (by rw [slowExponents_split]; simp [hX])
  have hO2 : (Spec.outerExponents d eps qf rf n).2.map expS = (Spec.outerExponents d eps qf rf n).2.map mexp :=
    List.map_congr_left fun X hX => hEx X (by rw [slowExponents_split]; simp [hX])
  rw [v2, f4 hone, hO1, hO2]
  have := MDeriv.mul (MDeriv.mul (MDeriv.const ((Spec.outerExponents d eps qf rf n).1.map mexp).prod l) f2)
    (MDeriv.const ((Spec.outerExponents d eps qf rf n).2.map mexp).prod l)
  simp only [Matrix.zero_mul, zero_add, Matrix.mul_zero, add_zero] at this
  have e : (fun z => Spec.slowStep mexp d eps (Spec.cfWeight d) qf rf z n) = fun z =>
      ((Spec.outerExponents d eps qf rf n).1.map mexp).prod * mexp (Spec.mainExponent d eps (Spec.cfWeight d) qf rf n z) *
        ((Spec.outerExponents d eps qf rf n).2.map mexp).prod := by
    funext z
    rw [slowStep_prod, slowExponents_split]; simp [Matrix.mul_assoc]
  rw [e]
  exact this

theorem slowA_alt (S : Spec.M2) (T0 T1 h : ℝ) (l : ℂ) :
    Spec.jostA S T0 T1 h l = exp (I * l * (T1 - T0 + h : ℝ)) * S 0 0 := by
  unfold Spec.jostA
  rw [div_eq_mul_inv, ← exp_neg]
  simp only [Matrix.mulVec, dotProduct, Fin.sum_univ_two, Matrix.cons_val_zero, Matrix.cons_val_one, mul_zero, add_zero]
  have : exp (I * l * (T1 - T0 + h : ℝ)) = exp (-I * l * (T0 - h / 2 : ℝ)) * exp (-(-I * l * (T1 + h / 2 : ℝ))) := by
    rw [← exp_add]; congr 1; push_cast; ring
  rw [this]; ring

/-- `a'` is the derivative of `a`. -/
theorem slowA'_deriv (d : AknsDisc) (D : ℕ) (T0 T1 eps : ℝ) (qf rf : ℕ → ℂ) (l : ℂ) :
    Spec.DerivA expS d D T0 T1 eps qf rf l (slowA' d D T0 T1 eps qf rf l) := by
  constructor
  · intro hreg hone
    have hNear : Spec.NearExp expS := fun X hX => ⟨expS_exact hX, expS_near hX⟩
    have hU : ∀ n, n < Spec.slowCount d D → Spec.slowStep expS d eps (Spec.cfWeight d) qf rf l n =
        Spec.slowStep mexp d eps (Spec.cfWeight d) qf rf l n := fun n hn => slowStep_exact hNear hreg hn
    have hstep : ∀ n, n < Spec.slowCount d D → Spec.MDeriv (fun z => Spec.slowStep mexp d eps (Spec.cfWeight d) qf rf z n)
        (slowStepD d eps (Spec.cfWeight d) qf rf l n) l := fun n hn => step_deriv (hreg n hn) (hone n hn)
    have hc := MDeriv.chain (Spec.slowCount d D) hstep 0 0
    obtain ⟨c1, c2⟩ := dchain_congr (U' := slowStepD d eps (Spec.cfWeight d) qf rf l) (V' := slowStepD d eps (Spec.cfWeight d) qf rf l)
      (Spec.slowCount d D) hU fun _ _ => rfl
    unfold slowA'
    rw [c1, c2]
    have he : HasDerivAt (fun z : ℂ => exp (I * z * (T1 - T0 + eps : ℝ))) (exp (I * l * (T1 - T0 + eps : ℝ)) * (I * (T1 - T0 + eps : ℝ))) l := by
      have : HasDerivAt (fun z : ℂ => I * z * (T1 - T0 + eps : ℝ)) (I * (T1 - T0 + eps : ℝ)) l := by
        simpa using ((hasDerivAt_id l).const_mul I).mul_const ((T1 - T0 + eps : ℝ) : ℂ)
      exact this.cexp
    refine hda (he.mul hc) (fun z => ?_) (by ring)
    unfold Spec.slowA
    rw [slowA_alt]; rfl
  · intro h0
    choose! V hV using fun n (hn : n < Spec.slowCount d D) => slowStepD_near d eps (Spec.cfWeight d) qf rf l n (h0 n hn)
    refine ⟨V, fun n hn => (hV n hn).1, ?_⟩
    intro U U'
    unfold slowA'
    rw [(dchain_congr (Spec.slowCount d D) (fun _ _ => rfl) fun n hn => (hV n hn).2).2]

/-! ## Newton's method for `a` -/

/-- The slow discretization that is used for Newton's method and the norming constants. -/
def Spec.baseOf (a : AknsDisc) : AknsDisc :=
  match a with
  | .D4SPLIT4A | .D4SPLIT4B => .CF4_2
  | .BO | .CF4_2 | .CF4_3 | .CF5_3 | .CF6_4 | .ES4 | .TES4 => a
  | _ => .BO

theorem baseOf_ok {d : NseDisc} {a : AknsDisc} (h : nse_to_akns d = .ok a) :
    nse_to_akns (nsevBaseDisc d) = .ok (Spec.baseOf a) ∧ Spec.slow (Spec.baseOf a) ∧
      akns_upsampling_factor (Spec.baseOf a) = akns_upsampling_factor a := by
  cases d <;> simp only [nse_to_akns] at h <;> cases h <;>
    simp [nsevBaseDisc, nse_upsampling_factor, nse_degree, nse_to_akns, akns_upsampling_factor, akns_degree, Spec.baseOf, Spec.slow]

variable {D Dg : ℕ} {q r : Buf ℂ} {qf rf : ℕ → ℂ} {T0 T1 eps : ℝ} {kappa : ℤ} {o : NsevOpts} {a : AknsDisc}

theorem newtonEval_ok (h : BaseArgs D Dg q r qf rf T0 T1 eps kappa o a) (nrm : Bool) (g : Garbage) :
    ∃ w : ℂ → ℤ, (nrm = false → ∀ l, w l = 0) ∧
      EvalSpec (newtonEval D (some q) (some r) T0 T1 (nsevBaseDisc o.disc) nrm g)
        (Spec.slowA expS (Spec.baseOf a) D T0 T1 eps qf rf) (slowA' (Spec.baseOf a) D T0 T1 eps qf rf) w := by
  obtain ⟨b1, b2, b3⟩ := baseOf_ok h.hd
  have key : ∀ l : ℂ, ∃ (w : ℤ) (x x' : ℂ), (nrm = false → w = 0) ∧
      newtonEval D (some q) (some r) T0 T1 (nsevBaseDisc o.disc) nrm g l = some (.ok (x, x')) ∧
      (2 : ℂ) ^ w * x = Spec.slowA expS (Spec.baseOf a) D T0 T1 eps qf rf l ∧
      (2 : ℂ) ^ w * x' = slowA' (Spec.baseOf a) D T0 T1 eps qf rf l := by
    intro l
    have hargs : Spec.BoundArgs D Dg q r qf rf 1 (Buf.ofList [l]) (fun _ => l) (Buf.malloc 1) (Buf.malloc 1) none
        (if nrm then some (Buf.ofList [0]) else none) (Spec.baseOf a) .NSE 1 :=
      { hDg := h.hDg2, hD := by rw [b3]; exact h.hDg, hq := h.hq, hr := h.hr, hK := by omega,
        hl := fun i hi => by
          obtain rfl : i = 0 := by omega
          rw [Buf.rd_ofList]; rfl
        hd := b2, hp := Or.inr rfl, hx := fun h => (by cases h), ha := le_rfl, hap := le_rfl, hb := fun h => (by cases h),
        hW := fun V hV => by
          cases nrm
          · cases hV
          · cases hV; simp }
    obtain ⟨res, wt, v, e1, e2, e3, -, -, e5, -⟩ := nse_bound_ok hargs b1 T0 T1 (g 0) (g 1)
    obtain ⟨⟨x, x1, x2⟩, ⟨x', y1, y2⟩⟩ := e3 0 (by omega)
    rw [← h.heps] at x2 y2
    refine ⟨wt 0, x, x', fun hn => ?_, ?_, x2, y2⟩
    · subst hn
      exact (e5 rfl).2 0
    · unfold newtonEval
      simp only [e1, Option.bind_eq_bind, Option.bind_some, e2, ne_eq, not_true_eq_false, if_false, x1, y1]
      rfl
  choose w x x' k1 k2 k3 k4 using key
  exact ⟨w, fun hn l => k1 l hn, fun l => ⟨x l, x' l, k2 l, k3 l, k4 l⟩⟩

end FNFT

import Verif.Proofs.Darboux
/-!
# The Darboux transform of a family of Jost solutions
-/
namespace FNFT
open Complex Filter Spec

local notation "conj" => starRingEnd ℂ

/-- A potential with its Jost solutions and scattering data. -/
structure JF (E : Set ℝ) (q : ℝ → ℂ) (phi psi : ℂ → ℝ → ℂ × ℂ) (a : ℂ → ℂ) (b : ℝ → ℂ) : Prop where
  left : ∀ l : ℂ, 0 ≤ l.im → JostLeft E q l (phi l)
  right : ∀ l : ℂ, 0 ≤ l.im → JostRight E q l (psi l)
  phi1 : ∀ l : ℂ, 0 ≤ l.im → ExpTo atTop (fun t => (phi l t).1 * exp (I * l * t)) (a l)
  phi2 : ∀ l : ℂ, 0 < l.im → ExpTo atTop (fun t => (phi l t).2 * exp (I * l * t)) 0
  psi1 : ∀ l : ℂ, 0 < l.im → ExpTo atBot (fun t => (psi l t).1 * exp (-I * l * t)) 0
  psi2 : ∀ l : ℂ, 0 < l.im → ExpTo atBot (fun t => (psi l t).2 * exp (-I * l * t)) (a l)
  wron : ∀ l : ℂ, 0 ≤ l.im → ∀ t, (phi l t).1 * (psi l t).2 - (phi l t).2 * (psi l t).1 = a l
  phib : ∀ l : ℝ, ExpTo atTop (fun t => (phi l t).2 * exp (-I * l * t)) (b l)
  dec : Decays q

theorem ZS.cont1 {E : Set ℝ} {q : ℝ → ℂ} {l : ℂ} {v : ℝ → ℂ × ℂ} (h : ZS E q l v) : Continuous fun t => (v t).1 := continuous_fst.comp h.1
theorem ZS.cont2 {E : Set ℝ} {q : ℝ → ℂ} {l : ℂ} {v : ℝ → ℂ × ℂ} (h : ZS E q l v) : Continuous fun t => (v t).2 := continuous_snd.comp h.1

theorem ZS.comb {E : Set ℝ} {q : ℝ → ℂ} {l : ℂ} {v w : ℝ → ℂ × ℂ} (h : ZS E q l v) (hw : ZS E q l w) (b : ℂ) :
    ZS E q l fun t => ((v t).1 - b * (w t).1, (v t).2 - b * (w t).2) := by
  refine ⟨?_, fun t ht => ⟨?_, ?_⟩⟩
  · exact Continuous.prodMk ((ZS.cont1 h).sub (continuous_const.mul (ZS.cont1 hw))) ((ZS.cont2 h).sub (continuous_const.mul (ZS.cont2 hw)))
  · refine HasDerivAt.congr_deriv (HasDerivAt.sub (h.2 t ht).1 (HasDerivAt.const_mul b (hw.2 t ht).1)) ?_
    dsimp only; ring
  · refine HasDerivAt.congr_deriv (HasDerivAt.sub (h.2 t ht).2 (HasDerivAt.const_mul b (hw.2 t ht).2)) ?_
    dsimp only; ring

theorem ZS.smul {E : Set ℝ} {q : ℝ → ℂ} {l : ℂ} {v : ℝ → ℂ × ℂ} (h : ZS E q l v) (c : ℂ) :
    ZS E q l fun t => (c * (v t).1, c * (v t).2) := by
  refine ⟨?_, fun t ht => ⟨?_, ?_⟩⟩
  · exact Continuous.prodMk (continuous_const.mul (ZS.cont1 h)) (continuous_const.mul (ZS.cont2 h))
  · refine HasDerivAt.congr_deriv (HasDerivAt.const_mul c (h.2 t ht).1) ?_
    dsimp only; ring
  · refine HasDerivAt.congr_deriv (HasDerivAt.const_mul c (h.2 t ht).2) ?_
    dsimp only; ring

theorem dN_cont {v : ℝ → ℂ × ℂ} (hv : Continuous v) : Continuous fun t => dN (v t) := by
  unfold dN
  have c1 := continuous_fst.comp hv
  have c2 := continuous_snd.comp hv
  exact (c1.mul (continuous_conj.comp c1)).add (c2.mul (continuous_conj.comp c2))

theorem dS1_cont {m : ℂ} {v : ℝ → ℂ × ℂ} (hv : Continuous v) (h0 : ∀ t, v t ≠ 0) : Continuous fun t => dS1 m (v t) := by
  unfold dS1
  have c1 := continuous_fst.comp hv
  have c2 := continuous_snd.comp hv
  exact Continuous.div₀ ((continuous_const.mul (c1.mul (continuous_conj.comp c1))).add (continuous_const.mul (c2.mul (continuous_conj.comp c2))))
    (dN_cont hv) fun t => dN_ne (h0 t)

theorem dS2_cont {m : ℂ} {v : ℝ → ℂ × ℂ} (hv : Continuous v) (h0 : ∀ t, v t ≠ 0) : Continuous fun t => dS2 m (v t) := by
  unfold dS2
  have c1 := continuous_fst.comp hv
  have c2 := continuous_snd.comp hv
  exact Continuous.div₀ (continuous_const.mul (c1.mul (continuous_conj.comp c2))) (dN_cont hv) fun t => dN_ne (h0 t)

/-- The transform of a solution. -/
theorem ZS.darboux {E : Set ℝ} {q : ℝ → ℂ} {m l : ℂ} {v w : ℝ → ℂ × ℂ} (h : ZS E q m v) (hv : ∀ t, v t ≠ 0) (hw : ZS E q l w) :
    ZS E (fun t => q t - 2 * I * dS2 m (v t)) l (fun t => dApp l (dS1 m (v t)) (dS2 m (v t)) (w t)) := by
  refine ⟨?_, fun t ht => ?_⟩
  · have s1 := dS1_cont (m := m) h.1 hv
    have s2 := dS2_cont (m := m) h.1 hv
    unfold dApp
    exact Continuous.prodMk (((continuous_const.sub s1).mul (ZS.cont1 hw)).sub (s2.mul (ZS.cont2 hw)))
      (((continuous_conj.comp s2).mul (ZS.cont1 hw)).add ((continuous_const.sub (continuous_conj.comp s1)).mul (ZS.cont2 hw)))
  · exact ZSAt.darboux (h.2 t ht) (hv t) (hw.2 t ht)

theorem dS1_smul (m c : ℂ) (hc : c ≠ 0) (v : ℂ × ℂ) : dS1 m (v.1 * c, v.2 * c) = dS1 m v := by
  unfold dS1 dN
  dsimp only
  have hc' : conj c ≠ 0 := by simpa using hc
  have e1 : m * (v.1 * c * conj (v.1 * c)) + conj m * (v.2 * c * conj (v.2 * c)) =
      (m * (v.1 * conj v.1) + conj m * (v.2 * conj v.2)) * (c * conj c) := by simp only [map_mul]; ring
  have e2 : v.1 * c * conj (v.1 * c) + v.2 * c * conj (v.2 * c) = (v.1 * conj v.1 + v.2 * conj v.2) * (c * conj c) := by
    simp only [map_mul]; ring
  rw [e1, e2, mul_div_mul_right _ _ (mul_ne_zero hc hc')]

theorem dS2_smul (m c : ℂ) (hc : c ≠ 0) (v : ℂ × ℂ) : dS2 m (v.1 * c, v.2 * c) = dS2 m v := by
  unfold dS2 dN
  dsimp only
  have hc' : conj c ≠ 0 := by simpa using hc
  have e1 : (m - conj m) * (v.1 * c * conj (v.2 * c)) = (m - conj m) * (v.1 * conj v.2) * (c * conj c) := by simp only [map_mul]; ring
  have e2 : v.1 * c * conj (v.1 * c) + v.2 * c * conj (v.2 * c) = (v.1 * conj v.1 + v.2 * conj v.2) * (c * conj c) := by
    simp only [map_mul]; ring
  rw [e1, e2, mul_div_mul_right _ _ (mul_ne_zero hc hc')]

/-- Limits of the entries of the Darboux matrix, if the (scaled) solution tends to `(A, B)`. -/
theorem dS_lim {l : Filter ℝ} (hl : Far l) {m A B : ℂ} {v : ℝ → ℂ × ℂ} {g : ℝ → ℂ} (hg : ∀ t, g t ≠ 0)
    (h1 : ExpTo l (fun t => (v t).1 * g t) A) (h2 : ExpTo l (fun t => (v t).2 * g t) B) (hAB : (A, B) ≠ (0 : ℂ × ℂ)) :
    ExpTo l (fun t => dS1 m (v t)) (dS1 m (A, B)) ∧ ExpTo l (fun t => dS2 m (v t)) (dS2 m (A, B)) := by
  have hN := dN_ne hAB
  have n1 := h1.mul h1.conj
  have n2 := h2.mul h2.conj
  have n3 := h1.mul h2.conj
  have nN := n1.add n2
  constructor
  · refine (((n1.const_mul m).add (n2.const_mul (conj m))).div hl nN hN).congr (Eventually.of_forall fun t => ?_)
    exact dS1_smul m (g t) (hg t) (v t)
  · refine ((n3.const_mul (m - conj m)).div hl nN hN).congr (Eventually.of_forall fun t => ?_)
    exact dS2_smul m (g t) (hg t) (v t)

theorem dS1_first (m : ℂ) {A : ℂ} (hA : A ≠ 0) : dS1 m (A, 0) = m := by
  unfold dS1 dN
  have hA' : conj A ≠ 0 := by simpa using hA
  simp only [map_zero, mul_zero, add_zero]
  exact mul_div_cancel_right₀ _ (mul_ne_zero hA hA')

theorem dS1_second (m : ℂ) {A : ℂ} (hA : A ≠ 0) : dS1 m (0, A) = conj m := by
  unfold dS1 dN
  have hA' : conj A ≠ 0 := by simpa using hA
  simp only [map_zero, mul_zero, zero_add]
  exact mul_div_cancel_right₀ _ (mul_ne_zero hA hA')

theorem dS2_first (m A : ℂ) : dS2 m (A, 0) = 0 := by simp [dS2]
theorem dS2_second (m A : ℂ) : dS2 m (0, A) = 0 := by simp [dS2]

/-- One step: the potential, the transform of a solution. -/
noncomputable def dbQ (q : ℝ → ℂ) (m : ℂ) (v : ℝ → ℂ × ℂ) : ℝ → ℂ := fun t => q t - 2 * I * dS2 m (v t)
noncomputable def dbSol (m : ℂ) (v : ℝ → ℂ × ℂ) (w : ℂ → ℝ → ℂ × ℂ) : ℂ → ℝ → ℂ × ℂ := fun l t =>
  ((l - conj m)⁻¹ * (dApp l (dS1 m (v t)) (dS2 m (v t)) (w l t)).1, (l - conj m)⁻¹ * (dApp l (dS1 m (v t)) (dS2 m (v t)) (w l t)).2)

noncomputable def dbV (phi psi : ℂ → ℝ → ℂ × ℂ) (m b : ℂ) : ℝ → ℂ × ℂ := fun t =>
  ((phi m t).1 - b * (psi m t).1, (phi m t).2 - b * (psi m t).2)

theorem exp_mul_two (l : ℂ) (t : ℝ) : exp (I * l * t) = exp (-I * l * t) * exp (2 * I * l * t) := by
  rw [← Complex.exp_add]; congr 1; ring

theorem exp_mul_two' (l : ℂ) (t : ℝ) : exp (-I * l * t) = exp (I * l * t) * exp (-(2 * I * l * t)) := by
  rw [← Complex.exp_add]; congr 1; ring

theorem exp_real_bdd (c : ℝ) (F : Filter ℝ) : (fun t : ℝ => exp (I * c * t)) =O[F] fun _ => (1 : ℝ) := by
  refine Asymptotics.IsBigO.of_bound 1 (Eventually.of_forall fun t => ?_)
  have : I * (c : ℂ) * t = ((c * t : ℝ) : ℂ) * I := by push_cast; ring
  rw [this, Complex.norm_exp_ofReal_mul_I]; simp

theorem sub_conj_ne {l m : ℂ} (hl : 0 ≤ l.im) (hm : 0 < m.im) : l - conj m ≠ 0 := by
  intro h
  have := congrArg Complex.im h
  simp at this
  linarith

/-- One step of the Darboux transform. -/
theorem JF.step {E : Set ℝ} {q : ℝ → ℂ} {phi psi : ℂ → ℝ → ℂ × ℂ} {a : ℂ → ℂ} {b : ℝ → ℂ} (h : JF E q phi psi a b) {m β : ℂ}
    (hm : 0 < m.im) (hβ : β ≠ 0) (ha : a m ≠ 0) :
    JF E (dbQ q m (dbV phi psi m β)) (dbSol m (dbV phi psi m β) phi) (dbSol m (dbV phi psi m β) psi)
      (fun l => (l - m) / (l - conj m) * a l) b ∧ (∀ t, dbV phi psi m β t ≠ 0) := by
  have hl' := fun (l : ℂ) (hl : 0 ≤ l.im) => sub_conj_ne hl hm
  obtain ⟨v, hv⟩ : ∃ v, v = dbV phi psi m β := ⟨_, rfl⟩
  rw [← hv]
  have hL := h.left m hm.le
  have hR := h.right m hm.le
  have hzs : ZS E q m v := by rw [hv]; exact ZS.comb hL.1 hR.1 β
  have hv0 : ∀ t, v t ≠ 0 := by
    intro t h0
    apply ha
    rw [← h.wron m hm.le t]
    rw [hv] at h0
    have e1 : (phi m t).1 = β * (psi m t).1 := by have := congrArg Prod.fst h0; exact sub_eq_zero.mp this
    have e2 : (phi m t).2 = β * (psi m t).2 := by have := congrArg Prod.snd h0; exact sub_eq_zero.mp this
    rw [e1, e2]; ring
  have hv1 : ∀ t, (v t).1 = (phi m t).1 - β * (psi m t).1 := fun t => by rw [hv]; rfl
  have hv2 : ∀ t, (v t).2 = (phi m t).2 - β * (psi m t).2 := fun t => by rw [hv]; rfl
  -- limits of the matrix
  have sL : ExpTo atBot (fun t => dS1 m (v t)) (conj m) ∧ ExpTo atBot (fun t => dS2 m (v t)) 0 := by
    have e1 : ExpTo atBot (fun t => (v t).1 * exp (-I * m * t)) 0 := by
      have := (hL.2.1.mul (expTo_left hm)).sub ((h.psi1 m hm).const_mul β)
      rw [mul_zero, mul_zero, sub_zero] at this
      refine this.congr (Eventually.of_forall fun t => ?_)
      dsimp only
      rw [hv1, mul_assoc, ← exp_mul_two']; ring
    have e2 : ExpTo atBot (fun t => (v t).2 * exp (-I * m * t)) (-β * a m) := by
      have := (hL.2.2.mul (expTo_left hm)).sub ((h.psi2 m hm).const_mul β)
      rw [mul_zero, zero_sub, ← neg_mul] at this
      refine this.congr (Eventually.of_forall fun t => ?_)
      dsimp only
      rw [hv2, mul_assoc, ← exp_mul_two']; ring
    have hne : -β * a m ≠ 0 := mul_ne_zero (neg_ne_zero.mpr hβ) ha
    have := dS_lim far_atBot (m := m) (fun t => Complex.exp_ne_zero _) e1 e2 (by simpa [Prod.ext_iff] using ⟨hβ, ha⟩)
    rwa [dS1_second m hne, dS2_second] at this
  have sR : ExpTo atTop (fun t => dS1 m (v t)) m ∧ ExpTo atTop (fun t => dS2 m (v t)) 0 := by
    have e1 : ExpTo atTop (fun t => (v t).1 * exp (I * m * t)) (a m) := by
      have := (h.phi1 m hm.le).sub ((hR.2.1.mul (expTo_right hm)).const_mul β)
      rw [mul_zero, mul_zero, sub_zero] at this
      refine this.congr (Eventually.of_forall fun t => ?_)
      dsimp only
      rw [hv1, exp_mul_two m t]; ring
    have e2 : ExpTo atTop (fun t => (v t).2 * exp (I * m * t)) 0 := by
      have := (h.phi2 m hm).sub ((hR.2.2.mul (expTo_right hm)).const_mul β)
      rw [mul_zero, mul_zero, sub_zero] at this
      refine this.congr (Eventually.of_forall fun t => ?_)
      dsimp only
      rw [hv2, exp_mul_two m t]; ring
    have := dS_lim far_atTop (m := m) (fun t => Complex.exp_ne_zero _) e1 e2 (by simpa [Prod.ext_iff] using ha)
    rwa [dS1_first m ha, dS2_first] at this
  -- transform of limits
  have lim1 : ∀ (F : Filter ℝ) (l s A B : ℂ) (w : ℂ → ℝ → ℂ × ℂ) (g : ℝ → ℂ), ExpTo F (fun t => dS1 m (v t)) s →
      ExpTo F (fun t => dS2 m (v t)) 0 → ExpTo F (fun t => (w l t).1 * g t) A → ExpTo F (fun t => (w l t).2 * g t) B →
      ExpTo F (fun t => (dbSol m v w l t).1 * g t) ((l - s) / (l - conj m) * A) ∧
      ExpTo F (fun t => (dbSol m v w l t).2 * g t) ((l - conj s) / (l - conj m) * B) := by
    intro F l s A B w g h1 h2 h3 h4
    constructor
    · have := ((((ExpTo.const F l).sub h1).mul h3).sub (h2.mul h4)).const_mul (l - conj m)⁻¹
      rw [zero_mul, sub_zero, ← mul_assoc, ← div_eq_inv_mul] at this
      refine this.congr (Eventually.of_forall fun t => ?_)
      simp only [dbSol, dApp]; ring
    · have := (((h2.conj).mul h3).add (((ExpTo.const F l).sub h1.conj).mul h4)).const_mul (l - conj m)⁻¹
      rw [map_zero, zero_mul, zero_add, ← mul_assoc, ← div_eq_inv_mul] at this
      refine this.congr (Eventually.of_forall fun t => ?_)
      simp only [dbSol, dApp]; ring
  have zsT : ∀ (l : ℂ) (w : ℂ → ℝ → ℂ × ℂ), ZS E q l (w l) → ZS E (dbQ q m v) l (dbSol m v w l) := by
    intro l w hw
    exact ZS.smul (ZS.darboux hzs hv0 hw) _
  refine ⟨⟨?_, ?_, ?_, ?_, ?_, ?_, ?_, ?_, ?_⟩, hv0⟩
  · intro l hl
    have hl0 := h.left l hl
    have := lim1 atBot l (conj m) 1 0 phi _ sL.1 sL.2 hl0.2.1 hl0.2.2
    rw [div_self (hl' l hl), mul_zero, one_mul] at this
    exact ⟨zsT l phi hl0.1, this.1, this.2⟩
  · intro l hl
    have hl0 := h.right l hl
    have := lim1 atTop l m 0 1 psi _ sR.1 sR.2 hl0.2.1 hl0.2.2
    rw [div_self (hl' l hl), mul_zero, one_mul] at this
    exact ⟨zsT l psi hl0.1, this.1, this.2⟩
  · intro l hl
    have hp := h.phi1 l hl
    rcases hl.lt_or_eq with hl1 | hl1
    · exact (lim1 atTop l m _ _ phi _ sR.1 sR.2 hp (h.phi2 l hl1)).1
    · have hlr : l = ((l.re : ℝ) : ℂ) := by apply Complex.ext <;> simp [← hl1]
      have hb := h.phib l.re
      rw [← hlr] at hb
      have hbd := exp_real_bdd (2 * l.re) atTop
      have h0 := (ExpTo.bdd_mul hbd sR.2).mul hb
      have := ((((ExpTo.const atTop l).sub sR.1).mul hp).sub h0).const_mul (l - conj m)⁻¹
      rw [zero_mul, sub_zero, ← mul_assoc, ← div_eq_inv_mul] at this
      refine this.congr (Eventually.of_forall fun t => ?_)
      have ex : exp (I * ((2 * l.re : ℝ) : ℂ) * t) = exp (2 * I * l * t) := by congr 1; push_cast; rw [← hlr]; ring
      simp only [dbSol, dApp]
      rw [ex, exp_mul_two l t]; ring
  · intro l hl
    have := (lim1 atTop l m _ _ phi _ sR.1 sR.2 (h.phi1 l hl.le) (h.phi2 l hl)).2
    rwa [mul_zero] at this
  · intro l hl
    have := (lim1 atBot l (conj m) _ _ psi _ sL.1 sL.2 (h.psi1 l hl) (h.psi2 l hl)).1
    rwa [mul_zero] at this
  · intro l hl
    have := (lim1 atBot l (conj m) _ _ psi _ sL.1 sL.2 (h.psi1 l hl) (h.psi2 l hl)).2
    rwa [conj_conj] at this
  · intro l hl t
    have := dApp_wronski l (dS1 m (v t)) (dS2 m (v t)) (phi l t) (psi l t)
    rw [dApp_det l m (hv0 t), h.wron l hl t] at this
    have hne := hl' l hl
    simp only [dbSol]
    calc _ = (l - conj m)⁻¹ * (l - conj m)⁻¹ * ((dApp l (dS1 m (v t)) (dS2 m (v t)) (phi l t)).1 * (dApp l (dS1 m (v t)) (dS2 m (v t)) (psi l t)).2 -
          (dApp l (dS1 m (v t)) (dS2 m (v t)) (phi l t)).2 * (dApp l (dS1 m (v t)) (dS2 m (v t)) (psi l t)).1) := by ring
      _ = _ := by rw [this]; field_simp
  · intro l
    have hb := h.phib l
    have hp := h.phi1 l (by simp)
    have hne := hl' (l : ℂ) (by simp)
    have hbd := exp_real_bdd (-2 * l) atTop
    have s2c := sR.2.conj
    rw [map_zero] at s2c
    have h0 := (ExpTo.bdd_mul hbd s2c).mul hp
    have := (h0.add (((ExpTo.const atTop (l : ℂ)).sub sR.1.conj).mul hb)).const_mul ((l : ℂ) - conj m)⁻¹
    rw [zero_mul, zero_add, ← mul_assoc, inv_mul_cancel₀ hne, one_mul] at this
    refine this.congr (Eventually.of_forall fun t => ?_)
    have ex : exp (I * ((-2 * l : ℝ) : ℂ) * t) = exp (-(2 * I * l * t)) := by congr 1; push_cast; ring
    simp only [dbSol, dApp]
    rw [ex, exp_mul_two' l t]; ring
  · constructor
    · have := h.dec.1.sub (sL.2.const_mul (2 * I))
      rw [mul_zero, sub_zero] at this
      exact this
    · have := h.dec.2.sub (sR.2.const_mul (2 * I))
      rw [mul_zero, sub_zero] at this
      exact this

end FNFT

import Verif.Proofs.SeedFlow
/-!
# The Jost solutions of a piecewise constant potential
-/
namespace FNFT
open Complex Filter Spec

local notation "conj" => starRingEnd ℂ

noncomputable def pcQ (T0 : ℝ) (L : List (ℝ × ℂ)) : ℝ → ℂ := glue T0 (fun _ => 0) (segQ T0 L)
noncomputable def pcSol (l : ℂ) (T0 : ℝ) (L : List (ℝ × ℂ)) (v : ℂ × ℂ) : ℝ → ℂ × ℂ := glue T0 (fun t => flow 0 l (t - T0) v) (segSol l T0 L v)
def pcE (T0 : ℝ) (L : List (ℝ × ℂ)) : Set ℝ := insert T0 (segE T0 L)

noncomputable def pcPhi (T0 : ℝ) (L : List (ℝ × ℂ)) : ℂ → ℝ → ℂ × ℂ := fun l => pcSol l T0 L (exp (-I * l * T0), 0)
noncomputable def pcPsi (T0 : ℝ) (L : List (ℝ × ℂ)) : ℂ → ℝ → ℂ × ℂ := fun l => pcSol l T0 L (segB l L (0, exp (I * l * (segEnd T0 L : ℝ))))

noncomputable def pcA (T0 : ℝ) (L : List (ℝ × ℂ)) (l : ℂ) : ℂ := (segP l L (exp (-I * l * T0), 0)).1 * exp (I * l * (segEnd T0 L : ℝ))
noncomputable def pcB (T0 : ℝ) (L : List (ℝ × ℂ)) (l : ℝ) : ℂ := (segP l L (exp (-I * l * T0), 0)).2 * exp (-I * l * (segEnd T0 L : ℝ))

theorem pcE_finite (T0 : ℝ) (L : List (ℝ × ℂ)) : (pcE T0 L).Finite := (segE_finite L T0).insert _

theorem pcSol_zs (l : ℂ) (T0 : ℝ) {L : List (ℝ × ℂ)} (hL : ∀ x ∈ L, 0 ≤ x.1) (v : ℂ × ℂ) : ZS (pcE T0 L) (pcQ T0 L) l (pcSol l T0 L v) := by
  have := ZS.glue (τ := T0) (ZS.flow 0 l T0 v) (segSol_zs l L hL T0 v) (by rw [segSol_start l L hL, sub_self, flow_zero])
  refine ZS.mono this ?_ fun t _ => rfl
  intro t ht
  simp only [Set.mem_union, Set.mem_singleton_iff, Set.mem_empty_iff_false, false_or] at ht
  exact ht.elim (fun a => Or.inr a) (fun a => Or.inl a)

theorem pcSol_left (l : ℂ) {T0 t : ℝ} (L : List (ℝ × ℂ)) (v : ℂ × ℂ) (ht : t ≤ T0) : pcSol l T0 L v t = (exp (-I * l * (t - T0 : ℝ)) * v.1, exp (I * l * (t - T0 : ℝ)) * v.2) := by
  unfold pcSol; rw [glue_le _ _ ht, flow_free]

theorem pcSol_right (l : ℂ) {T0 t : ℝ} {L : List (ℝ × ℂ)} (hL : ∀ x ∈ L, 0 ≤ x.1) (v : ℂ × ℂ) (ht : segEnd T0 L < t) :
    pcSol l T0 L v t = (exp (-I * l * (t - segEnd T0 L : ℝ)) * (segP l L v).1, exp (I * l * (t - segEnd T0 L : ℝ)) * (segP l L v).2) := by
  unfold pcSol; rw [glue_gt _ _ (lt_of_le_of_lt (segEnd_le hL T0) ht), segSol_end l L hL T0 v t ht.le, flow_free]

theorem pcSol_wronski (l : ℂ) (T0 : ℝ) (L : List (ℝ × ℂ)) (v w : ℂ × ℂ) (t : ℝ) :
    (pcSol l T0 L v t).1 * (pcSol l T0 L w t).2 - (pcSol l T0 L v t).2 * (pcSol l T0 L w t).1 = v.1 * w.2 - v.2 * w.1 := by
  unfold pcSol glue
  split
  · exact flow_wronski 0 l _ v w
  · exact segSol_wronski l L T0 v w t

theorem expTo_eq_right {f g : ℝ → ℂ} {A : ℂ} {T : ℝ} (h : ∀ t, T < t → f t = g t) (hg : ExpTo atTop g A) : ExpTo atTop f A :=
  hg.congr ((eventually_gt_atTop T).mono fun t ht => (h t ht).symm)

theorem expTo_eq_left {f g : ℝ → ℂ} {A : ℂ} {T : ℝ} (h : ∀ t, t ≤ T → f t = g t) (hg : ExpTo atBot g A) : ExpTo atBot f A :=
  hg.congr ((eventually_le_atBot T).mono fun t ht => (h t ht).symm)

theorem exp_move (a b c x : ℂ) (h : a + b = c) : exp a * x * exp b = exp c * x := by
  rw [mul_right_comm, ← Complex.exp_add, h]

/-- The Wronskian of the initial values. -/
theorem pc_wron (l : ℂ) (T0 : ℝ) {L : List (ℝ × ℂ)} (hL : ∀ x ∈ L, 0 ≤ x.1) :
    exp (-I * l * T0) * (segB l L (0, exp (I * l * (segEnd T0 L : ℝ)))).2 = pcA T0 L l := by
  have h1 := pcSol_wronski l T0 L (exp (-I * l * T0), 0) (segB l L (0, exp (I * l * (segEnd T0 L : ℝ)))) (segEnd T0 L + 1)
  rw [pcSol_right l hL _ (by linarith), pcSol_right l hL _ (by linarith), segP_segB] at h1
  dsimp only at h1
  rw [zero_mul, sub_zero, mul_zero, mul_zero, sub_zero] at h1
  rw [← h1]
  unfold pcA
  have : exp (-I * l * (segEnd T0 L + 1 - segEnd T0 L : ℝ)) * exp (I * l * (segEnd T0 L + 1 - segEnd T0 L : ℝ)) = 1 := by
    rw [← Complex.exp_add]; simp
  linear_combination ((segP l L (exp (-I * l * T0), 0)).1 * exp (I * l * (segEnd T0 L : ℝ))) * this

theorem JF.pc (T0 : ℝ) {L : List (ℝ × ℂ)} (hL : ∀ x ∈ L, 0 ≤ x.1) :
    JF (pcE T0 L) (pcQ T0 L) (pcPhi T0 L) (pcPsi T0 L) (pcA T0 L) (pcB T0 L) := by
  obtain ⟨T1, hT1⟩ : ∃ T1, T1 = segEnd T0 L := ⟨_, rfl⟩
  refine ⟨?_, ?_, ?_, ?_, ?_, ?_, ?_, ?_, ?_⟩
  · intro l _
    refine ⟨pcSol_zs l T0 hL _, ?_, ?_⟩
    · refine expTo_eq_left (T := T0) (fun t ht => ?_) (ExpTo.const atBot 1)
      unfold pcPhi
      rw [pcSol_left l L _ ht]
      dsimp only
      rw [← Complex.exp_add, ← Complex.exp_add, ← Complex.exp_zero]
      congr 1; push_cast; ring
    · refine expTo_eq_left (T := T0) (fun t ht => ?_) (ExpTo.const atBot 0)
      unfold pcPhi
      rw [pcSol_left l L _ ht]
      simp
  · intro l _
    refine ⟨pcSol_zs l T0 hL _, ?_, ?_⟩
    · refine expTo_eq_right (T := T1) (fun t ht => ?_) (ExpTo.const atTop 0)
      unfold pcPsi
      rw [pcSol_right l hL _ (hT1 ▸ ht), segP_segB]
      simp
    · refine expTo_eq_right (T := T1) (fun t ht => ?_) (ExpTo.const atTop 1)
      unfold pcPsi
      rw [pcSol_right l hL _ (hT1 ▸ ht), segP_segB]
      dsimp only
      rw [← Complex.exp_add, ← Complex.exp_add, ← Complex.exp_zero]
      congr 1; push_cast; ring
  · intro l _
    refine expTo_eq_right (T := T1) (fun t ht => ?_) (ExpTo.const atTop _)
    unfold pcPhi pcA
    rw [pcSol_right l hL _ (hT1 ▸ ht)]
    rw [exp_move _ _ (I * l * (segEnd T0 L : ℝ)) _ (by push_cast; ring), mul_comm]
  · intro l hl
    have := (expTo_right hl).const_mul ((segP l L (exp (-I * l * T0), 0)).2 * exp (-(I * l * T1)))
    rw [mul_zero] at this
    refine expTo_eq_right (T := T1) (fun t ht => ?_) this
    unfold pcPhi
    rw [pcSol_right l hL _ (hT1 ▸ ht)]
    rw [exp_move _ _ (-(I * l * T1) + 2 * I * l * t) _ (by rw [hT1]; push_cast; ring), Complex.exp_add]
    ring
  · intro l hl
    have := (expTo_left hl).const_mul ((segB l L (0, exp (I * l * (segEnd T0 L : ℝ)))).1 * exp (I * l * T0))
    rw [mul_zero] at this
    refine expTo_eq_left (T := T0) (fun t ht => ?_) this
    unfold pcPsi
    rw [pcSol_left l L _ ht]
    rw [exp_move _ _ (I * l * T0 + -(2 * I * l * t)) _ (by push_cast; ring), Complex.exp_add]
    ring
  · intro l hl
    refine expTo_eq_left (T := T0) (fun t ht => ?_) (ExpTo.const atBot _)
    unfold pcPsi
    rw [pcSol_left l L _ ht, ← pc_wron l T0 hL]
    rw [exp_move _ _ (-I * l * T0) _ (by push_cast; ring)]
  · intro l _ t
    unfold pcPhi pcPsi
    rw [pcSol_wronski, ← pc_wron l T0 hL]
    simp
  · intro l
    refine expTo_eq_right (T := T1) (fun t ht => ?_) (ExpTo.const atTop _)
    unfold pcPhi pcB
    rw [pcSol_right _ hL _ (hT1 ▸ ht)]
    rw [exp_move _ _ (-I * l * (segEnd T0 L : ℝ)) _ (by push_cast; ring), mul_comm]
  · constructor
    · exact expTo_eq_left (T := T0) (fun t ht => glue_le _ _ ht) (ExpTo.const atBot 0)
    · refine expTo_eq_right (T := T1) (fun t ht => ?_) (ExpTo.const atTop 0)
      have h1 := segEnd_le hL T0
      unfold pcQ
      rw [glue_gt _ _ (by linarith), segQ_end L hL T0 t (hT1 ▸ ht)]

/-- The potential may be changed at finitely many points. -/
theorem JF.congr {E : Set ℝ} {q q' : ℝ → ℂ} {phi psi : ℂ → ℝ → ℂ × ℂ} {a : ℂ → ℂ} {b : ℝ → ℂ} (h : JF E q phi psi a b) (hq : ∀ t, t ∉ E → q t = q' t)
    (hd : Decays q') : JF E q' phi psi a b :=
  ⟨fun l hl => ⟨ZS.mono (h.left l hl).1 subset_rfl hq, (h.left l hl).2⟩, fun l hl => ⟨ZS.mono (h.right l hl).1 subset_rfl hq, (h.right l hl).2⟩,
    h.phi1, h.phi2, h.psi1, h.psi2, h.wron, h.phib, hd⟩

end FNFT

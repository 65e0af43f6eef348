import Verif.Proofs.DarbouxFold
import Verif.Proofs.Sinc
import Mathlib.Analysis.SpecialFunctions.Trigonometric.DerivHyp
import Mathlib.Analysis.Complex.RealDeriv
/-!
# Piecewise constant potentials
-/
namespace FNFT
open Complex Filter Spec

local notation "conj" => starRingEnd ℂ

/-- A square root of `-|c|^2 - l^2`. -/
noncomputable def fK (c l : ℂ) : ℂ := csqrt (-(c * conj c) - l * l)

theorem fK_sq (c l : ℂ) : fK c l * fK c l = -(c * conj c) - l * l := by
  unfold fK
  rw [← pow_two, csqrt_sq]

open Classical in
/-- `cosh(k s)` and `sinh(k s)/k`. -/
noncomputable def fS (k : ℂ) (s : ℝ) : ℂ := if k = 0 then s else sinh (k * s) / k
noncomputable def fC (k : ℂ) (s : ℝ) : ℂ := cosh (k * s)

theorem fS_zero (k : ℂ) : fS k 0 = 0 := by unfold fS; split <;> simp
theorem fC_zero (k : ℂ) : fC k 0 = 1 := by unfold fC; simp

theorem fC_deriv (k : ℂ) (s : ℝ) : HasDerivAt (fC k) (k * k * fS k s) s := by
  have h1 : HasDerivAt (fun s : ℂ => k * s) (k * 1) (s : ℂ) := HasDerivAt.const_mul k (hasDerivAt_id _)
  have h2 := HasDerivAt.comp_ofReal (HasDerivAt.ccosh h1)
  refine HasDerivAt.congr_deriv h2 ?_
  unfold fS
  split
  · rename_i hk; rw [hk]; simp
  · rename_i hk; field_simp

theorem fS_deriv (k : ℂ) (s : ℝ) : HasDerivAt (fS k) (fC k s) s := by
  by_cases hk : k = 0
  · have : fS k = fun s : ℝ => (s : ℂ) := by funext s; unfold fS; rw [if_pos hk]
    rw [this]
    unfold fC
    rw [hk, zero_mul, Complex.cosh_zero]
    exact Complex.ofRealCLM.hasDerivAt (x := s)
  · have : fS k = fun s : ℝ => sinh (k * s) / k := by funext s; unfold fS; rw [if_neg hk]
    rw [this]
    have h1 : HasDerivAt (fun s : ℂ => k * s) (k * 1) (s : ℂ) := HasDerivAt.const_mul k (hasDerivAt_id _)
    have h2 := HasDerivAt.comp_ofReal (HasDerivAt.div_const (HasDerivAt.csinh h1) k)
    refine HasDerivAt.congr_deriv h2 ?_
    unfold fC
    field_simp

theorem fCS (k : ℂ) (s : ℝ) : fC k s * fC k s - k * k * (fS k s * fS k s) = 1 := by
  unfold fC fS
  have := Complex.cosh_sq_sub_sinh_sq (k * s)
  split
  · rename_i hk; rw [hk]; simp
  · rename_i hk; field_simp; linear_combination this

theorem fC_neg (k : ℂ) (s : ℝ) : fC k (-s) = fC k s := by unfold fC; push_cast; rw [mul_neg, Complex.cosh_neg]
theorem fS_neg (k : ℂ) (s : ℝ) : fS k (-s) = -fS k s := by
  unfold fS; split
  · push_cast; rfl
  · push_cast; rw [mul_neg, Complex.sinh_neg, neg_div]

/-- The solution with a constant potential `c` after the time `s`. -/
noncomputable def flow (c l : ℂ) (s : ℝ) (v : ℂ × ℂ) : ℂ × ℂ :=
  ((fC (fK c l) s - I * l * fS (fK c l) s) * v.1 + c * fS (fK c l) s * v.2,
    -conj c * fS (fK c l) s * v.1 + (fC (fK c l) s + I * l * fS (fK c l) s) * v.2)

theorem flow_zero (c l : ℂ) (v : ℂ × ℂ) : flow c l 0 v = v := by
  unfold flow; rw [fS_zero, fC_zero]; simp

theorem flow_deriv (c l : ℂ) (τ : ℝ) (v : ℂ × ℂ) (t : ℝ) : ZSAt c l (fun t => flow c l (t - τ) v) t := by
  obtain ⟨k, hk⟩ : ∃ k, k = fK c l := ⟨_, rfl⟩
  have hk2 : k * k = -(c * conj c) - l * l := by rw [hk]; exact fK_sq c l
  have hs : HasDerivAt (fun t : ℝ => t - τ) 1 t := by simpa using HasDerivAt.sub_const τ (hasDerivAt_id t)
  have dC : HasDerivAt (fun t : ℝ => fC k (t - τ)) (k * k * fS k (t - τ)) t := by
    have := HasDerivAt.scomp t (fC_deriv k (t - τ)) hs
    rw [one_smul] at this
    exact this
  have dS : HasDerivAt (fun t : ℝ => fS k (t - τ)) (fC k (t - τ)) t := by
    have := HasDerivAt.scomp t (fS_deriv k (t - τ)) hs
    rw [one_smul] at this
    exact this
  unfold flow
  simp only [← hk]
  constructor
  · have := HasDerivAt.add (HasDerivAt.mul_const (HasDerivAt.sub dC (HasDerivAt.const_mul (I * l) dS)) v.1)
      (HasDerivAt.mul_const (HasDerivAt.const_mul c dS) v.2)
    refine HasDerivAt.congr_deriv this ?_
    dsimp only
    linear_combination (fS k (t - τ) * v.1) * hk2 - (l * l * fS k (t - τ) * v.1) * I_mul_I
  · have := HasDerivAt.add (HasDerivAt.mul_const (HasDerivAt.const_mul (-conj c) dS) v.1)
      (HasDerivAt.mul_const (HasDerivAt.add dC (HasDerivAt.const_mul (I * l) dS)) v.2)
    refine HasDerivAt.congr_deriv this ?_
    dsimp only
    linear_combination (fS k (t - τ) * v.2) * hk2 - (l * l * fS k (t - τ) * v.2) * I_mul_I

theorem ZSAt.continuousAt {c l : ℂ} {v : ℝ → ℂ × ℂ} {t : ℝ} (h : ZSAt c l v t) : ContinuousAt v t :=
  ContinuousAt.prodMk (f := fun t => (v t).1) (g := fun t => (v t).2) h.1.continuousAt h.2.continuousAt

theorem flow_wronski (c l : ℂ) (s : ℝ) (v w : ℂ × ℂ) :
    (flow c l s v).1 * (flow c l s w).2 - (flow c l s v).2 * (flow c l s w).1 = v.1 * w.2 - v.2 * w.1 := by
  have h1 := fCS (fK c l) s
  rw [fK_sq] at h1
  unfold flow
  dsimp only
  linear_combination (v.1 * w.2 - v.2 * w.1) * h1 - (l * l * (fS (fK c l) s * fS (fK c l) s)) * (v.1 * w.2 - v.2 * w.1) * I_mul_I

theorem flow_back (c l : ℂ) (s : ℝ) (v : ℂ × ℂ) : flow c l s (flow c l (-s) v) = v := by
  have h1 := fCS (fK c l) s
  rw [fK_sq] at h1
  unfold flow
  rw [fC_neg, fS_neg]
  refine Prod.ext ?_ ?_ <;> dsimp only
  · linear_combination v.1 * h1 - (l * l * (fS (fK c l) s * fS (fK c l) s)) * v.1 * I_mul_I
  · linear_combination v.2 * h1 - (l * l * (fS (fK c l) s * fS (fK c l) s)) * v.2 * I_mul_I

theorem flow_free (l : ℂ) (s : ℝ) (v : ℂ × ℂ) : flow 0 l s v = (exp (-I * l * s) * v.1, exp (I * l * s) * v.2) := by
  have hk : fK 0 l * fK 0 l = (I * l) * (I * l) := by rw [fK_sq]; simp; linear_combination -(l * l) * I_mul_I
  have h : fC (fK 0 l) s = cosh (I * l * s) ∧ I * l * fS (fK 0 l) s = sinh (I * l * s) := by
    rcases mul_self_eq_mul_self_iff.mp hk with h | h
    · rw [h]
      refine ⟨rfl, ?_⟩
      unfold fS
      split
      · rename_i h0; rw [h0]; simp
      · rename_i h0; rw [mul_div_cancel₀ _ h0]
    · rw [h]
      refine ⟨by unfold fC; rw [neg_mul, Complex.cosh_neg], ?_⟩
      unfold fS
      split
      · rename_i h0; rw [neg_eq_zero] at h0; rw [h0]; simp
      · rename_i h0; rw [neg_eq_zero] at h0; rw [neg_mul, Complex.sinh_neg, neg_div_neg_eq, mul_div_cancel₀ _ h0]
  unfold flow
  rw [h.1, h.2]
  simp only [zero_mul, map_zero, neg_zero, add_zero, zero_add]
  have e1 : exp (-I * l * s) = cosh (I * l * s) - sinh (I * l * s) := by rw [Complex.cosh_sub_sinh]; congr 1; ring
  have e2 : exp (I * l * s) = cosh (I * l * s) + sinh (I * l * s) := by rw [Complex.cosh_add_sinh]
  rw [e1, e2]

/-! ## Gluing -/

/-- `f` before `τ`, `g` afterwards. -/
noncomputable def glue {α : Type*} (τ : ℝ) (f g : ℝ → α) : ℝ → α := fun t => if t ≤ τ then f t else g t

theorem glue_le {α : Type*} {τ t : ℝ} (f g : ℝ → α) (h : t ≤ τ) : glue τ f g t = f t := if_pos h
theorem glue_gt {α : Type*} {τ t : ℝ} (f g : ℝ → α) (h : τ < t) : glue τ f g t = g t := if_neg (not_le.mpr h)

theorem ZS.glue {E E' : Set ℝ} {q q' : ℝ → ℂ} {l : ℂ} {v w : ℝ → ℂ × ℂ} {τ : ℝ} (hv : ZS E q l v) (hw : ZS E' q' l w) (h : v τ = w τ) :
    ZS (E ∪ E' ∪ {τ}) (glue τ q q') l (FNFT.glue τ v w) := by
  refine ⟨?_, fun t ht => ?_⟩
  · unfold FNFT.glue
    exact Continuous.if_le hv.1 hw.1 continuous_id continuous_const fun t ht => by
      have : t = τ := ht
      rw [this, h]
  · simp only [Set.mem_union, Set.mem_singleton_iff, not_or] at ht
    obtain ⟨⟨h1, h2⟩, h3⟩ := ht
    rcases lt_or_gt_of_ne h3 with hlt | hgt
    · have hev : ∀ᶠ s in nhds t, FNFT.glue τ v w s = v s := (eventually_lt_nhds hlt).mono fun s hs => glue_le _ _ hs.le
      have := hv.2 t h1
      rw [glue_le _ _ hlt.le, glue_le _ _ hlt.le]
      exact ⟨HasDerivAt.congr_of_eventuallyEq this.1 (hev.mono fun s hs => by dsimp only; rw [hs]),
        HasDerivAt.congr_of_eventuallyEq this.2 (hev.mono fun s hs => by dsimp only; rw [hs])⟩
    · have hev : ∀ᶠ s in nhds t, FNFT.glue τ v w s = w s := (eventually_gt_nhds hgt).mono fun s hs => glue_gt _ _ hs
      have := hw.2 t h2
      rw [glue_gt _ _ hgt, glue_gt _ _ hgt]
      exact ⟨HasDerivAt.congr_of_eventuallyEq this.1 (hev.mono fun s hs => by dsimp only; rw [hs]),
        HasDerivAt.congr_of_eventuallyEq this.2 (hev.mono fun s hs => by dsimp only; rw [hs])⟩

theorem ZS.mono {E E' : Set ℝ} {q q' : ℝ → ℂ} {l : ℂ} {v : ℝ → ℂ × ℂ} (hv : ZS E q l v) (hE : E ⊆ E') (hq : ∀ t, t ∉ E' → q t = q' t) : ZS E' q' l v := by
  refine ⟨hv.1, fun t ht => ?_⟩
  have := hv.2 t (fun h => ht (hE h))
  rwa [hq t ht] at this

theorem ZS.flow (c l : ℂ) (τ : ℝ) (v : ℂ × ℂ) : ZS ∅ (fun _ => c) l (fun t => FNFT.flow c l (t - τ) v) :=
  ⟨continuous_iff_continuousAt.mpr fun t => (flow_deriv c l τ v t).continuousAt, fun t _ => flow_deriv c l τ v t⟩

/-! ## Segments -/

/-- The potential to the right of `τ`: segments (length, value), then zero. -/
noncomputable def segQ : ℝ → List (ℝ × ℂ) → ℝ → ℂ
  | _, [] => fun _ => 0
  | τ, (h, c) :: L => glue (τ + h) (fun _ => c) (segQ (τ + h) L)

/-- The solution with the value `v` at `τ`. -/
noncomputable def segSol (l : ℂ) : ℝ → List (ℝ × ℂ) → ℂ × ℂ → ℝ → ℂ × ℂ
  | τ, [], v => fun t => flow 0 l (t - τ) v
  | τ, (h, c) :: L, v => glue (τ + h) (fun t => flow c l (t - τ) v) (segSol l (τ + h) L (flow c l h v))

def segE : ℝ → List (ℝ × ℂ) → Set ℝ
  | _, [] => ∅
  | τ, (h, _) :: L => insert (τ + h) (segE (τ + h) L)

def segEnd (τ : ℝ) (L : List (ℝ × ℂ)) : ℝ := τ + (L.map Prod.fst).sum

/-- Product of all steps. -/
noncomputable def segP (l : ℂ) : List (ℝ × ℂ) → ℂ × ℂ → ℂ × ℂ
  | [], v => v
  | (h, c) :: L, v => segP l L (flow c l h v)

/-- Product of all steps backwards. -/
noncomputable def segB (l : ℂ) : List (ℝ × ℂ) → ℂ × ℂ → ℂ × ℂ
  | [], v => v
  | (h, c) :: L, v => flow c l (-h) (segB l L v)

theorem segE_finite (L : List (ℝ × ℂ)) : ∀ τ, (segE τ L).Finite := by
  induction L with
  | nil => intro τ; exact Set.finite_empty
  | cons x L ih => intro τ; exact (ih _).insert _

theorem segEnd_cons (τ : ℝ) (x : ℝ × ℂ) (L : List (ℝ × ℂ)) : segEnd τ (x :: L) = segEnd (τ + x.1) L := by
  unfold segEnd; simp; ring

theorem segEnd_le {L : List (ℝ × ℂ)} (hL : ∀ x ∈ L, 0 ≤ x.1) (τ : ℝ) : τ ≤ segEnd τ L := by
  unfold segEnd
  have : 0 ≤ (L.map Prod.fst).sum := List.sum_nonneg (by simpa using fun a b h => hL (a, b) h)
  linarith

theorem segSol_start (l : ℂ) (L : List (ℝ × ℂ)) (hL : ∀ x ∈ L, 0 ≤ x.1) (τ : ℝ) (v : ℂ × ℂ) : segSol l τ L v τ = v := by
  cases L with
  | nil => show flow 0 l (τ - τ) v = v; rw [sub_self, flow_zero]
  | cons x L =>
    have := hL x (by simp)
    show glue (τ + x.1) _ _ τ = v
    rw [glue_le _ _ (by linarith), sub_self, flow_zero]

theorem segSol_zs (l : ℂ) (L : List (ℝ × ℂ)) : (∀ x ∈ L, 0 ≤ x.1) → ∀ (τ : ℝ) (v : ℂ × ℂ), ZS (segE τ L) (segQ τ L) l (segSol l τ L v) := by
  induction L with
  | nil => intro _ τ v; exact ZS.flow 0 l τ v
  | cons x L ih =>
    intro hL τ v
    obtain ⟨h, c⟩ := x
    have hL' : ∀ x ∈ L, 0 ≤ x.1 := fun x hx => hL x (List.mem_cons_of_mem _ hx)
    have := ZS.glue (τ := τ + h) (ZS.flow c l τ v) (ih hL' (τ + h) (flow c l h v)) (by
      rw [segSol_start l L hL']; congr 1; ring)
    refine ZS.mono this ?_ fun t _ => rfl
    intro t ht
    simp only [Set.mem_union, Set.mem_singleton_iff, Set.mem_empty_iff_false, false_or] at ht
    exact ht.elim (fun a => Or.inr a) (fun a => Or.inl a)

theorem segSol_end (l : ℂ) (L : List (ℝ × ℂ)) : (∀ x ∈ L, 0 ≤ x.1) → ∀ (τ : ℝ) (v : ℂ × ℂ) (t : ℝ), segEnd τ L ≤ t →
    segSol l τ L v t = flow 0 l (t - segEnd τ L) (segP l L v) := by
  induction L with
  | nil => intro _ τ v t _; unfold segEnd segP segSol; simp
  | cons x L ih =>
    intro hL τ v t ht
    obtain ⟨h, c⟩ := x
    have hL' : ∀ x ∈ L, 0 ≤ x.1 := fun x hx => hL x (List.mem_cons_of_mem _ hx)
    rw [segEnd_cons] at ht ⊢
    have h1 := segEnd_le hL' (τ + h)
    show glue (τ + h) _ (segSol l (τ + h) L (flow c l h v)) t = _
    rcases (h1.trans ht).lt_or_eq with hlt | heq
    · rw [glue_gt _ _ hlt, ih hL' _ _ t ht]; rfl
    · have e1 : segEnd (τ + h) L = τ + h := le_antisymm (by dsimp only at ht; linarith) h1
      have := ih hL' (τ + h) (flow c l h v) t ht
      rw [← heq, segSol_start l L hL'] at this
      rw [glue_le _ _ heq.ge]
      dsimp only at ht ⊢
      rw [← heq]
      have e2 : τ + h - τ = h := by ring
      rw [e2, this]; rfl

theorem segSol_wronski (l : ℂ) (L : List (ℝ × ℂ)) : ∀ (τ : ℝ) (v w : ℂ × ℂ) (t : ℝ),
    (segSol l τ L v t).1 * (segSol l τ L w t).2 - (segSol l τ L v t).2 * (segSol l τ L w t).1 = v.1 * w.2 - v.2 * w.1 := by
  induction L with
  | nil => intro τ v w t; exact flow_wronski 0 l _ v w
  | cons x L ih =>
    intro τ v w t
    obtain ⟨h, c⟩ := x
    unfold segSol glue
    split
    · exact flow_wronski c l _ v w
    · rw [ih, flow_wronski]

theorem segP_segB (l : ℂ) (L : List (ℝ × ℂ)) (v : ℂ × ℂ) : segP l L (segB l L v) = v := by
  induction L with
  | nil => rfl
  | cons x L ih =>
    obtain ⟨h, c⟩ := x
    show segP l L (flow c l h (flow c l (-h) (segB l L v))) = v
    rw [flow_back, ih]

theorem segQ_end (L : List (ℝ × ℂ)) : (∀ x ∈ L, 0 ≤ x.1) → ∀ (τ : ℝ) (t : ℝ), segEnd τ L < t → segQ τ L t = 0 := by
  induction L with
  | nil => intro _ τ t _; rfl
  | cons x L ih =>
    intro hL τ t ht
    have hL' : ∀ x ∈ L, 0 ≤ x.1 := fun x hx => hL x (List.mem_cons_of_mem _ hx)
    rw [segEnd_cons] at ht
    have h1 := segEnd_le hL' (τ + x.1)
    show glue (τ + x.1) _ (segQ (τ + x.1) L) t = 0
    rw [glue_gt _ _ (by linarith), ih hL' _ t ht]

end FNFT

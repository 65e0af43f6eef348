import Verif.Proofs.DarbouxJost
import Mathlib.Analysis.SpecialFunctions.ExpDeriv
import Mathlib.MeasureTheory.Integral.DivergenceTheorem
/-!
# The scattering data of a potential are unique
-/
namespace FNFT
open Complex Filter Spec

local notation "conj" => starRingEnd ℂ

/-- The Wronskian. -/
noncomputable def wr2 (v w : ℂ × ℂ) : ℂ := v.1 * w.2 - v.2 * w.1

theorem const_off_countable {E : Set ℝ} (hE : E.Countable) {f : ℝ → ℂ} (hc : Continuous f) (hd : ∀ t, t ∉ E → HasDerivAt f 0 t) (s t : ℝ) : f s = f t := by
  have := MeasureTheory.integral_eq_of_hasDerivAt_off_countable f (fun _ => 0) (a := s) (b := t) hE hc.continuousOn (fun x hx => hd x hx.2)
    intervalIntegrable_const
  rw [intervalIntegral.integral_zero] at this
  exact (sub_eq_zero.mp this.symm).symm

theorem wr2_const {E E' : Set ℝ} (hE : E.Finite) (hE' : E'.Finite) {q : ℝ → ℂ} {l : ℂ} {v w : ℝ → ℂ × ℂ} (hv : ZS E q l v) (hw : ZS E' q l w) (s t : ℝ) :
    wr2 (v s) (w s) = wr2 (v t) (w t) := by
  refine const_off_countable (hE.union hE').countable (f := fun t => wr2 (v t) (w t)) ?_ ?_ s t
  · exact ((ZS.cont1 hv).mul (ZS.cont2 hw)).sub ((ZS.cont2 hv).mul (ZS.cont1 hw))
  · intro x hx
    obtain ⟨a1, a2⟩ := hv.2 x (fun h => hx (Or.inl h))
    obtain ⟨b1, b2⟩ := hw.2 x (fun h => hx (Or.inr h))
    refine HasDerivAt.congr_deriv (HasDerivAt.sub (HasDerivAt.mul a1 b2) (HasDerivAt.mul a2 b1)) ?_
    ring

theorem norm_exp_two (l : ℂ) (t : ℝ) : ‖exp (2 * I * l * t)‖ = Real.exp (-(2 * l.im * t)) := by
  rw [Complex.norm_exp]; congr 1; simp

/-- Two Jost solutions from the left are linearly dependent. -/
theorem left_wr {E E' : Set ℝ} (hE : E.Finite) (hE' : E'.Finite) {q : ℝ → ℂ} {l : ℂ} (hl : 0 ≤ l.im) {v w : ℝ → ℂ × ℂ} (hv : JostLeft E q l v)
    (hw : JostLeft E' q l w) (t : ℝ) : wr2 (v t) (w t) = 0 := by
  have h := ((hv.2.1.mul hw.2.2).sub (hv.2.2.mul hw.2.1)).tendsto far_atBot
  have e : ∀ s : ℝ, (v s).1 * exp (I * l * s) * ((w s).2 * exp (I * l * s)) - (v s).2 * exp (I * l * s) * ((w s).1 * exp (I * l * s)) =
      wr2 (v t) (w t) * exp (2 * I * l * s) := by
    intro s
    rw [← wr2_const hE hE' hv.1 hw.1 s t, show (2 : ℂ) * I * l * s = I * l * s + I * l * s by ring, Complex.exp_add]
    unfold wr2; ring
  simp only [e] at h
  have h2 := h.norm
  simp only [mul_zero, zero_mul, sub_zero, norm_zero, norm_mul, norm_exp_two] at h2
  by_contra hne
  have hp : 0 < ‖wr2 (v t) (w t)‖ := norm_pos_iff.mpr hne
  have h3 := (h2.eventually (gt_mem_nhds hp)).and (eventually_le_atBot 0)
  obtain ⟨s, hs1, hs2⟩ := h3.exists
  have : 1 ≤ Real.exp (-(2 * l.im * s)) := Real.one_le_exp (by nlinarith)
  nlinarith

/-- Two Jost solutions from the right are linearly dependent. -/
theorem right_wr {E E' : Set ℝ} (hE : E.Finite) (hE' : E'.Finite) {q : ℝ → ℂ} {l : ℂ} (hl : 0 ≤ l.im) {v w : ℝ → ℂ × ℂ} (hv : JostRight E q l v)
    (hw : JostRight E' q l w) (t : ℝ) : wr2 (v t) (w t) = 0 := by
  have h := ((hv.2.1.mul hw.2.2).sub (hv.2.2.mul hw.2.1)).tendsto far_atTop
  have e : ∀ s : ℝ, (v s).1 * exp (-I * l * s) * ((w s).2 * exp (-I * l * s)) - (v s).2 * exp (-I * l * s) * ((w s).1 * exp (-I * l * s)) =
      wr2 (v t) (w t) * exp (2 * I * (-l) * s) := by
    intro s
    rw [← wr2_const hE hE' hv.1 hw.1 s t, show (2 : ℂ) * I * (-l) * s = -I * l * s + -I * l * s by ring, Complex.exp_add]
    unfold wr2; ring
  simp only [e] at h
  have h2 := h.norm
  simp only [mul_zero, zero_mul, sub_zero, norm_zero, norm_mul, norm_exp_two] at h2
  by_contra hne
  have hp : 0 < ‖wr2 (v t) (w t)‖ := norm_pos_iff.mpr hne
  have h3 := (h2.eventually (gt_mem_nhds hp)).and (eventually_ge_atTop 0)
  obtain ⟨s, hs1, hs2⟩ := h3.exists
  have : 1 ≤ Real.exp (-(2 * (-l).im * s)) := Real.one_le_exp (by rw [Complex.neg_im]; nlinarith)
  nlinarith

theorem scatUpper_eq {E E' : Set ℝ} (hE : E.Finite) (hE' : E'.Finite) {q : ℝ → ℂ} {l a a' : ℂ} (hl : 0 ≤ l.im) (h : ScatUpper E q l a)
    (h' : ScatUpper E' q l a') (ha : a ≠ 0) : a = a' := by
  obtain ⟨phi, psi, h1, h2, h3, h4⟩ := h
  obtain ⟨phi', psi', g1, g2, g3, g4⟩ := h'
  have hc := fun t => wr2_const hE' hE g1.1 h2.1 t 0
  have w0 := fun t => left_wr hE hE' hl h1 g1 t
  -- the solutions from the left are multiples of each other
  have hphi : ∀ t, (phi' t).1 = wr2 (phi' 0) (psi 0) / a * (phi t).1 := by
    intro t
    rw [← hc t, div_mul_eq_mul_div, eq_div_iff ha, ← h4 t]
    have := w0 t
    unfold wr2 at this ⊢
    linear_combination (psi t).1 * this
  have k1 : wr2 (phi' 0) (psi 0) / a = 1 := by
    have t1 := g1.2.1.tendsto far_atBot
    have t2 := (h1.2.1.const_mul (wr2 (phi' 0) (psi 0) / a)).tendsto far_atBot
    have e : (fun t : ℝ => (phi' t).1 * exp (I * l * t)) = fun t : ℝ => wr2 (phi' 0) (psi 0) / a * ((phi t).1 * exp (I * l * t)) := by
      funext t; rw [hphi t]; ring
    rw [e] at t1
    have := tendsto_nhds_unique t1 t2
    rw [mul_one] at this; exact this.symm
  have t1 := g3.tendsto far_atTop
  have t2 := h3.tendsto far_atTop
  have e : (fun t : ℝ => (phi' t).1 * exp (I * l * t)) = fun t : ℝ => (phi t).1 * exp (I * l * t) := by
    funext t; rw [hphi t, k1, one_mul]
  rw [e] at t1
  exact tendsto_nhds_unique t2 t1

/-- `a(l)` in the upper half plane is unique. -/
theorem scatUpper_unique {E E' : Set ℝ} (hE : E.Finite) (hE' : E'.Finite) {q : ℝ → ℂ} {l a a' : ℂ} (hl : 0 ≤ l.im) (h : ScatUpper E q l a)
    (h' : ScatUpper E' q l a') : a = a' := by
  by_cases ha : a = 0
  · by_cases ha' : a' = 0
    · rw [ha, ha']
    · exact (scatUpper_eq hE' hE hl h' h ha').symm
  · exact scatUpper_eq hE hE' hl h h' ha

/-- For real `l`, there is a second solution. -/
theorem zs_conj {E : Set ℝ} {q : ℝ → ℂ} {l : ℝ} {v : ℝ → ℂ × ℂ} (h : ZS E q l v) : ZS E q l fun t => (conj (v t).2, -conj (v t).1) := by
  refine ⟨(continuous_conj.comp (ZS.cont2 h)).prodMk (continuous_conj.comp (ZS.cont1 h)).neg, fun t ht => ?_⟩
  obtain ⟨h1, h2⟩ := ZSAt.conj (h.2 t ht)
  refine ⟨HasDerivAt.congr_deriv h2 ?_, HasDerivAt.congr_deriv (HasDerivAt.neg h1) ?_⟩
  · simp only [Complex.conj_ofReal]; ring
  · simp only [Complex.conj_ofReal]; ring

/-- The conservation law for real `l`. -/
theorem left_cons {E : Set ℝ} (hE : E.Finite) {q : ℝ → ℂ} {l : ℝ} {v : ℝ → ℂ × ℂ} (h : JostLeft E q l v) (t : ℝ) :
    (v t).1 * conj (v t).1 + (v t).2 * conj (v t).2 = 1 := by
  have hc := fun s => wr2_const hE hE h.1 (zs_conj h.1) s t
  have l1 := ((h.2.1.mul h.2.1.conj).add (h.2.2.mul h.2.2.conj)).tendsto far_atBot
  have e : (fun s : ℝ => (v s).1 * exp (I * l * s) * conj ((v s).1 * exp (I * l * s)) + (v s).2 * exp (I * l * s) * conj ((v s).2 * exp (I * l * s))) =
      fun _ => (v t).1 * conj (v t).1 + (v t).2 * conj (v t).2 := by
    funext s
    have h1 : exp (I * l * s) * conj (exp (I * l * s)) = 1 := by
      rw [← Complex.exp_conj, ← Complex.exp_add]
      simp only [map_mul, conj_I, Complex.conj_ofReal]
      rw [show I * l * s + -I * l * s = (0 : ℂ) by ring, Complex.exp_zero]
    have h2 := hc s
    unfold wr2 at h2
    simp only [map_mul]
    linear_combination ((v s).1 * conj (v s).1 + (v s).2 * conj (v s).2) * h1 - h2
  rw [e] at l1
  have := tendsto_nhds_unique l1 tendsto_const_nhds
  rw [← this]; simp

/-- `a(l)` and `b(l)` are unique for real `l`. -/
theorem scatReal_unique {E E' : Set ℝ} (hE : E.Finite) (hE' : E'.Finite) {q : ℝ → ℂ} {l : ℝ} {a b a' b' : ℂ} (h : ScatReal E q l a b)
    (h' : ScatReal E' q l a' b') : a = a' ∧ b = b' := by
  obtain ⟨phi, h1, h2, h3⟩ := h
  obtain ⟨phi', g1, g2, g3⟩ := h'
  have w0 := fun t => left_wr hE hE' (by simp : 0 ≤ (l : ℂ).im) h1 g1 t
  have cl := fun t => left_cons hE h1 t
  have hc := fun t => wr2_const hE' hE g1.1 (zs_conj h1.1) t 0
  obtain ⟨k, hk⟩ : ∃ k, k = -wr2 (phi' 0) (conj (phi 0).2, -conj (phi 0).1) := ⟨_, rfl⟩
  have e1 : ∀ t, (phi' t).1 = k * (phi t).1 ∧ (phi' t).2 = k * (phi t).2 := by
    intro t
    have hw := w0 t
    rw [hk, ← hc t]
    unfold wr2 at hw ⊢
    constructor
    · linear_combination (-(phi' t).1) * cl t - conj (phi t).2 * hw
    · linear_combination (-(phi' t).2) * cl t + conj (phi t).1 * hw
  have k1 : k = 1 := by
    have t1 := g1.2.1.tendsto far_atBot
    have t2 := (h1.2.1.const_mul k).tendsto far_atBot
    have e : (fun t : ℝ => (phi' t).1 * exp (I * l * t)) = fun t : ℝ => k * ((phi t).1 * exp (I * l * t)) := by
      funext t; rw [(e1 t).1]; ring
    rw [e] at t1
    have := tendsto_nhds_unique t1 t2
    rw [mul_one] at this; exact this.symm
  have e2 : phi' = phi := by
    funext t; obtain ⟨a1, a2⟩ := e1 t
    rw [k1, one_mul] at a1 a2; exact Prod.ext a1 a2
  rw [e2] at g2 g3
  exact ⟨tendsto_nhds_unique (h2.tendsto far_atTop) (g2.tendsto far_atTop), tendsto_nhds_unique (h3.tendsto far_atTop) (g3.tendsto far_atTop)⟩

/-! ## Uniqueness of solutions -/

theorem norm_sq_conj (z : ℂ) : z * conj z = ((‖z‖ ^ 2 : ℝ) : ℂ) := by rw [mul_conj']; push_cast; ring

/-- A bound for the change of a function whose derivative is known except on a finite set. -/
theorem le_of_deriv {E : Set ℝ} (hE : E.Countable) {f g : ℝ → ℝ} (hf : Continuous f) (hg : Continuous g) (hd : ∀ t, t ∉ E → HasDerivAt f (g t) t)
    (h0 : ∀ t, 0 ≤ g t) {s t : ℝ} (hst : s ≤ t) : f s ≤ f t := by
  have := MeasureTheory.integral_eq_of_hasDerivAt_off_countable f g (a := s) (b := t) hE hf.continuousOn (fun x hx => hd x hx.2)
    (hg.intervalIntegrable s t)
  have h2 := intervalIntegral.integral_nonneg (f := g) (μ := MeasureTheory.volume) hst (fun x _ => h0 x)
  linarith

theorem re_deriv {f : ℝ → ℂ} {f' : ℂ} {t : ℝ} (h : HasDerivAt f f' t) : HasDerivAt (fun t => (f t).re) f'.re t :=
  (Complex.reCLM.hasFDerivAt.comp_hasDerivAt t h)

theorem zs_norm {q l : ℂ} {v : ℝ → ℂ × ℂ} {t : ℝ} (h : ZSAt q l v t) (c : ℝ) :
    HasDerivAt (fun t => (‖(v t).1‖ ^ 2 + ‖(v t).2‖ ^ 2) * Real.exp (c * t))
      (((2 * l.im + c) * ‖(v t).1‖ ^ 2 + (c - 2 * l.im) * ‖(v t).2‖ ^ 2) * Real.exp (c * t)) t := by
  obtain ⟨c1, c2⟩ := h.conj
  have e : HasDerivAt (fun t : ℝ => (c : ℂ) * t) c t := by
    have := HasDerivAt.comp_ofReal (HasDerivAt.const_mul (c : ℂ) (hasDerivAt_id (t : ℂ)))
    simpa using this
  have h1 := HasDerivAt.mul (HasDerivAt.add (HasDerivAt.mul h.1 c1) (HasDerivAt.mul h.2 c2)) (HasDerivAt.cexp e)
  have h2 := re_deriv h1
  have e1 : ∀ s : ℝ, ((((v s).1 * conj (v s).1) + (v s).2 * conj (v s).2) * exp (c * s)) =
      (((‖(v s).1‖ ^ 2 + ‖(v s).2‖ ^ 2) * Real.exp (c * s) : ℝ) : ℂ) := by
    intro s; rw [norm_sq_conj, norm_sq_conj]; push_cast; ring
  have hfun : (fun s : ℝ => ((((v s).1 * conj (v s).1) + (v s).2 * conj (v s).2) * exp (c * s)).re) =
      fun s => (‖(v s).1‖ ^ 2 + ‖(v s).2‖ ^ 2) * Real.exp (c * s) := by
    funext s; rw [e1, Complex.ofReal_re]
  have h3 : HasDerivAt (fun s : ℝ => ((((v s).1 * conj (v s).1) + (v s).2 * conj (v s).2) * exp (c * s)).re) _ t := h2
  rw [hfun] at h3
  refine HasDerivAt.congr_deriv h3 ?_
  have hl : I * conj l - I * l = ((2 * l.im : ℝ) : ℂ) := by
    have := sub_conj l
    have h4 : I * conj l - I * l = -I * (l - conj l) := by ring
    rw [h4, this]; push_cast; linear_combination (-2 * (l.im : ℂ)) * I_mul_I
  have : ((-I * l * (v t).1 + q * (v t).2) * conj (v t).1 + (v t).1 * (I * conj l * conj (v t).1 + conj q * conj (v t).2) +
      ((-conj q * (v t).1 + I * l * (v t).2) * conj (v t).2 + (v t).2 * (-q * conj (v t).1 - I * conj l * conj (v t).2))) * exp (c * t) +
      ((v t).1 * conj (v t).1 + (v t).2 * conj (v t).2) * (exp (c * t) * c) =
      ((((2 * l.im + c) * ‖(v t).1‖ ^ 2 + (c - 2 * l.im) * ‖(v t).2‖ ^ 2) * Real.exp (c * t) : ℝ) : ℂ) := by
    have n1 := norm_sq_conj (v t).1
    have n2 := norm_sq_conj (v t).2
    push_cast at n1 n2 hl ⊢
    rw [← n1, ← n2]
    linear_combination ((v t).1 * conj (v t).1 - (v t).2 * conj (v t).2) * exp (c * t) * hl
  have h5 := congrArg Complex.re this
  rw [Complex.ofReal_re] at h5
  exact h5

/-- A solution that vanishes somewhere vanishes everywhere. -/
theorem zs_zero {E : Set ℝ} (hE : E.Finite) {q : ℝ → ℂ} {l : ℂ} (hl : 0 ≤ l.im) {v : ℝ → ℂ × ℂ} (h : ZS E q l v) {s : ℝ} (hs : v s = 0) (t : ℝ) : v t = 0 := by
  have n1 : Continuous fun t => ‖(v t).1‖ ^ 2 := (ZS.cont1 h).norm.pow 2
  have n2 : Continuous fun t => ‖(v t).2‖ ^ 2 := (ZS.cont2 h).norm.pow 2
  have ex : ∀ c : ℝ, Continuous fun t : ℝ => Real.exp (c * t) := fun c => Real.continuous_exp.comp (continuous_const.mul continuous_id)
  have hc : ∀ c : ℝ, Continuous fun t => (‖(v t).1‖ ^ 2 + ‖(v t).2‖ ^ 2) * Real.exp (c * t) := fun c => (n1.add n2).mul (ex c)
  have key : ‖(v t).1‖ ^ 2 + ‖(v t).2‖ ^ 2 ≤ 0 := by
    have h0 : ‖(v s).1‖ ^ 2 + ‖(v s).2‖ ^ 2 = 0 := by rw [hs]; simp
    rcases le_total s t with hst | hts
    · have := le_of_deriv hE.countable (f := fun t => -((‖(v t).1‖ ^ 2 + ‖(v t).2‖ ^ 2) * Real.exp (-(2 * l.im) * t)))
        (g := fun t => -(((2 * l.im + -(2 * l.im)) * ‖(v t).1‖ ^ 2 + (-(2 * l.im) - 2 * l.im) * ‖(v t).2‖ ^ 2) * Real.exp (-(2 * l.im) * t)))
        (hc _).neg (((continuous_const.mul n1).add (continuous_const.mul n2)).mul (ex _)).neg (fun x hx => HasDerivAt.neg (zs_norm (h.2 x hx) _)) (fun x => by
          have : 0 ≤ l.im * ‖(v x).2‖ ^ 2 * Real.exp (-(2 * l.im) * x) := by positivity
          nlinarith) hst
      rw [h0, zero_mul] at this
      have hp := Real.exp_pos (-(2 * l.im) * t)
      by_contra hcon
      push Not at hcon
      have := mul_pos hcon hp
      linarith
    · have := le_of_deriv hE.countable (f := fun t => (‖(v t).1‖ ^ 2 + ‖(v t).2‖ ^ 2) * Real.exp (2 * l.im * t))
        (g := fun t => (((2 * l.im + 2 * l.im) * ‖(v t).1‖ ^ 2 + (2 * l.im - 2 * l.im) * ‖(v t).2‖ ^ 2) * Real.exp (2 * l.im * t)))
        (hc _) (((continuous_const.mul n1).add (continuous_const.mul n2)).mul (ex _)) (fun x hx => zs_norm (h.2 x hx) _) (fun x => by
          have : 0 ≤ l.im * ‖(v x).1‖ ^ 2 * Real.exp (2 * l.im * x) := by positivity
          nlinarith) hts
      rw [h0, zero_mul] at this
      have hp := Real.exp_pos (2 * l.im * t)
      by_contra hcon
      push Not at hcon
      have := mul_pos hcon hp
      linarith
  have p1 := sq_nonneg ‖(v t).1‖
  have p2 := sq_nonneg ‖(v t).2‖
  have z1 : ‖(v t).1‖ ^ 2 = 0 := by linarith
  have z2 : ‖(v t).2‖ ^ 2 = 0 := by linarith
  exact Prod.ext (norm_eq_zero.mp (pow_eq_zero_iff (two_ne_zero) |>.mp z1)) (norm_eq_zero.mp (pow_eq_zero_iff (two_ne_zero) |>.mp z2))

theorem zs_mono {E E' : Set ℝ} (h : E ⊆ E') {q : ℝ → ℂ} {l : ℂ} {v : ℝ → ℂ × ℂ} (hv : ZS E q l v) : ZS E' q l v := ⟨hv.1, fun t ht => hv.2 t fun h' => ht (h h')⟩

/-- Solutions with Wronskian zero are multiples of each other. -/
theorem zs_dep {E E' : Set ℝ} (hE : E.Finite) (hE' : E'.Finite) {q : ℝ → ℂ} {l : ℂ} (hl : 0 ≤ l.im) {v w : ℝ → ℂ × ℂ} (hv : ZS E q l v) (hw : ZS E' q l w)
    {s : ℝ} (hs : v s ≠ 0) (h0 : wr2 (v s) (w s) = 0) : ∃ k, ∀ t, w t = (k * (v t).1, k * (v t).2) := by
  obtain ⟨k, hk⟩ : ∃ k, w s = (k * (v s).1, k * (v s).2) := by
    unfold wr2 at h0
    by_cases h1 : (v s).1 = 0
    · have h2 : (v s).2 ≠ 0 := fun h2 => hs (Prod.ext h1 h2)
      rw [h1] at h0
      have : (w s).1 = 0 := by
        rcases mul_eq_zero.mp (by linear_combination -h0 : (v s).2 * (w s).1 = 0) with h | h
        · exact absurd h h2
        · exact h
      exact ⟨(w s).2 / (v s).2, Prod.ext (by rw [this, h1]; simp) (by dsimp only; field_simp)⟩
    · refine ⟨(w s).1 / (v s).1, Prod.ext (by dsimp only; field_simp) ?_⟩
      dsimp only
      field_simp
      linear_combination h0
  refine ⟨k, fun t => ?_⟩
  have hd := ZS.comb (zs_mono Set.subset_union_right hw : ZS (E ∪ E') q l w) (zs_mono Set.subset_union_left hv) k
  have := zs_zero (hE.union hE') hl hd (s := s) (by rw [hk]; simp) t
  exact Prod.ext (sub_eq_zero.mp (congrArg Prod.fst this)) (sub_eq_zero.mp (congrArg Prod.snd this))

theorem left_unique {E E' : Set ℝ} (hE : E.Finite) (hE' : E'.Finite) {q : ℝ → ℂ} {l : ℂ} (hl : 0 ≤ l.im) {v w : ℝ → ℂ × ℂ} (hv : JostLeft E q l v)
    (hw : JostLeft E' q l w) : v = w := by
  obtain ⟨s, hs⟩ := (hv.2.1.ne far_atBot one_ne_zero).exists
  obtain ⟨k, hk⟩ := zs_dep hE hE' hl hv.1 hw.1 (s := s) (fun h => hs (by rw [h]; simp)) (left_wr hE hE' hl hv hw s)
  have t1 := hw.2.1.tendsto far_atBot
  have t2 := (hv.2.1.const_mul k).tendsto far_atBot
  have e : (fun t : ℝ => (w t).1 * exp (I * l * t)) = fun t : ℝ => k * ((v t).1 * exp (I * l * t)) := by
    funext t; rw [hk t]; ring
  rw [e] at t1
  have k1 := tendsto_nhds_unique t1 t2
  rw [mul_one] at k1
  funext t
  rw [hk t, ← k1]; simp

theorem right_unique {E E' : Set ℝ} (hE : E.Finite) (hE' : E'.Finite) {q : ℝ → ℂ} {l : ℂ} (hl : 0 ≤ l.im) {v w : ℝ → ℂ × ℂ} (hv : JostRight E q l v)
    (hw : JostRight E' q l w) : v = w := by
  obtain ⟨s, hs⟩ := (hv.2.2.ne far_atTop one_ne_zero).exists
  obtain ⟨k, hk⟩ := zs_dep hE hE' hl hv.1 hw.1 (s := s) (fun h => hs (by rw [h]; simp)) (right_wr hE hE' hl hv hw s)
  have t1 := hw.2.2.tendsto far_atTop
  have t2 := (hv.2.2.const_mul k).tendsto far_atTop
  have e : (fun t : ℝ => (w t).2 * exp (-I * l * t)) = fun t : ℝ => k * ((v t).2 * exp (-I * l * t)) := by
    funext t; rw [hk t]; ring
  rw [e] at t1
  have k1 := tendsto_nhds_unique t1 t2
  rw [mul_one] at k1
  funext t
  rw [hk t, ← k1]; simp

/-- The norming constant of an eigenvalue is unique. -/
theorem bound_unique {E E' : Set ℝ} (hE : E.Finite) (hE' : E'.Finite) {q : ℝ → ℂ} {l b b' : ℂ} (hl : 0 ≤ l.im) (h : Bound E q l b) (h' : Bound E' q l b') :
    b = b' := by
  obtain ⟨phi, psi, h1, h2, h3⟩ := h
  obtain ⟨phi', psi', g1, g2, g3⟩ := h'
  rw [← left_unique hE hE' hl h1 g1, ← right_unique hE hE' hl h2 g2] at g3
  obtain ⟨s, hs⟩ := (h2.2.2.ne far_atTop one_ne_zero).exists
  have e := (h3 s).symm.trans (g3 s)
  have e2 : b * (psi s).2 = b' * (psi s).2 := congrArg Prod.snd e
  exact mul_right_cancel₀ (fun h => hs (by rw [h]; simp)) e2

/-- An eigenvalue is a zero of `a`. -/
theorem bound_zero {E E' : Set ℝ} (hE : E.Finite) (hE' : E'.Finite) {q : ℝ → ℂ} {l b a : ℂ} (hl : 0 ≤ l.im) (h : Bound E q l b) (h' : ScatUpper E' q l a) : a = 0 := by
  obtain ⟨phi, psi, h1, h2, h3⟩ := h
  obtain ⟨phi', psi', g1, g2, _, g4⟩ := h'
  rw [← left_unique hE hE' hl h1 g1, ← right_unique hE hE' hl h2 g2] at g4
  rw [← g4 0, h3 0]
  dsimp only
  ring

end FNFT

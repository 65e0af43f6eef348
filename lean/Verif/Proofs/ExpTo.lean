import Verif.Spec.ZS
import Mathlib.Analysis.Complex.Norm
/-!
# Exponential convergence
-/
namespace FNFT.Spec
open Complex Filter Asymptotics

variable {l : Filter ℝ} {f g : ℝ → ℂ} {L M : ℂ}

theorem expO_mono {c c' : ℝ} (h : c' ≤ c) (l : Filter ℝ) : (fun t : ℝ => Real.exp (-c * |t|)) =O[l] fun t => Real.exp (-c' * |t|) := by
  refine IsBigO.of_bound 1 (Eventually.of_forall fun t => ?_)
  rw [Real.norm_eq_abs, Real.abs_exp, Real.norm_eq_abs, Real.abs_exp, one_mul]
  exact Real.exp_le_exp.mpr (by nlinarith [abs_nonneg t])

theorem expO_one {c : ℝ} (h : 0 ≤ c) (l : Filter ℝ) : (fun t : ℝ => Real.exp (-c * |t|)) =O[l] fun _ => (1 : ℝ) := by
  have := expO_mono h l
  simpa using this

theorem ExpTo.const (l : Filter ℝ) (L : ℂ) : ExpTo l (fun _ => L) L := by
  refine ⟨1, one_pos, ?_⟩
  simp only [sub_self]
  exact isBigO_zero _ _

theorem ExpTo.congr (h : ExpTo l f L) (hfg : f =ᶠ[l] g) : ExpTo l g L := by
  obtain ⟨c, hc, h⟩ := h
  exact ⟨c, hc, h.congr' (hfg.mono fun t ht => by simp only [ht]) EventuallyEq.rfl⟩

theorem ExpTo.add (hf : ExpTo l f L) (hg : ExpTo l g M) : ExpTo l (fun t => f t + g t) (L + M) := by
  obtain ⟨c, hc, hf⟩ := hf
  obtain ⟨d, hd, hg⟩ := hg
  refine ⟨min c d, lt_min hc hd, ?_⟩
  have := (hf.trans (expO_mono (min_le_left c d) l)).add (hg.trans (expO_mono (min_le_right c d) l))
  exact this.congr_left fun t => by ring

theorem ExpTo.bounded (hf : ExpTo l f L) : f =O[l] fun _ => (1 : ℝ) := by
  obtain ⟨c, hc, hf⟩ := hf
  have h2 : (fun _ : ℝ => L) =O[l] fun _ => (1 : ℝ) := isBigO_const_const _ one_ne_zero _
  exact ((hf.trans (expO_one hc.le l)).add h2).congr_left fun t => by ring

/-- A bounded function times a function that tends to zero. -/
theorem ExpTo.bdd_mul (hb : f =O[l] fun _ => (1 : ℝ)) (hg : ExpTo l g 0) : ExpTo l (fun t => f t * g t) 0 := by
  obtain ⟨c, hc, hg⟩ := hg
  refine ⟨c, hc, ?_⟩
  have := hb.mul hg
  simpa using this

theorem ExpTo.mul (hf : ExpTo l f L) (hg : ExpTo l g M) : ExpTo l (fun t => f t * g t) (L * M) := by
  have hf0 : ExpTo l (fun t => f t - L) 0 := by
    obtain ⟨c, hc, h⟩ := hf
    exact ⟨c, hc, by simpa using h⟩
  have hg0 : ExpTo l (fun t => g t - M) 0 := by
    obtain ⟨c, hc, h⟩ := hg
    exact ⟨c, hc, by simpa using h⟩
  have h1 := ExpTo.bdd_mul hf.bounded hg0
  have h2 := ExpTo.bdd_mul (f := fun _ => M) (isBigO_const_const _ one_ne_zero _) hf0
  have h3 := (h1.add h2).add (ExpTo.const l (L * M))
  rw [zero_add, zero_add] at h3
  exact h3.congr (Eventually.of_forall fun t => by ring)

theorem ExpTo.const_mul (c : ℂ) (hf : ExpTo l f L) : ExpTo l (fun t => c * f t) (c * L) := (ExpTo.const l c).mul hf

theorem ExpTo.neg (hf : ExpTo l f L) : ExpTo l (fun t => -f t) (-L) := by
  have := hf.const_mul (-1)
  simpa using this

theorem ExpTo.sub (hf : ExpTo l f L) (hg : ExpTo l g M) : ExpTo l (fun t => f t - g t) (L - M) := by
  have := hf.add hg.neg
  simpa [sub_eq_add_neg] using this

theorem ExpTo.conj (hf : ExpTo l f L) : ExpTo l (fun t => (starRingEnd ℂ) (f t)) ((starRingEnd ℂ) L) := by
  obtain ⟨c, hc, h⟩ := hf
  refine ⟨c, hc, ?_⟩
  refine IsBigO.congr_left (f₁ := fun t => (starRingEnd ℂ) (f t - L)) ?_ fun t => by rw [map_sub]
  refine (IsBigO.of_norm_left ?_)
  simp only [RCLike.norm_conj]
  exact h.norm_left

/-- The filters that are used. -/
def Far (l : Filter ℝ) : Prop := Tendsto (fun t : ℝ => |t|) l atTop

theorem far_atBot : Far atBot := tendsto_abs_atBot_atTop
theorem far_atTop : Far atTop := tendsto_abs_atTop_atTop

theorem ExpTo.tendsto (hl : Far l) (hf : ExpTo l f L) : Tendsto f l (nhds L) := by
  obtain ⟨c, hc, h⟩ := hf
  have h1 : Tendsto (fun t : ℝ => Real.exp (-c * |t|)) l (nhds 0) := by
    refine Real.tendsto_exp_atBot.comp ?_
    exact hl.const_mul_atTop_of_neg (by linarith)
  have h2 := h.trans_tendsto h1
  have h3 := h2.add_const L
  simpa using h3

theorem ExpTo.ne (hl : Far l) (hf : ExpTo l f L) (hL : L ≠ 0) : ∀ᶠ t in l, f t ≠ 0 :=
  (hf.tendsto hl).eventually_ne hL

theorem ExpTo.inv (hl : Far l) (hf : ExpTo l f L) (hL : L ≠ 0) : ExpTo l (fun t => (f t)⁻¹) L⁻¹ := by
  have ht := (hf.tendsto hl).inv₀ hL
  have hb : (fun t => (f t)⁻¹) =O[l] fun _ => (1 : ℝ) := ht.isBigO_one ℝ
  obtain ⟨c, hc, h⟩ := hf
  have h0 : ExpTo l (fun t => f t - L) 0 := ⟨c, hc, by simpa using h⟩
  have h1 := (ExpTo.bdd_mul hb h0).const_mul (-L⁻¹)
  have h2 := h1.add (ExpTo.const l L⁻¹)
  rw [mul_zero, zero_add] at h2
  refine h2.congr ((ht.eventually_ne (inv_ne_zero hL)).mono fun t hne => ?_)
  have hne' : f t ≠ 0 := fun h0 => hne (by rw [h0, inv_zero])
  field_simp
  ring

theorem ExpTo.div (hl : Far l) (hf : ExpTo l f L) (hg : ExpTo l g M) (hM : M ≠ 0) : ExpTo l (fun t => f t / g t) (L / M) := by
  have := hf.mul (hg.inv hl hM)
  simpa [div_eq_mul_inv] using this

/-- The exponential that decays at the left end. -/
theorem expTo_left {m : ℂ} (hm : 0 < m.im) : ExpTo atBot (fun t : ℝ => exp (-(2 * I * m * t))) 0 := by
  refine ⟨2 * m.im, by linarith, ?_⟩
  refine IsBigO.of_bound 1 ((eventually_le_atBot 0).mono fun t ht => ?_)
  rw [sub_zero, Complex.norm_exp, Real.norm_eq_abs, Real.abs_exp, one_mul, abs_of_nonpos ht]
  refine Real.exp_le_exp.mpr (le_of_eq ?_)
  simp

theorem expTo_right {m : ℂ} (hm : 0 < m.im) : ExpTo atTop (fun t : ℝ => exp (2 * I * m * t)) 0 := by
  refine ⟨2 * m.im, by linarith, ?_⟩
  refine IsBigO.of_bound 1 ((eventually_ge_atTop 0).mono fun t ht => ?_)
  rw [sub_zero, Complex.norm_exp, Real.norm_eq_abs, Real.abs_exp, one_mul, abs_of_nonneg ht]
  refine Real.exp_le_exp.mpr (le_of_eq ?_)
  simp

end FNFT.Spec

import Verif.Proofs.DarbouxJost
import Mathlib.Analysis.SpecialFunctions.ExpDeriv
import Mathlib.Analysis.Calculus.Deriv.Linear
/-!
# Several Darboux transforms one after the other
-/
namespace FNFT
open Complex Filter Spec

local notation "conj" => starRingEnd ℂ

/-- The potential and its Jost solutions after all transforms. -/
noncomputable def dbAll : List (ℂ × ℂ) → (ℝ → ℂ) → (ℂ → ℝ → ℂ × ℂ) → (ℂ → ℝ → ℂ × ℂ) → (ℝ → ℂ) × (ℂ → ℝ → ℂ × ℂ) × (ℂ → ℝ → ℂ × ℂ)
  | [], q, phi, psi => (q, phi, psi)
  | (m, β) :: L, q, phi, psi =>
    dbAll L (dbQ q m (dbV phi psi m β)) (dbSol m (dbV phi psi m β) phi) (dbSol m (dbV phi psi m β) psi)

theorem dbSol_prop {m : ℂ} {v : ℝ → ℂ × ℂ} {phi psi : ℂ → ℝ → ℂ × ℂ} {l b : ℂ} {t : ℝ}
    (h : phi l t = (b * (psi l t).1, b * (psi l t).2)) :
    dbSol m v phi l t = (b * (dbSol m v psi l t).1, b * (dbSol m v psi l t).2) := by
  unfold dbSol dApp
  rw [h]
  refine Prod.ext ?_ ?_ <;> dsimp only <;> ring

theorem dbAll_prop (L : List (ℂ × ℂ)) : ∀ (q : ℝ → ℂ) (phi psi : ℂ → ℝ → ℂ × ℂ) (l b : ℂ) (t : ℝ),
    phi l t = (b * (psi l t).1, b * (psi l t).2) →
    (dbAll L q phi psi).2.1 l t = (b * ((dbAll L q phi psi).2.2 l t).1, b * ((dbAll L q phi psi).2.2 l t).2) := by
  induction L with
  | nil => intro q phi psi l b t h; exact h
  | cons x L ih => intro q phi psi l b t h; exact ih _ _ _ l b t (dbSol_prop h)

theorem dbSol_bound {phi psi : ℂ → ℝ → ℂ × ℂ} {m b : ℂ} {t : ℝ} (hv : dbV phi psi m b t ≠ 0) :
    dbSol m (dbV phi psi m b) phi m t = (b * (dbSol m (dbV phi psi m b) psi m t).1, b * (dbSol m (dbV phi psi m b) psi m t).2) := by
  have h := dApp_kernel m hv
  have h' := dApp_sub m (dS1 m (dbV phi psi m b t)) (dS2 m (dbV phi psi m b t)) (phi m t) (psi m t) b
  have e : ((phi m t).1 - b * (psi m t).1, (phi m t).2 - b * (psi m t).2) = dbV phi psi m b t := rfl
  rw [e, h] at h'
  have h1 : (dApp m (dS1 m (dbV phi psi m b t)) (dS2 m (dbV phi psi m b t)) (phi m t)).1 =
      b * (dApp m (dS1 m (dbV phi psi m b t)) (dS2 m (dbV phi psi m b t)) (psi m t)).1 := by
    have := congrArg Prod.fst h'; exact (sub_eq_zero.mp this.symm)
  have h2 : (dApp m (dS1 m (dbV phi psi m b t)) (dS2 m (dbV phi psi m b t)) (phi m t)).2 =
      b * (dApp m (dS1 m (dbV phi psi m b t)) (dS2 m (dbV phi psi m b t)) (psi m t)).2 := by
    have := congrArg Prod.snd h'; exact (sub_eq_zero.mp this.symm)
  unfold dbSol
  rw [h1, h2]
  refine Prod.ext ?_ ?_ <;> dsimp only <;> ring

/-- All transforms: the scattering data of the result. -/
theorem JF.all (L : List (ℂ × ℂ)) : ∀ {E : Set ℝ} {q : ℝ → ℂ} {phi psi : ℂ → ℝ → ℂ × ℂ} {a : ℂ → ℂ} {b : ℝ → ℂ}, JF E q phi psi a b →
    (∀ x ∈ L, 0 < x.1.im ∧ x.2 ≠ 0 ∧ a x.1 ≠ 0) → (L.map Prod.fst).Nodup →
    JF E (dbAll L q phi psi).1 (dbAll L q phi psi).2.1 (dbAll L q phi psi).2.2 (fun l => blaschke (L.map Prod.fst) l * a l) b ∧
      ∀ x ∈ L, ∀ t, (dbAll L q phi psi).2.1 x.1 t =
        (x.2 * ((dbAll L q phi psi).2.2 x.1 t).1, x.2 * ((dbAll L q phi psi).2.2 x.1 t).2) := by
  induction L with
  | nil =>
    intro E q phi psi a b h _ _
    refine ⟨?_, by simp⟩
    simpa [blaschke, dbAll] using h
  | cons x L ih =>
    intro E q phi psi a b h hx hn
    obtain ⟨m, β⟩ := x
    obtain ⟨hm, hβ, ha⟩ := hx (m, β) (by simp)
    have hn' := List.nodup_cons.mp (by simpa using hn : (m :: L.map Prod.fst).Nodup)
    obtain ⟨hs, hv⟩ := h.step hm hβ ha
    obtain ⟨h1, h2⟩ := ih hs (fun x hxL => by
      obtain ⟨c1, c2, c3⟩ := hx x (List.mem_cons_of_mem _ hxL)
      refine ⟨c1, c2, ?_⟩
      refine mul_ne_zero (div_ne_zero (sub_ne_zero.mpr ?_) (sub_conj_ne c1.le hm)) c3
      rintro rfl
      exact hn'.1 (List.mem_map_of_mem hxL)) hn'.2
    refine ⟨?_, ?_⟩
    · have e : (fun l => blaschke (List.map Prod.fst ((m, β) :: L)) l * a l) =
          fun l => blaschke (List.map Prod.fst L) l * ((l - m) / (l - conj m) * a l) := by
        funext l
        simp only [blaschke, List.map_cons, List.prod_cons]; ring
      rw [e]
      exact h1
    · intro x hxL t
      rcases List.mem_cons.mp hxL with rfl | hxL
      · exact dbAll_prop L _ _ _ _ _ _ (dbSol_bound (hv t))
      · exact h2 x hxL t

/-- The scattering data in terms of the specification. -/
theorem JF.real {E : Set ℝ} {q : ℝ → ℂ} {phi psi : ℂ → ℝ → ℂ × ℂ} {a : ℂ → ℂ} {b : ℝ → ℂ} (h : JF E q phi psi a b) (l : ℝ) :
    ScatReal E q l (a l) (b l) := ⟨phi l, h.left l (by simp), h.phi1 l (by simp), h.phib l⟩

theorem JF.upper {E : Set ℝ} {q : ℝ → ℂ} {phi psi : ℂ → ℝ → ℂ × ℂ} {a : ℂ → ℂ} {b : ℝ → ℂ} (h : JF E q phi psi a b) {l : ℂ} (hl : 0 < l.im) :
    ScatUpper E q l (a l) := ⟨phi l, psi l, h.left l hl.le, h.right l hl.le, h.phi1 l hl.le, h.wron l hl.le⟩

theorem JF.bound {E : Set ℝ} {q : ℝ → ℂ} {phi psi : ℂ → ℝ → ℂ × ℂ} {a : ℂ → ℂ} {b : ℝ → ℂ} (h : JF E q phi psi a b) {l β : ℂ} (hl : 0 < l.im)
    (hb : ∀ t, phi l t = (β * (psi l t).1, β * (psi l t).2)) : Bound E q l β := ⟨phi l, psi l, h.left l hl.le, h.right l hl.le, hb⟩

/-- The zero potential. -/
theorem JF.zero : JF ∅ (fun _ => 0) (fun l t => (exp (-I * l * t), 0)) (fun l t => (0, exp (I * l * t))) (fun _ => 1) (fun _ => 0) := by
  have e1 : ∀ (l : ℂ) (t : ℝ), exp (-I * l * t) * exp (I * l * t) = 1 := by
    intro l t; rw [← Complex.exp_add]; simp
  have e2 : ∀ (l : ℂ) (t : ℝ), exp (I * l * t) * exp (-I * l * t) = 1 := by
    intro l t; rw [← Complex.exp_add]; simp
  have d : ∀ (c : ℂ) (t : ℝ), HasDerivAt (fun t : ℝ => exp (c * t)) (c * exp (c * t)) t := by
    intro c t
    have h1 : HasDerivAt (fun t : ℝ => c * (t : ℂ)) (c * 1) t := HasDerivAt.const_mul c (Complex.ofRealCLM.hasDerivAt (x := t))
    have := HasDerivAt.cexp h1
    refine HasDerivAt.congr_deriv this ?_
    ring
  have cc : ∀ (c : ℂ), Continuous fun t : ℝ => exp (c * t) := fun c =>
    Complex.continuous_exp.comp (continuous_const.mul Complex.continuous_ofReal)
  refine ⟨?_, ?_, ?_, ?_, ?_, ?_, ?_, ?_, ?_⟩
  · intro l _
    refine ⟨⟨(cc _).prodMk continuous_const, fun t _ => ⟨?_, ?_⟩⟩, ?_, ?_⟩
    · refine HasDerivAt.congr_deriv (d (-I * l) t) ?_
      simp
    · refine HasDerivAt.congr_deriv (hasDerivAt_const t (0 : ℂ)) ?_
      simp
    · simp only [e1]; exact ExpTo.const _ _
    · simp only [zero_mul]; exact ExpTo.const _ _
  · intro l _
    refine ⟨⟨continuous_const.prodMk (cc _), fun t _ => ⟨?_, ?_⟩⟩, ?_, ?_⟩
    · refine HasDerivAt.congr_deriv (hasDerivAt_const t (0 : ℂ)) ?_
      simp
    · refine HasDerivAt.congr_deriv (d (I * l) t) ?_
      simp
    · simp only [zero_mul]; exact ExpTo.const _ _
    · simp only [e2]; exact ExpTo.const _ _
  · intro l _; simp only [e1]; exact ExpTo.const _ _
  · intro l _; simp only [zero_mul]; exact ExpTo.const _ _
  · intro l _; simp only [zero_mul]; exact ExpTo.const _ _
  · intro l _; simp only [e2]; exact ExpTo.const _ _
  · intro l _ t; simp only [e1, mul_zero, sub_zero]
  · intro l; simp only [zero_mul]; exact ExpTo.const _ _
  · exact ⟨ExpTo.const _ _, ExpTo.const _ _⟩

end FNFT

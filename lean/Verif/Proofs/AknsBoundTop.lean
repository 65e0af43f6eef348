import Verif.Proofs.AknsBound
/-!
# `akns_scatter_bound_states`: precomputations, one bound state, all bound states
-/
namespace FNFT
open Complex Matrix AknsDisc

/-! ## Precomputations -/

theorem es4PreB_ok {N : ℕ} {q r : Buf ℂ} {qf rf : ℕ → ℂ} (hq : q.Holds 0 (3 * N) qf)
    (hr : r.Holds 0 (3 * N) rf) (eps : ℝ) :
    ∃ tmp, forLoop N (es4PreB (3 * N) eps q r) (Buf.malloc (2 * (3 * N))) = some tmp ∧ ∀ j, j < N →
      tmp.rd (3 * j) = some (es4x eps qf rf j) ∧ tmp.rd (3 * j + 1) = some (es4y eps qf rf j) ∧
      tmp.rd (3 * j + 2) = some (es4z eps qf rf j) ∧ tmp.rd (3 * N + 3 * j) = some (es4dx eps qf rf j) ∧
        tmp.rd (3 * N + 3 * j + 1) = some (es4dy eps qf rf j) ∧ tmp.rd (3 * N + 3 * j + 2) = some (-I * eps) := by
  have hb1 : ∀ (j : ℕ) (t : Buf ℂ), j < N → es4Pre1 eps q r j t = (t.wr (3 * j) (es4x eps qf rf j)).bind
      (fun b => (b.wr (3 * j + 1) (es4y eps qf rf j)).bind fun b => b.wr (3 * j + 2) (es4z eps qf rf j)) := by
    intro j t hj
    unfold es4Pre1
    simp only [rdH hq (show 3 * j < 3 * N by omega), rdH hq (show 3 * j + 1 < 3 * N by omega),
      rdH hq (show 3 * j + 2 < 3 * N by omega), rdH hr (show 3 * j < 3 * N by omega),
      rdH hr (show 3 * j + 1 < 3 * N by omega), rdH hr (show 3 * j + 2 < 3 * N by omega),
      Option.bind_eq_bind, Option.bind_some]
    rfl
  have hb2 : ∀ (j : ℕ) (t : Buf ℂ), j < N → es4Pre2 (3 * N) eps q r j t = (t.wr (3 * N + 3 * j) (es4dx eps qf rf j)).bind
      (fun b => (b.wr (3 * N + 3 * j + 1) (es4dy eps qf rf j)).bind fun b => b.wr (3 * N + 3 * j + 2) (-I * eps)) := by
    intro j t hj
    unfold es4Pre2
    simp only [rdH hq (show 3 * j + 1 < 3 * N by omega), rdH hr (show 3 * j + 1 < 3 * N by omega),
      Option.bind_eq_bind, Option.bind_some]
    rfl
  have key := forLoop_inv (n := N) (body := es4PreB (3 * N) eps q r) (s := Buf.malloc (2 * (3 * N)))
    (fun k (tmp : Buf ℂ) => tmp.len = 2 * (3 * N) ∧ ∀ j, j < k →
      tmp.rd (3 * j) = some (es4x eps qf rf j) ∧ tmp.rd (3 * j + 1) = some (es4y eps qf rf j) ∧
      tmp.rd (3 * j + 2) = some (es4z eps qf rf j) ∧ tmp.rd (3 * N + 3 * j) = some (es4dx eps qf rf j) ∧
        tmp.rd (3 * N + 3 * j + 1) = some (es4dy eps qf rf j) ∧ tmp.rd (3 * N + 3 * j + 2) = some (-I * eps))
    ⟨rfl, fun j h => by omega⟩ ?_
  · obtain ⟨t, h1, -, h2⟩ := key
    exact ⟨t, h1, h2⟩
  · rintro k t hk ⟨h1, h2⟩
    obtain ⟨t1, e1, e2, e3, e4, e5, e6⟩ := wr3 t (3 * k) (es4x eps qf rf k) (es4y eps qf rf k) (es4z eps qf rf k) (by omega)
    obtain ⟨t2, f1, f2, f3, f4, f5, f6⟩ := wr3 t1 (3 * N + 3 * k) (es4dx eps qf rf k) (es4dy eps qf rf k) (-I * eps) (by omega)
    refine ⟨t2, ?_, by omega, ?_⟩
    · unfold es4PreB
      rw [hb1 k t hk, e1, Option.bind_eq_bind, Option.bind_some, hb2 k t1 hk, f1]
    · intro j hj
      rcases Nat.lt_succ_iff_lt_or_eq.mp hj with h | rfl
      · rw [f6 _ (by omega), f6 _ (by omega), f6 _ (by omega), f6 _ (by omega), f6 _ (by omega), f6 _ (by omega),
          e6 _ (by omega), e6 _ (by omega), e6 _ (by omega), e6 _ (by omega), e6 _ (by omega), e6 _ (by omega)]
        exact h2 j h
      · rw [f6 (3 * j) (by omega), f6 (3 * j + 1) (by omega), f6 (3 * j + 2) (by omega)]
        exact ⟨e3, e4, e5, f3, f4, f5⟩

theorem tes4PreB_ok {N : ℕ} {q r : Buf ℂ} {qf rf : ℕ → ℂ} (hq : q.Holds 0 (3 * N) qf)
    (hr : r.Holds 0 (3 * N) rf) (eps : ℝ) (tmp0 : Buf ℂ) (hL : tmp0.len = 4 * (3 * N)) :
    ∃ tmp, forLoop N (tes4PreB (3 * N) eps q r) tmp0 = some tmp ∧ (∀ i, i < 2 * (3 * N) → tmp.rd i = tmp0.rd i) ∧ ∀ j, j < N →
      tmp.rd (2 * (3 * N) + 3 * j) = some (-tes4x 1 eps qf rf j) ∧ tmp.rd (2 * (3 * N) + 3 * j + 1) = some (-tes4y 1 eps qf rf j) ∧
      tmp.rd (3 * (3 * N) + 3 * j) = some (-tes4x (-1) eps qf rf j) ∧ tmp.rd (3 * (3 * N) + 3 * j + 1) = some (-tes4y (-1) eps qf rf j) := by
  have hb : ∀ (j : ℕ) (t : Buf ℂ), j < N → tes4PreB (3 * N) eps q r j t = (t.wr (2 * (3 * N) + 3 * j) (-tes4x 1 eps qf rf j)).bind
      (fun b => (b.wr (2 * (3 * N) + 3 * j + 1) (-tes4y 1 eps qf rf j)).bind fun b =>
        (b.wr (3 * (3 * N) + 3 * j) (-tes4x (-1) eps qf rf j)).bind
        fun b => b.wr (3 * (3 * N) + 3 * j + 1) (-tes4y (-1) eps qf rf j)) := by
    intro j t hj
    unfold tes4PreB
    simp only [rdH hq (show 3 * j + 1 < 3 * N by omega), rdH hq (show 3 * j + 2 < 3 * N by omega),
      rdH hr (show 3 * j + 1 < 3 * N by omega), rdH hr (show 3 * j + 2 < 3 * N by omega),
      Option.bind_eq_bind, Option.bind_some]
    have e1 : (-((eps * eps * eps : ℝ) : ℂ) * (qf (3 * j + 2) + rf (3 * j + 2))) / 96 -
        (((eps * eps : ℝ) : ℂ) * (qf (3 * j + 1) + rf (3 * j + 1))) / 24 = -tes4x 1 eps qf rf j := by
      unfold tes4x; push_cast; ring
    have e2 : (-((eps * eps * eps : ℝ) : ℂ) * (qf (3 * j + 2) - rf (3 * j + 2)) * I) / 96 +
        (((eps * eps : ℝ) : ℂ) * (rf (3 * j + 1) - qf (3 * j + 1)) * I) / 24 = -tes4y 1 eps qf rf j := by
      unfold tes4y; push_cast; ring
    have e3 : (-((eps * eps * eps : ℝ) : ℂ) * (qf (3 * j + 2) + rf (3 * j + 2))) / 96 +
        (((eps * eps : ℝ) : ℂ) * (qf (3 * j + 1) + rf (3 * j + 1))) / 24 = -tes4x (-1) eps qf rf j := by
      unfold tes4x; push_cast; ring
    have e4 : (-((eps * eps * eps : ℝ) : ℂ) * (qf (3 * j + 2) - rf (3 * j + 2)) * I) / 96 +
        (((eps * eps : ℝ) : ℂ) * (qf (3 * j + 1) - rf (3 * j + 1)) * I) / 24 = -tes4y (-1) eps qf rf j := by
      unfold tes4y; push_cast; ring
    rw [e1, e2, e3, e4]
  have key := forLoop_inv (n := N) (body := tes4PreB (3 * N) eps q r) (s := tmp0)
    (fun k (tmp : Buf ℂ) => tmp.len = 4 * (3 * N) ∧ (∀ i, i < 2 * (3 * N) → tmp.rd i = tmp0.rd i) ∧ ∀ j, j < k →
      tmp.rd (2 * (3 * N) + 3 * j) = some (-tes4x 1 eps qf rf j) ∧ tmp.rd (2 * (3 * N) + 3 * j + 1) = some (-tes4y 1 eps qf rf j) ∧
      tmp.rd (3 * (3 * N) + 3 * j) = some (-tes4x (-1) eps qf rf j) ∧ tmp.rd (3 * (3 * N) + 3 * j + 1) = some (-tes4y (-1) eps qf rf j))
    ⟨hL, fun _ _ => rfl, fun j h => by omega⟩ ?_
  · obtain ⟨t, h1, -, h2, h3⟩ := key
    exact ⟨t, h1, h2, h3⟩
  · rintro k t hk ⟨h1, h0, h2⟩
    obtain ⟨t', e1, e2, e3, e4, e5, e6, e7⟩ := wr4 t (2 * (3 * N) + 3 * k) (3 * (3 * N) + 3 * k) (-tes4x 1 eps qf rf k)
      (-tes4y 1 eps qf rf k) (-tes4x (-1) eps qf rf k) (-tes4y (-1) eps qf rf k) (by omega) (by omega)
    refine ⟨t', by rw [hb k t hk]; exact e1, by omega, ?_, ?_⟩
    · intro i hi
      rw [e7 _ (by omega) (by omega) (by omega) (by omega), h0 i hi]
    intro j hj
    rcases Nat.lt_succ_iff_lt_or_eq.mp hj with h | rfl
    · rw [e7 _ (by omega) (by omega) (by omega) (by omega), e7 _ (by omega) (by omega) (by omega) (by omega),
        e7 _ (by omega) (by omega) (by omega) (by omega), e7 _ (by omega) (by omega) (by omega) (by omega)]
      exact h2 j h
    · exact ⟨e3, e4, e5, e6⟩

/-- Steps per sample of the signal that the user gave: the weights of the commutator-free methods, one otherwise. -/
def Spec.perSample (d : AknsDisc) : ℕ :=
  match d with
  | ES4 | TES4 => 1
  | _ => akns_upsampling_factor d

/-- After the precomputations both loops over the samples do what they should. -/
structure BsTabOK (T : BsTab) (D Dg up : ℕ) (eps : ℝ) (q r : Buf ℂ) (qf rf : ℕ → ℂ) (d : AknsDisc) (skip : Bool) : Prop where
  phi : ∀ (l : ℂ) (x0 x0' : Spec.V2) (haveW have_tab : Bool) (_ : have_tab = true → haveW = true) (g : ℕ → ℤ) (s : BsSt),
    let U := Spec.slowStep expS d eps (Spec.cfWeight d) qf rf l
    let U' := slowStepD d eps (Spec.cfWeight d) qf rf l
    PhiInv Dg haveW have_tab g (fun m => phiV U x0 (m * Spec.perSample d)) (fun m => phiD U U' x0 x0' (m * Spec.perSample d))
      0 s (fun _ => 0) →
    ∃ t w', bsPhi T D Dg up eps q r l haveW s = some t ∧
      PhiInv Dg haveW have_tab g (fun m => phiV U x0 (m * Spec.perSample d)) (fun m => phiD U U' x0 x0' (m * Spec.perSample d)) Dg t w'
  psi : skip = false → ∀ (l : ℂ) (yN : Spec.V2) (haveW have_tab : Bool) (_ : have_tab = true → haveW = true) (g : ℕ → ℤ)
    (P0 : Buf ℂ) (s : BsSt),
    let U := Spec.slowStep expS d eps (Spec.cfWeight d) qf rf l
    PsiInv Dg haveW have_tab g (fun m => psiV U (Dg * Spec.perSample d) yN (m * Spec.perSample d)) P0 Dg s (fun _ => 0) →
    ∃ t w', bsPsi T D Dg up eps q r l haveW s = some t ∧
      PsiInv Dg haveW have_tab g (fun m => psiV U (Dg * Spec.perSample d) yN (m * Spec.perSample d)) P0 0 t w'

theorem bsPre_ok {D Dg : ℕ} {q r : Buf ℂ} {qf rf : ℕ → ℂ} {d : AknsDisc} (hd : Spec.slow d)
    (hD : D = Dg * akns_upsampling_factor d) (hq : q.Holds 0 D qf) (hr : r.Holds 0 D rf) (eps : ℝ) (skip : Bool) :
    ∃ T, bsPre D q r eps d skip = some (.ok T) ∧
      BsTabOK T D Dg (akns_upsampling_factor d) eps q r qf rf d skip := by
  by_cases h1 : d = ES4
  · subst h1
    have hD3 : D = 3 * Dg := by rw [hD]; simp [akns_upsampling_factor]; ring
    subst hD3
    have e1 : (3 * Dg + 2) / 3 = Dg := by omega
    obtain ⟨tmp, t1, t2⟩ := es4PreB_ok hq hr eps
    refine ⟨.es4 tmp, by simp only [bsPre, e1, t1, Option.bind_eq_bind, Option.bind_some, Option.pure_def], ?_, ?_⟩
    · intro l x0 x0' haveW have_tab hht g s
      simp only [Spec.perSample, mul_one]
      exact phiES4_loop hq hr t2 _ l rfl rfl x0 x0' hht
    · intro _ l yN haveW have_tab hht g P0 s
      simp only [Spec.perSample, mul_one]
      exact psiES4_loop hq hr (fun n hn => ⟨(t2 n hn).1, (t2 n hn).2.1, (t2 n hn).2.2.1⟩) _ l rfl yN hht
  by_cases h2 : d = TES4
  · subst h2
    have hD3 : D = 3 * Dg := by rw [hD]; simp [akns_upsampling_factor]; ring
    subst hD3
    have e1 : (3 * Dg + 2) / 3 = Dg := by omega
    cases skip with
    | true =>
      obtain ⟨tmp, t1, -, t2⟩ := tes4Pre_ok hq hr eps (le_refl (2 * (3 * Dg)))
      refine ⟨.tes4 tmp, by simp only [bsPre, bsPreTES4, if_true, e1, t1, Option.bind_eq_bind, Option.bind_some, Option.pure_def], ?_, ?_⟩
      · intro l x0 x0' haveW have_tab hht g s
        simp only [Spec.perSample, mul_one]
        exact phiTES4_loop hq hr t2 _ l rfl rfl x0 x0' hht
      · intro h; cases h
    | false =>
      obtain ⟨tmp, t1, t3, t2⟩ := tes4Pre_ok hq hr eps (show 2 * (3 * Dg) ≤ 4 * (3 * Dg) by omega)
      obtain ⟨tmp', u1, u2, u3⟩ := tes4PreB_ok hq hr eps tmp t3
      refine ⟨.tes4 tmp', by simp only [bsPre, bsPreTES4, Bool.false_eq_true, if_false, e1, t1, u1, Option.bind_eq_bind, Option.bind_some, Option.pure_def], ?_, ?_⟩
      · intro l x0 x0' haveW have_tab hht g s
        simp only [Spec.perSample, mul_one]
        refine phiTES4_loop hq hr (fun n hn => ?_) _ l rfl rfl x0 x0' hht
        rw [u2 _ (by omega), u2 _ (by omega), u2 _ (by omega), u2 _ (by omega)]
        exact t2 n hn
      · intro _ l yN haveW have_tab hht g P0 s
        simp only [Spec.perSample, mul_one]
        exact psiTES4_loop hq hr u3 _ l rfl yN hht
  obtain ⟨p, hp, hw⟩ := weights_eq hd h1 h2
  have hl : bsPre D q r eps d skip = some (.ok (.cf (p.2.map (· * (eps : ℂ))))) := by
    rcases hd with rfl | rfl | rfl | rfl | rfl | rfl | rfl <;> first | (simp only [bsPre, hp]; done) | exact absurd rfl h1 | exact absurd rfl h2
  have hper : Spec.perSample d = akns_upsampling_factor d := by
    rcases hd with rfl | rfl | rfl | rfl | rfl | rfl | rfl <;> first | rfl | exact absurd rfl h1 | exact absurd rfl h2
  have hstep : ∀ l n, Spec.slowStep expS d eps (Spec.cfWeight d) qf rf l n = expS ((Spec.cfWeight d n * (eps : ℂ)) • Spec.aknsP (qf n) (rf n) l) ∧
      slowStepD d eps (Spec.cfWeight d) qf rf l n = dBO (qf n) (rf n) l (Spec.cfWeight d n * eps) := by
    intro l n
    rcases hd with rfl | rfl | rfl | rfl | rfl | rfl | rfl <;> first | exact ⟨rfl, rfl⟩ | exact absurd rfl h1 | exact absurd rfl h2
  have hwn : ∀ n c, c < akns_upsampling_factor d → (p.2.map (· * (eps : ℂ)))[c]? =
      some (Spec.cfWeight d (n * akns_upsampling_factor d + c) * eps) := by
    intro n c hc
    have := hw (n * akns_upsampling_factor d + c)
    rw [Nat.add_comm, Nat.add_mul_mod_self_right, Nat.mod_eq_of_lt hc, Nat.add_comm] at this
    rw [List.getElem?_map, this]; rfl
  refine ⟨_, hl, ?_, ?_⟩
  · intro l x0 x0' haveW have_tab hht g s
    rw [hper]
    exact phiBO_loop (ww := fun k => Spec.cfWeight d k * eps) hD hq hr hwn (fun k => (hstep l k).1) (fun k => (hstep l k).2) x0 x0' hht
  · intro _ l yN haveW have_tab hht g P0 s
    rw [hper, ← hD]
    exact psiBO_loop (ww := fun k => Spec.cfWeight d k * eps) hD hq hr hwn (fun k => (hstep l k).1) yN hht

/-! ## Selection of `b` -/

theorem two_zpow_re (w : ℤ) (z : ℂ) : ((2 : ℂ) ^ w * z).re = (2 : ℝ) ^ w * z.re := by
  have : (2 : ℂ) ^ w = (((2 : ℝ) ^ w : ℝ) : ℂ) := by push_cast; rfl
  rw [this, Complex.re_ofReal_mul]

theorem bsRe_smul (pde : AknsPde) (w : ℤ) (z : ℂ) :
    bsRe pde ((2 : ℂ) ^ w * z) = (2 : ℂ) ^ w * Spec.proj (decide (pde = .KdV)) z := by
  unfold bsRe Spec.proj
  by_cases h : pde = .KdV
  · simp only [h, if_true, decide_true, two_zpow_re]; push_cast; rfl
  · simp [h]

/-- What `bsPick` does with a candidate. -/
noncomputable def pickWith (μ : ℝ) (b : ℂ) (m : Option ℝ) : Option (ℝ × ℂ) :=
  match m with
  | none => some (μ, b)
  | some m => if μ < m then some (μ, b) else none

theorem bsPick_spec (pde : AknsPde) (Φ Ψ : ℕ → Spec.V2) (n : ℕ) (w w' : ℤ) (scl : ℂ)
    (hs : (∀ i, Spec.proj (decide (pde = .KdV)) (Φ n i) ≠ 0 ∧ Spec.proj (decide (pde = .KdV)) (Ψ n i) ≠ 0) →
      scl = (2 : ℂ) ^ (w - w')) (m : Option ℝ) :
    (Spec.Cand (decide (pde = .KdV)) Φ Ψ n →
      bsPick pde (bsRe pde ((2 : ℂ) ^ (-w) * Φ n 0)) (bsRe pde ((2 : ℂ) ^ (-w) * Φ n 1)) (bsRe pde ((2 : ℂ) ^ (-w') * Ψ n 0))
        (bsRe pde ((2 : ℂ) ^ (-w') * Ψ n 1)) scl m =
        pickWith (Spec.mismatch (decide (pde = .KdV)) Φ Ψ n) (Spec.ratio (decide (pde = .KdV)) Φ Ψ n 0) m) ∧
    (¬ Spec.Cand (decide (pde = .KdV)) Φ Ψ n →
      bsPick pde (bsRe pde ((2 : ℂ) ^ (-w) * Φ n 0)) (bsRe pde ((2 : ℂ) ^ (-w) * Φ n 1)) (bsRe pde ((2 : ℂ) ^ (-w') * Ψ n 0))
        (bsRe pde ((2 : ℂ) ^ (-w') * Ψ n 1)) scl m = none) := by
  have h2 : ∀ k : ℤ, (2 : ℂ) ^ k ≠ 0 := fun k => zpow_ne_zero _ (by norm_num)
  simp only [bsRe_smul]
  set kdv := decide (pde = .KdV) with hkdv
  by_cases hz : ∀ i, Spec.proj kdv (Φ n i) ≠ 0 ∧ Spec.proj kdv (Ψ n i) ≠ 0
  · have hr : ∀ i, (2 : ℂ) ^ (-w) * Spec.proj kdv (Φ n i) / ((2 : ℂ) ^ (-w') * Spec.proj kdv (Ψ n i)) * scl =
        Spec.ratio kdv Φ Ψ n i := by
      intro i
      have hi := (hz i).2
      rw [hs hz, Spec.ratio, sub_eq_add_neg, zpow_add₀ (by norm_num : (2 : ℂ) ≠ 0)]
      have e1 : (2 : ℂ) ^ (-w) * (2 : ℂ) ^ w = 1 := by rw [← zpow_add₀ (by norm_num : (2 : ℂ) ≠ 0)]; simp
      have h3 := h2 (-w')
      field_simp
      linear_combination (Spec.proj kdv (Φ n i)) * e1
    have hne : ¬ ((2 : ℂ) ^ (-w) * Spec.proj kdv (Φ n 0) = 0 ∨ (2 : ℂ) ^ (-w) * Spec.proj kdv (Φ n 1) = 0 ∨
        (2 : ℂ) ^ (-w') * Spec.proj kdv (Ψ n 0) = 0 ∨ (2 : ℂ) ^ (-w') * Spec.proj kdv (Ψ n 1) = 0) := by
      push Not
      exact ⟨mul_ne_zero (h2 _) (hz 0).1, mul_ne_zero (h2 _) (hz 1).1, mul_ne_zero (h2 _) (hz 0).2, mul_ne_zero (h2 _) (hz 1).2⟩
    unfold bsPick
    rw [if_neg hne]
    simp only [hr]
    have hmis : |0.5 * Real.log ‖Spec.ratio kdv Φ Ψ n 1 / Spec.ratio kdv Φ Ψ n 0‖| = Spec.mismatch kdv Φ Ψ n := by
      unfold Spec.mismatch; norm_num
    rw [hmis]
    constructor
    · intro hC
      rw [if_pos ?_]
      · rfl
      · by_cases hk : pde = .KdV
        · exact Or.inr (hC.2 (by rw [hkdv, hk]; rfl))
        · exact Or.inl hk
    · intro hC
      rw [if_neg]
      rintro (hk | hk)
      · exact hC ⟨hz, fun h => absurd (of_decide_eq_true h) hk⟩
      · exact hC ⟨hz, fun _ => hk⟩
  · refine ⟨fun hC => absurd hC.1 hz, fun _ => ?_⟩
    unfold bsPick
    rw [if_pos]
    push Not at hz
    obtain ⟨i, hi⟩ := hz
    by_cases h0 : Spec.proj kdv (Φ n i) = 0
    · fin_cases i
      · left; rw [show Spec.proj kdv (Φ n 0) = 0 from h0, mul_zero]
      · right; left; rw [show Spec.proj kdv (Φ n 1) = 0 from h0, mul_zero]
    · have h1 := hi h0
      fin_cases i
      · right; right; left; rw [show Spec.proj kdv (Ψ n 0) = 0 from h1, mul_zero]
      · right; right; right; rw [show Spec.proj kdv (Ψ n 1) = 0 from h1, mul_zero]

/-- What the search has found below `k`. -/
def BestBelow (kdv : Bool) (Φ Ψ : ℕ → Spec.V2) (k : ℕ) (m : Option ℝ) (v : Option ℂ) : Prop :=
  match m with
  | none => v = none ∧ ∀ n, n < k → ¬ Spec.Cand kdv Φ Ψ n
  | some μ => ∃ n, n < k ∧ Spec.Cand kdv Φ Ψ n ∧ v = some (Spec.ratio kdv Φ Ψ n 0) ∧ μ = Spec.mismatch kdv Φ Ψ n ∧
      ∀ m, m < k → Spec.Cand kdv Φ Ψ m → Spec.mismatch kdv Φ Ψ n ≤ Spec.mismatch kdv Φ Ψ m

/-- `b[i] = v` if there is a value. -/
def setOpt (b : Buf ℂ) (i : ℕ) (v : Option ℂ) : Buf ℂ := match v with | none => b | some x => b.set i x

theorem setOpt_len (b : Buf ℂ) (i : ℕ) (v : Option ℂ) : (setOpt b i v).len = b.len := by cases v <;> rfl

theorem setOpt_set (b : Buf ℂ) (i : ℕ) (v : Option ℂ) (x : ℂ) : (setOpt b i v).set i x = b.set i x := by
  cases v with
  | none => rfl
  | some y => simp [setOpt, Buf.set]

theorem bsB_loop {Dg : ℕ} {M : List ℂ} {A : Spec.M2} (hM : Spec.Stores (Buf.ofList M) A) (pde : AknsPde) (haveW : Bool)
    {tPHI tPSI : Option (Buf ℤ)} {P : Buf ℂ} {x y : ℕ → Spec.V2} {w w' : ℕ → ℤ}
    (hx : ∀ m, m ≤ Dg → VecAt P (2 + 4 * m) ((2 : ℂ) ^ (-w m) • x m)) (hy : ∀ m, m ≤ Dg → VecAt P (4 * m) ((2 : ℂ) ^ (-w' m) • y m))
    (hscl : ∀ n, n ≤ Dg → ∃ s, bsScale haveW tPHI tPSI n = some s ∧
      (1 ≤ n → n < Dg → s = (2 : ℂ) ^ (w n - w' n)))
    (h0 : (A *ᵥ x 0) 1 = 0) (h1 : (A *ᵥ y Dg) 0 = 0) (neig : ℕ) (b : Buf ℂ) (hb : neig < b.len) :
    ∃ s v, forLoop (Dg + 1) (bsBBody M pde haveW tPHI tPSI P neig) (none, b) = some s ∧
      s.2 = setOpt b neig v ∧ Spec.Best (decide (pde = .KdV)) (fun n => A *ᵥ x n) (fun n => A *ᵥ y n) Dg v := by
  set kdv := decide (pde = .KdV) with hkdv
  set Φ : ℕ → Spec.V2 := fun n => A *ᵥ x n with hΦ
  set Ψ : ℕ → Spec.V2 := fun n => A *ᵥ y n with hΨ
  have hp0 : Spec.proj kdv 0 = 0 := by unfold Spec.proj; split <;> simp
  have key := forLoop_inv (n := Dg + 1) (body := bsBBody M pde haveW tPHI tPSI P neig) (s := (none, b))
    (fun k s => ∃ v, s.2 = setOpt b neig v ∧ BestBelow kdv Φ Ψ k s.1 v) ⟨none, rfl, rfl, fun n h => by omega⟩ ?_
  · obtain ⟨s, e1, v, e2, e3⟩ := key
    refine ⟨s, v, e1, e2, ?_⟩
    unfold BestBelow at e3
    cases hm : s.1 with
    | none =>
      rw [hm] at e3
      rw [e3.1]
      exact fun n hn => e3.2 n (by omega)
    | some μ =>
      rw [hm] at e3
      obtain ⟨n, n1, n2, n3, n4, n5⟩ := e3
      rw [n3]
      exact ⟨n, by omega, n2, rfl, fun m hm => n5 m (by omega)⟩
  · rintro n ⟨m, bb⟩ hn ⟨v, hv, hbest⟩
    simp only at hv hbest
    have hn' : n ≤ Dg := by omega
    obtain ⟨phi, p1, -, p2, -⟩ := mvAt2 (dst := Buf.malloc 2) (dofs := 0) hM (hx n hn') (by simp)
    obtain ⟨psi, q1, -, q2, -⟩ := mvAt2 (dst := Buf.malloc 2) (dofs := 0) hM (hy n hn') (by simp)
    obtain ⟨scl, s1, s2⟩ := hscl n hn'
    rw [Matrix.mulVec_smul] at p2 q2
    obtain ⟨p20, p21⟩ := p2
    obtain ⟨q20, q21⟩ := q2
    simp only [Pi.smul_apply, smul_eq_mul, zero_add] at p20 p21 q20 q21
    obtain ⟨k1, k2⟩ := bsPick_spec pde Φ Ψ n (w n) (w' n) scl (by
      intro hz
      refine s2 ?_ ?_
      · rcases Nat.eq_zero_or_pos n with rfl | h
        · exact absurd (show Spec.proj kdv (Φ 0 1) = 0 by rw [hΦ]; simp only [h0, hp0]) (hz 1).1
        · exact h
      · rcases Nat.lt_or_eq_of_le hn' with h | rfl
        · exact h
        · exact absurd (show Spec.proj kdv (Ψ n 0) = 0 by rw [hΨ]; simp only [h1, hp0]) (hz 0).2) m
    have hbody : bsBBody M pde haveW tPHI tPSI P neig n (m, bb) =
        match bsPick pde (bsRe pde ((2 : ℂ) ^ (-w n) * Φ n 0)) (bsRe pde ((2 : ℂ) ^ (-w n) * Φ n 1)) (bsRe pde ((2 : ℂ) ^ (-w' n) * Ψ n 0))
          (bsRe pde ((2 : ℂ) ^ (-w' n) * Ψ n 1)) scl m with
        | none => some (m, bb)
        | some c => (bb.wr neig c.2).bind fun b => some (some c.1, b) := by
      unfold bsBBody
      simp only [p1, q1, s1, p20, p21, q20, q21, Option.bind_eq_bind, Option.bind_some, Option.pure_def]
      rfl
    have hbl : neig < bb.len := by rw [hv, setOpt_len]; exact hb
    have hnone : ¬ Spec.Cand kdv Φ Ψ n → ∃ t', bsBBody M pde haveW tPHI tPSI P neig n (m, bb) = some t' ∧
        ∃ v, t'.2 = setOpt b neig v ∧ BestBelow kdv Φ Ψ (n + 1) t'.1 v := by
      intro hC
      refine ⟨(m, bb), by rw [hbody, k2 hC], v, hv, ?_⟩
      unfold BestBelow at hbest ⊢
      cases m with
      | none =>
        refine ⟨hbest.1, fun j hj => ?_⟩
        rcases Nat.lt_succ_iff_lt_or_eq.mp hj with h | rfl
        · exact hbest.2 j h
        · exact hC
      | some μ =>
        obtain ⟨j, j1, j2, j3, j4, j5⟩ := hbest
        refine ⟨j, by omega, j2, j3, j4, fun i hi hCi => ?_⟩
        rcases Nat.lt_succ_iff_lt_or_eq.mp hi with h | rfl
        · exact j5 i h hCi
        · exact absurd hCi hC
    by_cases hC : Spec.Cand kdv Φ Ψ n
    · rw [k1 hC] at hbody
      simp only [pickWith, ← hkdv] at hbody
      cases m with
      | none =>
        simp only [Buf.wr_eq _ hbl, Option.bind_some] at hbody
        refine ⟨_, hbody, some (Spec.ratio kdv Φ Ψ n 0), ?_, n, by omega, hC, rfl, rfl, ?_⟩
        · show bb.set neig _ = _
          rw [hv, setOpt_set]; rfl
        · intro i hi hCi
          rcases Nat.lt_succ_iff_lt_or_eq.mp hi with h | rfl
          · exact absurd hCi (hbest.2 i h)
          · exact le_rfl
      | some μ =>
        obtain ⟨j, j1, j2, j3, j4, j5⟩ := hbest
        dsimp only at hbody
        by_cases hlt : Spec.mismatch kdv Φ Ψ n < μ
        · rw [if_pos hlt] at hbody
          simp only [Buf.wr_eq _ hbl, Option.bind_some] at hbody
          refine ⟨_, hbody, some (Spec.ratio kdv Φ Ψ n 0), ?_, n, by omega, hC, rfl, rfl, ?_⟩
          · show bb.set neig _ = _
            rw [hv, setOpt_set]; rfl
          · intro i hi hCi
            rcases Nat.lt_succ_iff_lt_or_eq.mp hi with h | rfl
            · have := j5 i h hCi
              rw [← j4] at this
              linarith
            · exact le_rfl
        · rw [if_neg hlt] at hbody
          refine ⟨_, hbody, v, hv, j, by omega, j2, j3, j4, ?_⟩
          intro i hi hCi
          rcases Nat.lt_succ_iff_lt_or_eq.mp hi with h | rfl
          · exact j5 i h hCi
          · rw [← j4]; exact not_lt.mp hlt
    · exact hnone hC

/-! ## One bound state -/

/-- The factor `e^(iλ tb)` is applied with the power of two taken out. -/
theorem bsA_ok (haveW : Bool) (l : ℂ) (tb : ℝ) (acc : ℤ) (hacc : haveW = false → acc = 0) (f0 f2 : ℂ) :
    (2 : ℂ) ^ (bsA haveW l tb acc f0 f2).2.2 * (bsA haveW l tb acc f0 f2).1 = exp (I * l * tb) * ((2 : ℂ) ^ acc * f0) ∧
    (2 : ℂ) ^ (bsA haveW l tb acc f0 f2).2.2 * (bsA haveW l tb acc f0 f2).2.1 =
      exp (I * l * tb) * ((2 : ℂ) ^ acc * f2 + I * tb * ((2 : ℂ) ^ acc * f0)) ∧
    (haveW = false → (bsA haveW l tb acc f0 f2).2.2 = 0) := by
  cases haveW with
  | false =>
    rw [hacc rfl]
    simp only [bsA, Bool.false_eq_true, if_false, zpow_zero, one_mul]
    exact ⟨by ring, by ring, fun _ => trivial⟩
  | true =>
    simp only [bsA, if_true]
    have hl2 : Real.log 2 ≠ 0 := by
      have := Real.log_pos (by norm_num : (1 : ℝ) < 2); exact this.ne'
    set e : ℂ := I * l * tb with he
    set v := roundC (e.re / Real.log 2) with hv
    have h2 : (2 : ℂ) ^ v = exp (v * (Real.log 2 : ℝ)) := by
      rw [Complex.exp_int_mul, ← Complex.ofReal_exp, Real.exp_log (by norm_num)]; norm_num
    have key : (2 : ℂ) ^ v * exp (I * (e.im : ℂ) + ((e.re / Real.log 2 - v : ℝ) : ℂ) * (Real.log 2 : ℝ)) = exp e := by
      rw [h2, ← exp_add]
      congr 1
      have : (Real.log 2 : ℂ) ≠ 0 := by exact_mod_cast hl2
      push_cast
      field_simp
      rw [show (v : ℂ) * Real.log 2 + (I * e.im + (e.re - v * Real.log 2)) = e.re + e.im * I by ring]
      exact Complex.re_add_im e
    rw [zpow_add₀ (by norm_num : (2 : ℂ) ≠ 0)]
    refine ⟨?_, ?_, fun h => by cases h⟩
    · linear_combination ((2 : ℂ) ^ acc * f0) * key
    · linear_combination ((2 : ℂ) ^ acc * (f2 + I * tb * f0)) * key

/-- The solution that starts with `(e^(-iλ t0), 0)`, in the S basis, at boundary `k`. -/
noncomputable def phiS (A B : Spec.M2) (U : ℕ → Spec.M2) (t0 : ℝ) (l : ℂ) (k : ℕ) : Spec.V2 :=
  A *ᵥ (Spec.chain U k *ᵥ (B *ᵥ ![exp (-I * l * t0), 0]))

/-- The solution that ends with `(0, e^(iλ tb))`, in the S basis, at boundary `k`. -/
noncomputable def psiS (A B : Spec.M2) (U : ℕ → Spec.M2) (N : ℕ) (tb : ℝ) (l : ℂ) (k : ℕ) : Spec.V2 :=
  A *ᵥ ((Spec.tail U N k).adjugate *ᵥ (B *ᵥ ![0, exp (I * l * tb)]))

/-- Its derivative with respect to `λ`. -/
noncomputable def phiS' (A A' B B' : Spec.M2) (U U' : ℕ → Spec.M2) (t0 : ℝ) (l : ℂ) (k : ℕ) : Spec.V2 :=
  A' *ᵥ (Spec.chain U k *ᵥ (B *ᵥ ![exp (-I * l * t0), 0])) +
  A *ᵥ (Spec.dchain U U' k *ᵥ (B *ᵥ ![exp (-I * l * t0), 0]) +
    Spec.chain U k *ᵥ (B' *ᵥ ![exp (-I * l * t0), 0] + B *ᵥ ![exp (-I * l * t0) * (-I * t0), 0]))

theorem cancel_two_zpow (w : ℤ) (z : ℂ) : (2 : ℂ) ^ w * ((2 : ℂ) ^ (-w) * z) = z := by
  rw [← mul_assoc, ← zpow_add₀ (by norm_num : (2 : ℂ) ≠ 0), add_neg_cancel, zpow_zero, one_mul]

theorem bsOne_ok {T : BsTab} {D Dg up : ℕ} {eps t0 tb : ℝ} {q r : Buf ℂ} {qf rf : ℕ → ℂ} {d : AknsDisc} {skip : Bool}
    (hT : BsTabOK T D Dg up eps q r qf rf d skip) (hd : Spec.slow d) {pde : AknsPde} (hp : pde = .KdV ∨ pde = .NSE)
    (vanilla : Bool) (gPHI gPSI : ℕ → ℤ) {bs : Buf ℂ} {neig : ℕ} {l : ℂ} (hl : bs.rd neig = some l) (hx : pde = .KdV → l ≠ 0)
    (s : BsRes) (hret : s.ret = SUCCESS) (ha : neig < s.a.len) (hap : neig < s.aprime.len)
    (hb : skip = false → ∃ b, s.b = some b ∧ neig < b.len) (hW : ∀ W, s.Ws = some W → neig < W.len) {haveW : Bool}
    (hWs : s.Ws.isSome = haveW) :
    let U := Spec.slowStep expS d eps (Spec.cfWeight d) qf rf l
    let U' := slowStepD d eps (Spec.cfWeight d) qf rf l
    let A := basisTo eps d vanilla pde l
    let A' := basisTo' eps d vanilla pde l
    let B := basisFrom eps d vanilla pde l
    let B' := basisFrom' eps d vanilla pde l
    ∃ (s' : BsRes) (va vap : ℂ) (wt : ℤ) (v : Option ℂ),
      bsOne T D Dg up eps t0 tb q r haveW skip d pde vanilla gPHI gPSI bs neig s = some s' ∧
      s' = ⟨SUCCESS, s.a.set neig (Spec.proj (decide (pde = .KdV)) va),
        s.aprime.set neig (if pde = .KdV then I * (vap.im : ℂ) else vap),
        if skip then s.b else s.b.map (fun b => setOpt b neig v), s.Ws.map (fun W => W.set neig wt)⟩ ∧
      (2 : ℂ) ^ wt * va = exp (I * l * tb) * phiS A B U t0 l (Dg * Spec.perSample d) 0 ∧
      (2 : ℂ) ^ wt * vap = exp (I * l * tb) * (phiS' A A' B B' U U' t0 l (Dg * Spec.perSample d) 0 +
        I * tb * phiS A B U t0 l (Dg * Spec.perSample d) 0) ∧
      (haveW = false → wt = 0) ∧
      (skip = false → Spec.Best (decide (pde = .KdV)) (fun n => phiS A B U t0 l (n * Spec.perSample d))
        (fun n => psiS A B U (Dg * Spec.perSample d) tb l (n * Spec.perSample d)) Dg v) := by
  intro U U' A A' B B'
  have hk : Spec.known d := by
    rcases hd with rfl | rfl | rfl | rfl | rfl | rfl | rfl <;> simp [Spec.known, akns_upsampling_factor]
  obtain ⟨⟨M', m1, m2⟩, ⟨M, m3, m4⟩⟩ := storesD_to true vanilla hp hk hx (eps := eps)
  obtain ⟨⟨N', n1, n2⟩, ⟨N, n3, n4⟩⟩ := storesD_to false vanilla hp hk hx (eps := eps)
  obtain ⟨hAB, hBA⟩ := basis_inv eps d vanilla pde l hx
  set x00 : Spec.V2 := ![exp (-I * l * t0), 0] with hx00
  set x01 : Spec.V2 := ![exp (-I * l * t0) * (-I * t0), 0] with hx01
  set fS := Buf.ofList [exp (-I * l * t0), 0, exp (-I * l * t0) * (-I * t0), 0] with hfS
  have hv0 : VecAt fS 0 x00 := ⟨by simp [hfS, Buf.rd_ofList, hx00], by simp [hfS, Buf.rd_ofList, hx00]⟩
  have hv1 : VecAt fS (0 + 2) x01 := ⟨by simp [hfS, Buf.rd_ofList, hx01], by simp [hfS, Buf.rd_ofList, hx01]⟩
  obtain ⟨P0, p1, p2, p3, p4, -⟩ := mvAt4 (dst := Buf.malloc (4 * (Dg + 1) + 2)) (dofs := 2) m4 hv0 hv1 (by simp)
  set tabb := haveW && !skip with htabb
  have hht : tabb = true → haveW = true := by rw [htabb]; cases haveW <;> simp
  have htab0 : ∀ g : ℕ → ℤ, ∀ S : ℕ → Prop, (∀ m, m ≤ Dg → ¬ S m) →
      TabInv Dg tabb g (fun _ => 0) S (if tabb then some (Buf.ofFn (Dg + 1) g) else none) := by
    intro g S hS
    unfold TabInv
    cases tabb with
    | false => rfl
    | true => exact ⟨_, rfl, rfl, fun m hm => ⟨fun h => absurd h (hS m hm), fun _ => Buf.rd_ofFn (by omega)⟩⟩
  obtain ⟨st, w, t1, t2⟩ := hT.phi l (B *ᵥ x00) (B' *ᵥ x00 + B *ᵥ x01) haveW tabb hht gPHI
    ⟨P0, 0, if tabb then some (Buf.ofFn (Dg + 1) gPHI) else none⟩
    { len := by rw [p2]; rfl
      hP := fun m hm => by
        obtain rfl : m = 0 := by omega
        simpa [phiV, chain_zero] using p3
      hD := by simpa [phiD, Spec.dchain, chain_zero] using p4
      acc := rfl
      hw := fun _ _ => rfl
      tab := htab0 _ _ fun m _ h => by omega }
  obtain ⟨tlen, tP, tD, tacc, tw, ttab⟩ := t2
  have hback : ∃ P2 tab2 w' yy, bsBackIf skip T D Dg up eps tb q r l haveW d pde vanilla st.P
        (if tabb then some (Buf.ofFn (Dg + 1) gPSI) else none) = some (.ok (P2, tab2)) ∧
      (∀ i, (2 ≤ i % 4 ∨ 4 * Dg + 2 ≤ i) → P2.rd i = st.P.rd i) ∧
      (skip = false → yy = (fun m => psiV U (Dg * Spec.perSample d) (B *ᵥ ![0, exp (I * l * tb)]) (m * Spec.perSample d)) ∧
        (∀ m, m ≤ Dg → VecAt P2 (4 * m) ((2 : ℂ) ^ (-w' m) • yy m)) ∧
        (haveW = false → ∀ m, w' m = 0) ∧ TabInv Dg tabb gPSI w' (fun m => 0 ≤ m ∧ m < Dg) tab2) := by
    cases hskip : skip with
    | true =>
      exact ⟨st.P, _, fun _ => 0, fun _ => 0, rfl, fun _ _ => rfl, fun h => by cases h⟩
    | false =>
      have hvy : VecAt (Buf.ofList [0, exp (I * l * tb)]) 0 ![0, exp (I * l * tb)] :=
        ⟨by simp [Buf.rd_ofList], by simp [Buf.rd_ofList]⟩
      obtain ⟨P1, r1, r2, r3, r4⟩ := mvAt2 (dst := st.P) (dofs := 4 * Dg) n4 hvy (by omega)
      obtain ⟨st2, w', u1, u2⟩ := hT.psi hskip l (B *ᵥ ![0, exp (I * l * tb)]) haveW tabb hht gPSI P1
        ⟨P1, 0, if tabb then some (Buf.ofFn (Dg + 1) gPSI) else none⟩
        { len := by simp only [r2, tlen]
          hP := fun m hm hm' => by
            obtain rfl : m = Dg := by omega
            simpa [psiV_top] using r3
          hO := fun _ _ => rfl
          acc := rfl
          hw := fun _ _ => rfl
          tab := htab0 _ _ fun m _ h => by omega }
      refine ⟨st2.P, st2.tab, w', _, ?_, ?_, fun _ => ⟨rfl, fun m hm => u2.hP m (Nat.zero_le _) hm, u2.hw, u2.tab⟩⟩
      · unfold bsBackIf bsBack
        simp only [Bool.false_eq_true, if_false, n3, r1, u1, Option.bind_eq_bind, Option.bind_some, Option.pure_def]
      · intro i hi
        rw [u2.hO i hi, r4 i (by omega)]
  obtain ⟨P2, tab2, w', yy, k1, k2, k3⟩ := hback
  have hP2 : ∀ m, m ≤ Dg → VecAt P2 (2 + 4 * m) ((2 : ℂ) ^ (-w m) • phiV U (B *ᵥ x00) (m * Spec.perSample d)) := fun m hm =>
    (tP m hm).congr (k2 _ (by omega)) (k2 _ (by omega))
  have hD2 : VecAt P2 (2 + 4 * Dg + 2) ((2 : ℂ) ^ (-w Dg) • phiD U U' (B *ᵥ x00) (B' *ᵥ x00 + B *ᵥ x01) (Dg * Spec.perSample d)) :=
    tD.congr (k2 _ (by omega)) (k2 _ (by omega))
  obtain ⟨f, f1, -, f2, f3, -⟩ := mvAt4 (dst := Buf.malloc 4) (dofs := 0) m2 (hP2 Dg le_rfl) hD2 (by simp)
  have hf0 := f2.1
  have hf2 := f3.1
  simp only [Matrix.mulVec_smul, ← smul_add, Pi.smul_apply, smul_eq_mul, zero_add] at hf0 hf2
  set F0 := (2 : ℂ) ^ (-w Dg) * (basisTo eps d vanilla pde l *ᵥ phiV U (B *ᵥ x00) (Dg * Spec.perSample d)) 0 with hF0
  set F2 := (2 : ℂ) ^ (-w Dg) * (basisTo' eps d vanilla pde l *ᵥ phiV U (B *ᵥ x00) (Dg * Spec.perSample d) +
    basisTo eps d vanilla pde l *ᵥ phiD U U' (B *ᵥ x00) (B' *ᵥ x00 + B *ᵥ x01) (Dg * Spec.perSample d)) 0 with hF2
  obtain ⟨a1, a2, a3⟩ := bsA_ok haveW l tb st.acc (fun h => by rw [tacc]; exact tw h Dg) F0 F2
  have c0 : (2 : ℂ) ^ (w Dg) * F0 = (basisTo eps d vanilla pde l *ᵥ phiV U (B *ᵥ x00) (Dg * Spec.perSample d)) 0 :=
    cancel_two_zpow _ _
  have c2 : (2 : ℂ) ^ (w Dg) * F2 = (basisTo' eps d vanilla pde l *ᵥ phiV U (B *ᵥ x00) (Dg * Spec.perSample d) +
    basisTo eps d vanilla pde l *ᵥ phiD U U' (B *ᵥ x00) (B' *ᵥ x00 + B *ᵥ x01) (Dg * Spec.perSample d)) 0 :=
    cancel_two_zpow _ _
  rw [tacc] at a1 a2 a3
  rw [c0] at a1
  rw [c0, c2] at a2
  set va := (bsA haveW l tb (w Dg) F0 F2).1 with hva
  set vap := (bsA haveW l tb (w Dg) F0 F2).2.1 with hvap
  set wt := (bsA haveW l tb (w Dg) F0 F2).2.2 with hwt
  have hbA : bsA haveW l tb st.acc F0 F2 = (va, vap, wt) := by rw [tacc]
  have hwr : bsWriteA pde (va, vap, wt) neig s = some ⟨SUCCESS, s.a.set neig (Spec.proj (decide (pde = .KdV)) va),
      s.aprime.set neig (if pde = .KdV then I * (vap.im : ℂ) else vap), s.b, s.Ws.map (fun W => W.set neig wt)⟩ := by
    have e1 : scatW s.Ws neig wt = some (s.Ws.map fun W => W.set neig wt) := by
      cases hh : s.Ws with
      | none => rfl
      | some W => simp only [scatW, Buf.wr_eq _ (hW W hh)]; rfl
    have e2 : bsRe pde va = Spec.proj (decide (pde = .KdV)) va := by
      unfold bsRe Spec.proj; by_cases h : pde = .KdV <;> simp [h]
    unfold bsWriteA
    simp only [Buf.wr_eq _ ha, Buf.wr_eq _ hap, e1, e2, hret, Option.bind_eq_bind, Option.bind_some, Option.pure_def]
  have hB : ∃ v, bsBIf skip Dg eps l haveW d pde vanilla P2 st.tab tab2 neig s.b =
        some (.ok (if skip then s.b else s.b.map (fun b => setOpt b neig v))) ∧
      (skip = false → Spec.Best (decide (pde = .KdV)) (fun n => phiS A B U t0 l (n * Spec.perSample d))
        (fun n => psiS A B U (Dg * Spec.perSample d) tb l (n * Spec.perSample d)) Dg v) := by
    cases hskip : skip with
    | true => exact ⟨none, rfl, fun h => by cases h⟩
    | false =>
      obtain ⟨b, b1, b2⟩ := hb hskip
      obtain ⟨y1, y2, y3, y4⟩ := k3 hskip
      subst y1
      obtain ⟨sl, v, v1, v2, v3⟩ := bsB_loop (Dg := Dg) n2 pde haveW (tPHI := st.tab) (tPSI := tab2) hP2 y2 (by
        intro n hn
        unfold bsScale
        cases hhW : haveW with
        | false => exact ⟨1, rfl, fun _ _ => by rw [tw hhW, y3 hhW]; simp⟩
        | true =>
          have ht : tabb = true := by rw [htabb, hhW, hskip]; rfl
          unfold TabInv at ttab y4
          rw [ht] at ttab y4
          obtain ⟨a, a1, -, a3⟩ := ttab
          obtain ⟨c, c1, -, c3⟩ := y4
          have hra : ∃ z, a.rd n = some z ∧ (1 ≤ n → z = w n) := by
            by_cases h1 : 1 ≤ n
            · exact ⟨_, (a3 n hn).1 ⟨h1, hn⟩, fun _ => rfl⟩
            · exact ⟨_, (a3 n hn).2 (fun h => h1 h.1), fun h => absurd h h1⟩
          have hrc : ∃ z, c.rd n = some z ∧ (n < Dg → z = w' n) := by
            by_cases h1 : n < Dg
            · exact ⟨_, (c3 n hn).1 ⟨Nat.zero_le _, h1⟩, fun _ => rfl⟩
            · exact ⟨_, (c3 n hn).2 (fun h => h1 h.2), fun h => absurd h h1⟩
          obtain ⟨z, z1, z2⟩ := hra
          obtain ⟨z', z3, z4⟩ := hrc
          refine ⟨(2 : ℂ) ^ (z - z'), ?_, fun g1 g2 => by rw [z2 g1, z4 g2]⟩
          rw [a1, c1]
          simp only [if_true, z1, z3, Option.bind_eq_bind, Option.bind_some, Option.pure_def])
        (by
          simp only [phiV, Nat.zero_mul, chain_zero, Matrix.one_mulVec]
          rw [Matrix.mulVec_mulVec, hAB]; simp [hx00])
        (by
          simp only [psiV_top]
          rw [Matrix.mulVec_mulVec, hAB]; simp) neig b b2
      refine ⟨v, ?_, fun _ => v3⟩
      unfold bsBIf
      simp only [Bool.false_eq_true, if_false, n1, b1, v1, v2, Option.bind_eq_bind, Option.bind_some, Option.pure_def,
        Option.map_some]
  obtain ⟨v, v1, v2⟩ := hB
  refine ⟨_, va, vap, wt, v, ?_, rfl, a1, ?_, a3, v2⟩
  · unfold bsOne
    rw [if_neg (by rw [hret]; simp)]
    simp only [hl, m3, Option.bind_eq_bind, Option.bind_some, Option.pure_def]
    rw [← hfS, p1, Option.bind_some, ← htabb, t1, Option.bind_some, k1, Option.bind_some]
    simp only [m1, f1, hf0, hf2, hbA, hwr, v1, Option.bind_some]
  · rw [a2]; rfl

/-! ## All bound states -/

/-- Arguments of `akns_scatter_bound_states` that satisfy its documented preconditions; `Dg` is the number of
samples before resampling, `D` the number of samples that are passed. -/
structure Spec.BoundArgs (D Dg : ℕ) (q r : Buf ℂ) (qf rf : ℕ → ℂ) (K : ℕ) (bs : Buf ℂ) (lf : ℕ → ℂ)
    (a ap : Buf ℂ) (b : Option (Buf ℂ)) (W : Option (Buf ℤ)) (d : AknsDisc) (pde : AknsPde) (skip : ℕ) : Prop where
  hDg : 2 ≤ Dg
  hD : D = Dg * akns_upsampling_factor d
  hq : q.Holds 0 D qf
  hr : r.Holds 0 D rf
  hK : 0 < K
  hl : bs.Holds 0 K lf
  hd : Spec.slow d
  hp : pde = .KdV ∨ pde = .NSE
  hx : pde = .KdV → ∀ i, i < K → lf i ≠ 0
  ha : K ≤ a.len
  hap : K ≤ ap.len
  hb : skip = 0 → ∃ b', b = some b' ∧ K ≤ b'.len
  hW : ∀ V, W = some V → K ≤ V.len

/-- What is known about the outputs for bound state `i`. -/
structure BsOut (l : ℂ) (N Dg per : ℕ) (t0 tb : ℝ) (A A' B B' : Spec.M2) (U U' : ℕ → Spec.M2) (kdv : Bool)
    (va vap : ℂ) (wt : ℤ) (skip : Bool) (v : Option ℂ) : Prop where
  a : (2 : ℂ) ^ wt * va = exp (I * l * tb) * phiS A B U t0 l N 0
  ap : (2 : ℂ) ^ wt * vap = exp (I * l * tb) * (phiS' A A' B B' U U' t0 l N 0 + I * tb * phiS A B U t0 l N 0)
  b : skip = false → Spec.Best kdv (fun n => phiS A B U t0 l (n * per)) (fun n => psiS A B U N tb l (n * per)) Dg v

theorem bound_states_ok {D Dg : ℕ} {q r : Buf ℂ} {qf rf : ℕ → ℂ} {K : ℕ} {bs : Buf ℂ} {lf : ℕ → ℂ}
    {a ap : Buf ℂ} {b : Option (Buf ℂ)} {W : Option (Buf ℤ)} {d : AknsDisc} {pde : AknsPde} {skip : ℕ}
    (h : Spec.BoundArgs D Dg q r qf rf K bs lf a ap b W d pde skip) (T0 T1 : ℝ) (vanilla : ℕ) (gPHI gPSI : ℕ → ℤ) :
    let eps := (T1 - T0) / (Dg - 1)
    ∃ (res : BsRes) (va vap : ℕ → ℂ) (wt : ℕ → ℤ) (v : ℕ → Option ℂ),
      akns_scatter_bound_states D (some q) (some r) T0 T1 K (some bs) (some a) (some ap) b W d pde vanilla skip gPHI gPSI = some res ∧
      res.ret = SUCCESS ∧ res.a.len = a.len ∧ res.aprime.len = ap.len ∧
      (∀ i, i < K → res.a.rd i = some (Spec.proj (decide (pde = .KdV)) (va i)) ∧
        res.aprime.rd i = some (if pde = .KdV then I * ((vap i).im : ℂ) else vap i)) ∧
      (∀ i, K ≤ i → res.a.rd i = a.rd i ∧ res.aprime.rd i = ap.rd i) ∧
      (skip ≠ 0 → res.b = b) ∧
      (skip = 0 → ∀ b0, b = some b0 → ∃ b', res.b = some b' ∧ b'.len = b0.len ∧
        (∀ i, i < K → b'.rd i = match v i with | none => b0.rd i | some x => some x) ∧ ∀ i, K ≤ i → b'.rd i = b0.rd i) ∧
      (∀ V, W = some V → ∃ V', res.Ws = some V' ∧ V'.len = V.len ∧ (∀ i, i < K → V'.rd i = some (wt i)) ∧
        ∀ i, K ≤ i → V'.rd i = V.rd i) ∧
      (W = none → res.Ws = none ∧ ∀ i, wt i = 0) ∧
      ∀ i, i < K → BsOut (lf i) (Dg * Spec.perSample d) Dg (Spec.perSample d) (T0 - eps * (1 / 2 : ℚ)) (T1 + eps * (1 / 2 : ℚ))
        (basisTo eps d (vanilla ≠ 0) pde (lf i)) (basisTo' eps d (vanilla ≠ 0) pde (lf i))
        (basisFrom eps d (vanilla ≠ 0) pde (lf i)) (basisFrom' eps d (vanilla ≠ 0) pde (lf i))
        (Spec.slowStep expS d eps (Spec.cfWeight d) qf rf (lf i)) (slowStepD d eps (Spec.cfWeight d) qf rf (lf i))
        (decide (pde = .KdV)) (va i) (vap i) (wt i) (skip ≠ 0) (v i) := by
  intro eps
  obtain ⟨T, hT1, hT⟩ := bsPre_ok h.hd h.hD h.hq h.hr eps (decide (skip ≠ 0))
  have hbc : akns_boundary_coeff d = some (1 / 2) := by
    rcases h.hd with rfl | rfl | rfl | rfl | rfl | rfl | rfl <;> rfl
  have hup : akns_upsampling_factor d ≠ 0 := by
    rcases h.hd with rfl | rfl | rfl | rfl | rfl | rfl | rfl <;> simp [akns_upsampling_factor]
  set t0 : ℝ := T0 - eps * ((1 / 2 : ℚ) : ℝ) with ht0
  set tb : ℝ := T1 + eps * ((1 / 2 : ℚ) : ℝ) with htb
  have key := forLoop_inv (n := K) (body := bsOne T D Dg (akns_upsampling_factor d) eps t0 tb q r W.isSome
      (decide (skip ≠ 0)) d pde (decide (vanilla ≠ 0)) gPHI gPSI bs) (s := ⟨SUCCESS, a, ap, b, W⟩)
    (fun k s => ∃ (va vap : ℕ → ℂ) (wt : ℕ → ℤ) (v : ℕ → Option ℂ), s.ret = SUCCESS ∧ s.a.len = a.len ∧ s.aprime.len = ap.len ∧
      (∀ i, i < k → s.a.rd i = some (Spec.proj (decide (pde = .KdV)) (va i)) ∧
        s.aprime.rd i = some (if pde = .KdV then I * ((vap i).im : ℂ) else vap i)) ∧
      (∀ i, k ≤ i → s.a.rd i = a.rd i ∧ s.aprime.rd i = ap.rd i) ∧
      (skip ≠ 0 → s.b = b) ∧
      (skip = 0 → ∀ b0, b = some b0 → ∃ b', s.b = some b' ∧ b'.len = b0.len ∧
        (∀ i, i < k → b'.rd i = match v i with | none => b0.rd i | some x => some x) ∧ ∀ i, k ≤ i → b'.rd i = b0.rd i) ∧
      (∀ V, W = some V → ∃ V', s.Ws = some V' ∧ V'.len = V.len ∧ (∀ i, i < k → V'.rd i = some (wt i)) ∧
        ∀ i, k ≤ i → V'.rd i = V.rd i) ∧
      (W = none → s.Ws = none ∧ ∀ i, wt i = 0) ∧
      ∀ i, i < k → BsOut (lf i) (Dg * Spec.perSample d) Dg (Spec.perSample d) t0 tb
        (basisTo eps d (vanilla ≠ 0) pde (lf i)) (basisTo' eps d (vanilla ≠ 0) pde (lf i))
        (basisFrom eps d (vanilla ≠ 0) pde (lf i)) (basisFrom' eps d (vanilla ≠ 0) pde (lf i))
        (Spec.slowStep expS d eps (Spec.cfWeight d) qf rf (lf i)) (slowStepD d eps (Spec.cfWeight d) qf rf (lf i))
        (decide (pde = .KdV)) (va i) (vap i) (wt i) (skip ≠ 0) (v i))
    ⟨fun _ => 0, fun _ => 0, fun _ => 0, fun _ => none, rfl, rfl, rfl, fun i hi => by omega, fun _ _ => ⟨rfl, rfl⟩, fun _ => rfl,
      fun _ b0 hb0 => ⟨b0, hb0, rfl, fun i hi => by omega, fun _ _ => rfl⟩,
      fun V hV => ⟨V, hV, rfl, fun i hi => by omega, fun _ _ => rfl⟩, fun hN => ⟨hN, fun _ => rfl⟩, fun i hi => by omega⟩ ?_
  · obtain ⟨s, h1, va, vap, wt, v, h2⟩ := key
    refine ⟨s, va, vap, wt, v, ?_, h2⟩
    have e1 : D ≠ 0 := by
      rw [h.hD]; exact Nat.mul_ne_zero (by have := h.hDg; omega) hup
    have e2 : D % akns_upsampling_factor d = 0 := by rw [h.hD]; exact Nat.mul_mod_left _ _
    have e3 : D / akns_upsampling_factor d = Dg := by rw [h.hD]; exact Nat.mul_div_cancel _ (Nat.pos_of_ne_zero hup)
    have e4 : ¬ (skip = 0 ∧ b = none) := by
      rintro ⟨g1, g2⟩
      obtain ⟨b', g3, -⟩ := h.hb g1
      rw [g2] at g3; cases g3
    have e5 : ¬ (pde ≠ .KdV ∧ pde ≠ .NSE) := by
      rintro ⟨g1, g2⟩
      rcases h.hp with g | g
      · exact g1 g
      · exact g2 g
    unfold akns_scatter_bound_states
    simp only
    rw [if_neg e1, if_neg h.hK.ne', if_neg e4, if_neg hup]
    simp only [hbc, e2, e3, ne_eq, not_true_eq_false, if_false]
    rw [if_neg e5, if_neg (by have := h.hDg; omega)]
    have hT1' : bsPre D q r ((T1 - T0) / ((Dg : ℝ) - 1)) d (decide ¬skip = 0) = some (Except.ok T) := hT1
    simp only [hT1', Option.bind_eq_bind, Option.bind_some]
    exact h1
  · rintro k s hk ⟨va, vap, wt, v, s1, s2, s3, s4, s5, s6, s7, s8, s9, s10⟩
    have hWs : s.Ws.isSome = W.isSome := by
      cases hw : W with
      | none => rw [(s9 hw).1]
      | some V => obtain ⟨V', v1, -⟩ := s8 V hw; rw [v1]; rfl
    obtain ⟨s', ya, yap, ywt, yv, e1, e2, e3, e4, e5, e6⟩ := bsOne_ok (t0 := t0) (tb := tb) hT h.hd h.hp (decide (vanilla ≠ 0))
      gPHI gPSI (rdH h.hl hk) (fun hh => h.hx hh k hk) s s1 (by rw [s2]; have := h.ha; omega) (by rw [s3]; have := h.hap; omega)
      (by
        intro hsk
        have hsk : skip = 0 := by simpa using hsk
        obtain ⟨b0, b1, b2⟩ := h.hb hsk
        obtain ⟨b', c1, c2, -⟩ := s7 hsk b0 b1
        exact ⟨b', c1, by omega⟩)
      (by
        intro V' hV'
        cases hw : W with
        | none => rw [(s9 hw).1] at hV'; cases hV'
        | some V =>
          obtain ⟨V'', v1, v2, -⟩ := s8 V hw
          rw [hV'] at v1; cases v1
          have := h.hW V hw
          omega) hWs
    subst e2
    refine ⟨_, e1, Function.update va k ya, Function.update vap k yap, Function.update wt k ywt, Function.update v k yv,
      rfl, s2, s3, ?_, ?_, ?_, ?_, ?_, ?_, ?_⟩
    · intro i hi
      have hka : k < s.a.len := by rw [s2]; have := h.ha; omega
      have hkp : k < s.aprime.len := by rw [s3]; have := h.hap; omega
      simp only [Buf.rd_set _ hka, Buf.rd_set _ hkp]
      rcases Nat.lt_succ_iff_lt_or_eq.mp hi with hh | rfl
      · rw [Function.update_of_ne (by omega), Function.update_of_ne (by omega), if_neg (by omega), if_neg (by omega)]
        exact s4 i hh
      · simp
    · intro i hi
      have hka : k < s.a.len := by rw [s2]; have := h.ha; omega
      have hkp : k < s.aprime.len := by rw [s3]; have := h.hap; omega
      simp only [Buf.rd_set _ hka, Buf.rd_set _ hkp]
      rw [if_neg (by omega), if_neg (by omega)]
      exact s5 i (by omega)
    · intro hsk
      show (if decide (skip ≠ 0) = true then s.b else _) = b
      rw [if_pos (by simpa using hsk)]; exact s6 hsk
    · intro hsk b0 hb0
      obtain ⟨b', c1, c2, c3, c4⟩ := s7 hsk b0 hb0
      obtain ⟨b1, d1, d2⟩ := h.hb hsk
      rw [hb0] at d1; cases d1
      refine ⟨setOpt b' k yv, ?_, by rw [setOpt_len, c2], ?_, ?_⟩
      · show (if decide (skip ≠ 0) = true then s.b else _) = _
        rw [if_neg (by simpa using hsk), c1]; rfl
      · intro i hi
        rcases Nat.lt_succ_iff_lt_or_eq.mp hi with hh | rfl
        · rw [Function.update_of_ne (by omega), ← c3 i hh]
          cases yv with
          | none => rfl
          | some x => rw [setOpt, Buf.rd_set _ (by omega), if_neg (by omega)]
        · rw [Function.update_self]
          cases yv with
          | none => exact c4 i le_rfl
          | some x => rw [setOpt, Buf.rd_set _ (by omega), if_pos rfl]
      · intro i hi
        rw [← c4 i (by omega)]
        cases yv with
        | none => rfl
        | some x => rw [setOpt, Buf.rd_set _ (by omega), if_neg (by omega)]
    · intro V hV
      obtain ⟨V', v1, v2, v3, v4⟩ := s8 V hV
      have hkV := h.hW V hV
      refine ⟨V'.set k ywt, ?_, v2, ?_, ?_⟩
      · show s.Ws.map _ = _
        rw [v1]; rfl
      · intro i hi
        rw [Buf.rd_set _ (by omega)]
        rcases Nat.lt_succ_iff_lt_or_eq.mp hi with hh | rfl
        · rw [Function.update_of_ne (by omega), if_neg (by omega)]; exact v3 i hh
        · rw [Function.update_self, if_pos rfl]
      · intro i hi
        rw [Buf.rd_set _ (by omega), if_neg (by omega)]; exact v4 i (by omega)
    · intro hN
      obtain ⟨n1, n2⟩ := s9 hN
      refine ⟨?_, fun i => ?_⟩
      · show s.Ws.map _ = _
        rw [n1]; rfl
      · by_cases hi : i = k
        · rw [hi, Function.update_self]; exact e5 (by rw [hN]; rfl)
        · rw [Function.update_of_ne hi]; exact n2 i
    · intro i hi
      rcases Nat.lt_succ_iff_lt_or_eq.mp hi with hh | rfl
      · simp only [Function.update_of_ne (show i ≠ k by omega)]
        exact s10 i hh
      · simp only [Function.update_self]
        exact ⟨e3, e4, e6⟩

end FNFT

import Verif.Proofs.NsepTop
import Verif.Proofs.NsevEval
/-!
# Proofs: Newton's method in fnft_nsep.c
-/
namespace FNFT
open Complex Matrix AknsDisc

local notation "mexp" => NormedSpace.exp

/-- The derivative of the monodromy matrix that the program computes. -/
noncomputable def monoD (a : AknsDisc) (N : ℕ) (h : ℝ) (qf rf : ℕ → ℂ) (l : ℂ) : Spec.M2 :=
  Spec.dchain (Spec.slowStep expS a h (Spec.cfWeight a) qf rf l) (slowStepD a h (Spec.cfWeight a) qf rf l) (Spec.slowCount a N)

structure MonoArgs (D : ℕ) (q r : Buf ℂ) (qf rf : ℕ → ℂ) (eps : ℝ) (kappa : ℤ) (d : NseDisc) (a : AknsDisc) : Prop where
  hd : nse_to_akns d = .ok a
  hs : Spec.slow a
  hD : 0 < D
  hq : q.Holds 0 D qf
  hr : r.Holds 0 D rf
  heps : 0 < eps
  hk : |kappa| = 1
  hsmp : Spec.slowSamples a D

theorem MonoArgs.scat {D : ℕ} {q r : Buf ℂ} {qf rf : ℕ → ℂ} {eps : ℝ} {kappa : ℤ} {d : NseDisc} {a : AknsDisc}
    (h : MonoArgs D q r qf rf eps kappa d a) (l : ℂ) (W : Option (Buf ℤ)) (hW : ∀ V, W = some V → 1 ≤ V.len) :
    Spec.ScatArgs D q r qf rf eps 1 (Buf.ofList [l]) (fun _ => l) (Buf.malloc 8) W a .NSE 8 :=
  ⟨h.hD, h.hq, h.hr, h.heps, by norm_num, fun i hi => by obtain rfl : i = 0 := by omega
                                                         rfl, h.hs, h.hsmp, Or.inr rfl, fun hh => (by cases hh), by simp, hW⟩

theorem monoEval_ok {D : ℕ} {q r : Buf ℂ} {qf rf : ℕ → ℂ} {eps : ℝ} {kappa : ℤ} {d : NseDisc} {a : AknsDisc}
    (h : MonoArgs D q r qf rf eps kappa d a) (nrm : Bool) (l : ℂ) :
    ∃ (w : ℤ) (m : Buf ℂ) (W : Option (Buf ℤ)), monoEval D q r eps kappa nrm d l = some (.ok (m, W)) ∧
      monoScl W = some ((2 : ℂ) ^ w) ∧ (nrm = false → w = 0) ∧
      (∀ j k : Fin 2, m.rd (2 * j + k) = some ((2 : ℂ) ^ (-w) * Spec.mono expS a D eps qf rf l j k)) ∧
      ∀ j k : Fin 2, m.rd (4 + (2 * j + k)) = some ((2 : ℂ) ^ (-w) * monoD a D eps qf rf l j k) := by
  obtain ⟨W, hW⟩ : ∃ W : Option (Buf ℤ), W = if nrm then some (Buf.ofList [0]) else none := ⟨_, rfl⟩
  have hWl : ∀ V, W = some V → 1 ≤ V.len := by
    rw [hW]; intro V hV
    cases nrm
    · cases hV
    · simp only [if_true, Option.some.injEq] at hV; subst hV; simp
  have hs := h.scat l W hWl
  obtain ⟨res, w, h1, h2, h3, h4, h5, h6, h7⟩ := scatter_matrix_ok hs.hD hs.hq hs.hr hs.heps hs.hK hs.hl hs.hd hs.hs hs.hp hs.hx
    0 true (Buf.malloc 8) hs.hres W hs.hW
  simp only [if_true] at h1 h4
  obtain ⟨f1, f2, f3, f4⟩ := nse_from h.hs eps l
  have hdec : decide ((0 : ℕ) ≠ 0) = false := rfl
  have hrun : nse_scatter_matrix D (some q) (some r) eps kappa 1 (some (Buf.ofList [l])) (some (Buf.malloc 8)) W d 1 =
      some ⟨SUCCESS, res.result, res.W⟩ := by
    unfold nse_scatter_matrix
    dsimp only
    rw [if_neg (by simp [h.hk, h.heps, h.hD.ne']), h.hd]
    dsimp only
    rw [h1]
    simp only [Option.bind_eq_bind, Option.bind_some, h2, if_true, Option.pure_def]
  refine ⟨w 0, res.result, res.W, ?_, ?_, ?_, fun j k => ?_, fun j k => ?_⟩
  · unfold monoEval
    rw [← hW, hrun]
    rfl
  · cases hn : nrm with
    | false =>
      have hWn : W = none := by rw [hW, hn]; rfl
      obtain ⟨g1, g2⟩ := h7 hWn
      rw [g1, g2 0]; simp [monoScl]
    | true =>
      have hWn : W = some (Buf.ofList [0]) := by rw [hW, hn]; rfl
      obtain ⟨V', g1, -, g3, -⟩ := h6 _ hWn
      rw [g1]
      simp only [monoScl, g3 0 (by norm_num), Option.map_some]
  · intro hn
    exact (h7 (by rw [hW, hn]; rfl)).2 0
  · have := h4 0 (by norm_num) (2 * j + k) (by have := j.2; have := k.2; omega)
    simp only [hdec, f1, f2, f3, f4] at this
    rw [outList_four] at this
    rw [show 8 * 0 + (2 * (j : ℕ) + k) = 2 * j + k by ring] at this
    rw [this]
    simp [sandwich, Spec.mono]
  · have := h4 0 (by norm_num) (4 + (2 * j + k)) (by have := j.2; have := k.2; omega)
    simp only [hdec, f1, f2, f3, f4] at this
    rw [outList_deriv] at this
    rw [show 8 * 0 + (4 + (2 * (j : ℕ) + k)) = 4 + (2 * j + k) by ring] at this
    rw [this]
    simp [sandwichD, monoD]

theorem monoD_ok {D : ℕ} {q r : Buf ℂ} {qf rf : ℕ → ℂ} {eps : ℝ} {kappa : ℤ} {d : NseDisc} {a : AknsDisc}
    (h : MonoArgs D q r qf rf eps kappa d a) (l : ℂ) : Spec.MonoDeriv expS a D eps qf rf l (monoD a D eps qf rf l) := by
  constructor
  · intro hreg hone j k
    obtain ⟨w, m, W, -, -, -, -, e5⟩ := monoEval_ok h false l
    have hs := h.scat l none (fun V hV => by cases hV)
    obtain ⟨res, w', h1, h2, h3, h4, h5⟩ := C27_derivative_exact D q r qf rf eps 1 (Buf.ofList [l]) (fun _ => l) (Buf.malloc 8) none a .NSE 0 hs
    obtain ⟨s, s', s1, s2, s3, s4⟩ := h5 0 (by norm_num) hreg hone j k
    obtain ⟨res', w'', g1, g2, g3, g4, g5, g6, g7⟩ := scatter_matrix_ok hs.hD hs.hq hs.hr hs.heps hs.hK hs.hl hs.hd hs.hs hs.hp hs.hx
      0 true (Buf.malloc 8) hs.hres none hs.hW
    simp only [if_true] at g1 g4
    obtain rfl : res' = res := Option.some.inj (g1.symm.trans h1)
    obtain ⟨f1, f2, f3, f4⟩ := nse_from h.hs eps l
    have hdec : decide ((0 : ℕ) ≠ 0) = false := rfl
    have := g4 0 (by norm_num) (4 + (2 * j + k)) (by have := j.2; have := k.2; omega)
    simp only [hdec, f1, f2, f3, f4] at this
    rw [outList_deriv, s2, (g7 rfl).2 0] at this
    have hval : s' = monoD a D eps qf rf l j k := by
      have := Option.some.inj this
      rw [this]; simp [sandwichD, monoD]
    rw [h4 rfl 0, zpow_zero, one_mul, hval] at s4
    have hone' : ∀ z, (Spec.fromS (decide (AknsPde.NSE = AknsPde.KdV)) (decide ((0 : ℕ) ≠ 0)) z) = 1 := fun z => rfl
    simp only [hone', inv_one, Matrix.one_mul, Matrix.mul_one] at s4
    exact s4
  · intro hdet
    have hV : ∀ n, ∃ V, n < Spec.slowCount a D → Spec.NearDeriv V (Spec.mainExponent a eps (Spec.cfWeight a) qf rf n) l ∧
        slowStepD a eps (Spec.cfWeight a) qf rf l n = ((Spec.outerExponents a eps qf rf n).1.map expS).prod * V *
          ((Spec.outerExponents a eps qf rf n).2.map expS).prod := by
      intro n
      by_cases hn : n < Spec.slowCount a D
      · obtain ⟨V, v1, v2⟩ := slowStepD_near a eps (Spec.cfWeight a) qf rf l n (hdet n hn)
        exact ⟨V, fun _ => ⟨v1, v2⟩⟩
      · exact ⟨0, fun h => absurd h hn⟩
    choose V hV using hV
    refine ⟨V, fun n hn => (hV n hn).1, ?_⟩
    unfold monoD
    exact (dchain_congr (Spec.slowCount a D) (fun _ _ => rfl) fun n hn => (hV n hn).2).2

theorem mainEval_ok {D : ℕ} {q r : Buf ℂ} {qf rf : ℕ → ℂ} {eps : ℝ} {kappa : ℤ} {d : NseDisc} {a : AknsDisc}
    (h : MonoArgs D q r qf rf eps kappa d a) (nrm : Bool) (rhs : ℝ) (l : ℂ) :
    addRhs rhs (mainEval D q r eps kappa nrm d) l =
      some (.ok (Spec.floquet (Spec.mono expS a D eps qf rf l) + rhs, Spec.floquet (monoD a D eps qf rf l))) := by
  obtain ⟨w, m, W, e1, e2, -, e4, e5⟩ := monoEval_ok h nrm l
  have m0 := e4 0 0
  have m3 := e4 1 1
  have m4 := e5 0 0
  have m7 := e5 1 1
  simp only [Fin.isValue, Fin.val_zero, Fin.val_one, mul_zero, mul_one, add_zero, Nat.reduceAdd] at m0 m3 m4 m7
  have hw : (2 : ℂ) ^ w * (2 : ℂ) ^ (-w) = 1 := by rw [← zpow_add₀ two_ne_zero, add_neg_cancel, zpow_zero]
  unfold addRhs mainEval
  simp only [e1, e2, m0, m3, m4, m7, Option.bind_eq_bind, Option.bind_some, Option.pure_def]
  unfold Spec.floquet
  congr 3
  · linear_combination (Spec.mono expS a D eps qf rf l 0 0 + Spec.mono expS a D eps qf rf l 1 1) * hw
  · linear_combination (monoD a D eps qf rf l 0 0 + monoD a D eps qf rf l 1 1) * hw

theorem auxEval_ok {D : ℕ} {q r : Buf ℂ} {qf rf : ℕ → ℂ} {eps : ℝ} {kappa : ℤ} {d : NseDisc} {a : AknsDisc}
    (h : MonoArgs D q r qf rf eps kappa d a) (nrm : Bool) :
    ∃ w : ℂ → ℤ, (nrm = false → ∀ l, w l = 0) ∧ ∀ l, auxEval D q r eps kappa nrm d l =
      some (.ok ((2 : ℂ) ^ (-w l) * Spec.mono expS a D eps qf rf l 0 1, (2 : ℂ) ^ (-w l) * monoD a D eps qf rf l 0 1)) := by
  have := fun l => monoEval_ok h nrm l
  choose w m W e1 e2 e3 e4 e5 using this
  refine ⟨w, fun hn l => e3 l hn, fun l => ?_⟩
  have m1 := e4 l 0 1
  have m5 := e5 l 0 1
  simp only [Fin.isValue, Fin.val_zero, Fin.val_one, mul_zero, zero_add, Nat.reduceAdd] at m1 m5
  unfold auxEval
  simp only [e1, m1, m5, Option.bind_eq_bind, Option.bind_some, Option.pure_def]

end FNFT

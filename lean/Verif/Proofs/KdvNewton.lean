import Verif.Proofs.KdvEval
import Verif.Spec.KdvBound
/-!
# Proofs: Newton's method on the imaginary axis
-/
namespace FNFT
open Complex AknsDisc

/-- What the evaluations of `a` and `a'` return. -/
structure KEvalSpec (eval : ℂ → Option (Except ℤ (ℂ × ℂ))) (A A' : ℝ → ℝ) : Prop where
  ok : ∀ y : ℝ, y ≠ 0 → ∃ (w : ℤ) (x x' : ℝ), eval (I * y) = some (.ok ((x : ℂ), I * (x' : ℂ))) ∧ (2 : ℝ) ^ w * x = A y ∧ (2 : ℝ) ^ w * x' = -A' y
  zero : eval 0 = some (.error (E_SUBROUTINE EC_DIV_BY_ZERO))

def rconsSeq (l : ℝ) (z : ℕ → ℝ) : ℕ → ℝ
  | 0 => l
  | j + 1 => z j

theorem realNewton_cons {A A' : ℝ → ℝ} {tol b : ℝ} {n : ℕ} {z : ℕ → ℝ} {k : ℕ} {stop : Spec.RealNewtonStop}
    (h : Spec.RealNewton A A' tol b n z k stop) {l : ℝ} (h0 : l ≠ 0) (h1 : A l ≠ 0) (h2 : A' l ≠ 0) (hz : z 0 = l - A l / A' l)
    (hb : z 0 ∈ Set.Icc 0 b) (ht : tol < |A l / A' l|) :
    Spec.RealNewton A A' tol b (n + 1) (rconsSeq l z) (k + 1) stop := by
  refine ⟨?_, Nat.succ_le_succ h.budget, ?_, ?_, ?_⟩
  · intro j hj
    rcases j with _ | j
    · exact ⟨h0, h1, h2, hz⟩
    · exact h.step j (by omega)
  · intro j hj
    rcases j with _ | j
    · exact ⟨hb, ht⟩
    · exact h.going j (by omega)
  · intro _ hs
    rcases k with _ | k
    · exact ⟨hb, ht⟩
    · exact h.last (by omega) hs
  · have hr := h.reason
    cases stop with
    | done =>
      obtain ⟨hk, hr⟩ := hr
      obtain ⟨k', rfl⟩ : ∃ k', k = k' + 1 := ⟨k - 1, by omega⟩
      exact ⟨by omega, hr⟩
    | zero => exact ⟨by have := hr.1; omega, hr.2⟩
    | exhausted => exact congrArg (· + 1) hr
    | failed => exact ⟨by have := hr.1; omega, hr.2⟩

open Spec in
/-- Is this an error? -/
def rstopBad : RealNewtonStop → Bool
  | .failed => true
  | _ => false

theorem kdvOutside_iff (b y : ℝ) : kdvOutside b (I * y) ↔ y ∉ Set.Icc 0 b := by
  unfold kdvOutside
  have h1 : (I * (y : ℂ)).im = y := by simp
  have h2 : (I * (y : ℂ)).re = 0 := by simp
  rw [h1, h2, Set.mem_Icc]
  constructor
  · rintro (h | h | h | h) ⟨c1, c2⟩ <;> linarith
  · intro h
    by_contra hc
    push Not at hc
    exact h ⟨hc.2.2.2, hc.1⟩

open Classical in
theorem kdvNewtonLoop_ok {eval : ℂ → Option (Except ℤ (ℂ × ℂ))} {A A' : ℝ → ℝ} (he : KEvalSpec eval A A') (b : ℝ) (niter : ℕ) :
    ∀ (fuel iter : ℕ) (l : ℝ), niter = iter + fuel → 0 < fuel →
    ∃ z k stop code, z 0 = l ∧ Spec.RealNewton A A' (EPSILON * 100) b fuel z k stop ∧
      kdvNewtonLoop eval b niter fuel iter (I * l) = some (code, I * (z k : ℂ)) ∧
      (rstopBad stop = true → code ≠ SUCCESS ∧ E_SUBROUTINE code = E_SUBROUTINE EC_DIV_BY_ZERO) ∧ (rstopBad stop = false → code = SUCCESS) := by
  intro fuel
  induction fuel with
  | zero => intro iter l _ h; omega
  | succ fuel ih =>
    intro iter l h _
    have h0run : ∀ stop, (match stop with
        | Spec.RealNewtonStop.done => False
        | .zero => l ≠ 0 ∧ A l = 0
        | .exhausted => False
        | .failed => (l = 0 ∨ A l ≠ 0 ∧ A' l = 0)) → Spec.RealNewton A A' (EPSILON * 100) b (fuel + 1) (fun _ => l) 0 stop := by
      intro stop hs
      refine ⟨fun j hj => by omega, by omega, fun j hj => by omega, fun h => by omega, ?_⟩
      cases stop with
      | done => exact hs.elim
      | zero => exact ⟨by omega, hs⟩
      | exhausted => exact hs.elim
      | failed => exact ⟨by omega, hs⟩
    by_cases hl : l = 0
    · refine ⟨fun _ => l, 0, .failed, E_SUBROUTINE EC_DIV_BY_ZERO, rfl, h0run _ (Or.inl hl), ?_, fun _ => ⟨by decide, by decide⟩, fun h => by cases h⟩
      subst hl
      unfold kdvNewtonLoop
      simp [he.zero]
    obtain ⟨w, x, x', e1, e2, e3⟩ := he.ok l hl
    have hw : (2 : ℝ) ^ w ≠ 0 := zpow_ne_zero _ (by norm_num)
    have hx : (x : ℂ) = 0 ↔ A l = 0 := by rw [← e2]; simp [hw]
    have hx' : x' = 0 ↔ A' l = 0 := by
      have : A' l = -((2 : ℝ) ^ w * x') := by rw [e3]; ring
      rw [this]; simp [hw]
    by_cases hA : A l = 0
    · refine ⟨fun _ => l, 0, .zero, SUCCESS, rfl, h0run _ ⟨hl, hA⟩, ?_, fun h => (by cases h), fun _ => rfl⟩
      unfold kdvNewtonLoop
      rw [e1]
      simp only [Option.bind_eq_bind, Option.bind_some]
      rw [if_pos (hx.mpr hA)]; rfl
    by_cases hA' : A' l = 0
    · refine ⟨fun _ => l, 0, .failed, EC_DIV_BY_ZERO, rfl, h0run _ (Or.inr ⟨hA, hA'⟩), ?_, fun _ => ⟨by decide, rfl⟩, fun h => by cases h⟩
      unfold kdvNewtonLoop
      rw [e1]
      simp only [Option.bind_eq_bind, Option.bind_some]
      rw [if_neg (fun h => hA (hx.mp h)), if_pos (by rw [hx'.mpr hA']; simp)]; rfl
    have hx'0 : x' ≠ 0 := fun h => hA' (hx'.mp h)
    have him : (I * (x' : ℂ)).im = x' := by simp
    have herr : ((x : ℂ).re : ℂ) / (I * (x' : ℂ)) = I * ((A l / A' l : ℝ) : ℂ) := by
      have hA'e : A' l = -((2 : ℝ) ^ w * x') := by rw [e3]; ring
      rw [← e2, hA'e, ofReal_re, div_eq_iff (mul_ne_zero I_ne_zero (by exact_mod_cast hx'0))]
      have : (2 : ℝ) ^ w * x / -((2 : ℝ) ^ w * x') = -(x / x') := by rw [div_neg, mul_div_mul_left _ _ hw]
      rw [this]
      push_cast
      have hx'c : (x' : ℂ) ≠ 0 := by exact_mod_cast hx'0
      field_simp
      rw [I_sq]; ring
    have hnext : I * (l : ℂ) - I * ((A l / A' l : ℝ) : ℂ) = I * ((l - A l / A' l : ℝ) : ℂ) := by push_cast; ring
    have hnorm : ‖I * ((A l / A' l : ℝ) : ℂ)‖ = |A l / A' l| := by rw [norm_mul, norm_I, one_mul, Complex.norm_real, Real.norm_eq_abs]
    have hloop : kdvNewtonLoop eval b niter (fuel + 1) iter (I * l) =
        if kdvOutside b (I * ((l - A l / A' l : ℝ) : ℂ)) then some (SUCCESS, I * ((l - A l / A' l : ℝ) : ℂ))
        else if |A l / A' l| > EPSILON * 100 ∧ iter + 1 < niter then kdvNewtonLoop eval b niter fuel (iter + 1) (I * ((l - A l / A' l : ℝ) : ℂ))
        else some (SUCCESS, I * ((l - A l / A' l : ℝ) : ℂ)) := by
      conv_lhs => unfold kdvNewtonLoop
      rw [e1]
      simp only [Option.bind_eq_bind, Option.bind_some]
      rw [if_neg (fun h => hA (hx.mp h)), if_neg (by simp [hx'0]), him, if_neg hx'0, herr, hnorm, hnext]
      rfl
    rw [kdvOutside_iff] at hloop
    have hone : ∀ stop, (match stop with
        | Spec.RealNewtonStop.done => (l - A l / A' l) ∉ Set.Icc 0 b ∨ |A l / A' l| ≤ EPSILON * 100
        | .exhausted => (l - A l / A' l) ∈ Set.Icc 0 b ∧ EPSILON * 100 < |A l / A' l| ∧ fuel = 0
        | _ => False) → Spec.RealNewton A A' (EPSILON * 100) b (fuel + 1) (rconsSeq l fun _ => l - A l / A' l) 1 stop := by
      intro stop hs
      refine ⟨fun j hj => ?_, by omega, fun j hj => by omega, fun _ hd => ?_, ?_⟩
      · obtain rfl : j = 0 := by omega
        exact ⟨hl, hA, hA', rfl⟩
      · cases stop with
        | done => exact absurd rfl hd
        | exhausted => exact ⟨hs.1, hs.2.1⟩
        | zero => exact hs.elim
        | failed => exact hs.elim
      · cases stop with
        | done => exact ⟨by omega, hs⟩
        | exhausted => show 1 = fuel + 1; rw [hs.2.2]
        | zero => exact hs.elim
        | failed => exact hs.elim
    by_cases hb : (l - A l / A' l) ∈ Set.Icc 0 b
    · by_cases ht : EPSILON * 100 < |A l / A' l|
      · by_cases hf : fuel = 0
        · refine ⟨_, 1, .exhausted, SUCCESS, rfl, hone _ ⟨hb, ht, hf⟩, ?_, fun h => (by cases h), fun _ => rfl⟩
          rw [hloop, if_neg (not_not.mpr hb), if_neg (by rintro ⟨-, c⟩; omega)]
          rfl
        · obtain ⟨z, k, stop, code, z0, z1, z2, z3⟩ := ih (iter + 1) (l - A l / A' l) (by omega) (by omega)
          refine ⟨rconsSeq l z, k + 1, stop, code, rfl, realNewton_cons z1 hl hA hA' z0 (by rwa [z0]) ht, ?_, z3⟩
          rw [hloop, if_neg (not_not.mpr hb), if_pos ⟨ht, by omega⟩, z2]
          rfl
      · refine ⟨_, 1, .done, SUCCESS, rfl, hone _ (Or.inr (not_lt.mp ht)), ?_, fun h => (by cases h), fun _ => rfl⟩
        rw [hloop, if_neg (not_not.mpr hb), if_neg (by rintro ⟨c, -⟩; exact ht c)]
        rfl
    · refine ⟨_, 1, .done, SUCCESS, rfl, hone _ (Or.inl hb), ?_, fun h => (by cases h), fun _ => rfl⟩
      rw [hloop, if_pos hb]
      rfl

theorem kdvRefine_loop {eval : ℂ → Option (Except ℤ (ℂ × ℂ))} {A A' : ℝ → ℝ} (he : KEvalSpec eval A A') (b : ℝ) {niter : ℕ} (hn : 0 < niter)
    {K : ℕ} {bs : Buf ℂ} {init : ℕ → ℝ} (hb : bs.Holds 0 K (fun i => I * (init i : ℂ))) :
    ∃ (out : ℕ → ℝ) (fail : Option ℕ) (code : ℤ) (bs' : Buf ℂ),
      forLoop K (kdvNewtonBody eval b niter) (SUCCESS, bs) = some (code, bs') ∧
      (fail = none → code = SUCCESS) ∧ (fail ≠ none → code ≠ SUCCESS ∧ E_SUBROUTINE code = E_SUBROUTINE EC_DIV_BY_ZERO) ∧
      Spec.RealNewtonAll A A' (EPSILON * 100) b niter K init out fail ∧ bs'.Holds 0 K (fun i => I * (out i : ℂ)) ∧ bs'.len = bs.len ∧
      ∀ j, K ≤ j → bs'.rd j = bs.rd j := by
  have key := forLoop_inv (n := K) (body := kdvNewtonBody eval b niter) (s := (SUCCESS, bs))
    (fun i s => ∃ (out : ℕ → ℝ) (fail : Option ℕ), (fail = none → s.1 = SUCCESS) ∧
      (fail ≠ none → s.1 ≠ SUCCESS ∧ E_SUBROUTINE s.1 = E_SUBROUTINE EC_DIV_BY_ZERO) ∧
      Spec.RealNewtonAll A A' (EPSILON * 100) b niter i init out fail ∧ s.2.Holds 0 K (fun i => I * (out i : ℂ)) ∧ s.2.len = bs.len ∧
      (∀ j, i ≤ j → out j = init j) ∧ ∀ j, K ≤ j → s.2.rd j = bs.rd j) ?_ ?_
  · obtain ⟨⟨r, bs'⟩, h1, out, fail, h2, h2', h3, h4, h5, -, h6⟩ := key
    exact ⟨out, fail, r, bs', h1, h2, h2', h3, h4, h5, h6⟩
  · exact ⟨init, none, fun _ => rfl, fun h => absurd rfl h, ⟨fun i hi => by omega, fun f hf => by cases hf⟩, hb, rfl, fun _ _ => rfl, fun _ _ => rfl⟩
  · rintro i ⟨r, bb⟩ hi ⟨out, fail, h1, h1', h2, h3, h4, h5, h6⟩
    simp only at h1 h1' h3 h4 h6
    have hil : i < bb.len := by
      have := h3 i hi
      rw [Nat.zero_add] at this
      exact Buf.rd_lt this
    cases hf : fail with
    | some f =>
      have hr := h1' (by rw [hf]; simp)
      refine ⟨(r, bb), ?_, out, some f, fun h => by (cases h), fun _ => hr, ?_, h3, h4, fun j hj => h5 j (by omega), h6⟩
      · unfold kdvNewtonBody
        rw [if_pos hr.1]
      · have hfl := h2.failed f hf
        refine ⟨fun j hj hjf => h2.run j ?_ (fun g hg => by rw [hf] at hg; cases hg; exact hjf f rfl), fun g hg => ?_⟩
        · have := hjf f rfl; omega
        · cases hg
          refine ⟨by omega, hfl.2.1, fun j hj hj1 => ?_⟩
          by_cases hji : j < i
          · exact hfl.2.2 j hj hji
          · exact h5 j (by omega)
    | none =>
      obtain ⟨z, k, stop, code, z0, z1, z2, z3, z4⟩ := kdvNewtonLoop_ok he b niter niter 0 (init i) (by omega) hn
      have hrd : bb.rd i = some (I * (init i : ℂ)) := by
        have := h3 i hi
        simp only [Nat.zero_add, h5 i le_rfl] at this
        exact this
      obtain ⟨b', w1, w2, w3, w4⟩ := Buf.wr_spec (b := bb) (i := i) (I * (z k : ℂ)) hil
      refine ⟨(code, b'), ?_, Function.update out i (z k), if rstopBad stop then some i else none,
        ?_, ?_, ?_, ?_, by rw [w2]; exact h4, ?_, ?_⟩
      · unfold kdvNewtonBody
        rw [if_neg (by rw [h1 hf]; simp)]
        simp only [hrd, z2, w1, Option.bind_eq_bind, Option.bind_some]
        rfl
      · intro hh
        cases hs : rstopBad stop
        · exact z4 hs
        · rw [hs] at hh; cases hh
      · intro hh
        cases hs : rstopBad stop
        · rw [hs] at hh; exact absurd rfl hh
        · exact z3 hs
      · refine ⟨fun j hj hjf => ?_, fun f hfs => ?_⟩
        · rcases Nat.lt_succ_iff_lt_or_eq.mp hj with hj | rfl
          · rw [Function.update_of_ne (by omega)]
            exact h2.run j hj (fun g hg => by rw [hf] at hg; cases hg)
          · refine ⟨z, k, stop, z0, z1, ?_, by simp⟩
            rintro rfl
            have := hjf j (by simp [rstopBad])
            omega
        · split_ifs at hfs with hs
          cases hfs
          refine ⟨by omega, ⟨z, k, z0, ?_, by simp⟩, fun j hj _ => ?_⟩
          · cases stop with
            | failed => exact z1
            | _ => cases hs
          · rw [Function.update_of_ne (by omega)]
            exact h5 j (by omega)
      · intro j hj
        rw [Nat.zero_add]
        by_cases hji : j = i
        · subst hji; rw [w3]; simp
        · rw [w4 j hji]
          simp only [Function.update_of_ne hji]
          have := h3 j hj
          rwa [Nat.zero_add] at this
      · intro j hj
        rw [Function.update_of_ne (by omega)]
        exact h5 j (by omega)
      · intro j hj
        show b'.rd j = bs.rd j
        rw [w4 j (by omega)]
        exact h6 j hj

/-! ## The functions -/

/-- The slow discretization. -/
theorem kdvSlow_ok {d : KdvDisc} {a : AknsDisc} {v : ℕ} (h : kdv_to_akns d = .ok a) (hv : kdv_vanilla_flag d = .ok v) :
    ∃ d', kdv_slow_discretization d = (SUCCESS, d') ∧ kdv_to_akns d' = .ok (Spec.baseOf a) ∧ kdv_vanilla_flag d' = .ok v ∧
      Spec.slow (Spec.baseOf a) ∧ akns_upsampling_factor (Spec.baseOf a) = akns_upsampling_factor a := by
  cases d <;> simp only [kdv_to_akns] at h <;> cases h <;> simp only [kdv_vanilla_flag] at hv <;> cases hv <;>
    exact ⟨_, rfl, rfl, rfl, (by simp [Spec.baseOf, Spec.slow]), rfl⟩

variable {D Dg : ℕ} {q r : Buf ℂ} {qf rf : ℕ → ℂ} {T0 T1 eps : ℝ} {o : KdvvOpts} {a : AknsDisc} {v : ℕ}

/-- `Re a(iκ)` for the processed samples. -/
noncomputable def Spec.kdvReA (E : Spec.M2 → Spec.M2) (d : AknsDisc) (vanilla : Bool) (D : ℕ) (T0 T1 eps : ℝ) (qf rf : ℕ → ℂ) (y : ℝ) : ℝ :=
  (Spec.kdvSlowA E d vanilla D T0 T1 eps qf rf (I * y)).re

/-- Its derivative as the program computes it. -/
noncomputable def kdvReA' (d : AknsDisc) (vanilla : Bool) (D : ℕ) (T0 T1 eps : ℝ) (qf rf : ℕ → ℂ) (y : ℝ) : ℝ :=
  -(kdvSlowA' d vanilla D T0 T1 eps qf rf (I * y)).im

theorem kdvReA'_deriv {d : AknsDisc} (hd : Spec.slow d) (vanilla : Bool) (D : ℕ) (T0 T1 eps : ℝ) (qf rf : ℕ → ℂ) {y : ℝ} (hy : y ≠ 0)
    (hreg : Spec.Regular d eps (Spec.cfWeight d) qf rf (I * y) (Spec.slowCount d D))
    (hone : ∀ n, n < Spec.slowCount d D → 1 ≤ ‖(Spec.mainExponent d eps (Spec.cfWeight d) qf rf n (I * y)).det‖) :
    HasDerivAt (Spec.kdvReA NormedSpace.exp d vanilla D T0 T1 eps qf rf) (kdvReA' d vanilla D T0 T1 eps qf rf y) y := by
  have h := kdvSlowA'_deriv hd vanilla D T0 T1 eps qf rf (l := I * y) (by simp [hy]) hreg hone
  have hI : HasDerivAt (fun y : ℝ => I * (y : ℂ)) I y := by
    have := (Complex.ofRealCLM.hasDerivAt (x := y)).const_mul I
    simpa using this
  have hc := HasDerivAt.comp (h₂ := Spec.kdvSlowA NormedSpace.exp d vanilla D T0 T1 eps qf rf) (h := fun y : ℝ => I * (y : ℂ)) y h hI
  have hre := (Complex.reCLM.hasFDerivAt (x := Spec.kdvSlowA NormedSpace.exp d vanilla D T0 T1 eps qf rf (I * y))).comp_hasDerivAt y hc
  have e : kdvReA' d vanilla D T0 T1 eps qf rf y = Complex.reCLM (kdvSlowA' d vanilla D T0 T1 eps qf rf (I * y) * I) := by
    unfold kdvReA'
    simp
  rw [e]
  exact hre

theorem kdvNewtonEval_ok (h : KdvBaseArgs D Dg q r qf rf T0 T1 eps o a v) {d' : KdvDisc} (h1 : kdv_to_akns d' = .ok (Spec.baseOf a))
    (h2 : kdv_vanilla_flag d' = .ok v) (h3 : Spec.slow (Spec.baseOf a))
    (h4 : akns_upsampling_factor (Spec.baseOf a) = akns_upsampling_factor a) (nrm : Bool) (g : Garbage) :
    KEvalSpec (kdvNewtonEval D (some q) (some r) T0 T1 d' nrm g)
      (Spec.kdvReA expS (Spec.baseOf a) (v ≠ 0) D T0 T1 eps (swapIf v qf rf) (swapIf v rf qf))
      (kdvReA' (Spec.baseOf a) (v ≠ 0) D T0 T1 eps (swapIf v qf rf) (swapIf v rf qf)) := by
  have hq' : (swapIf v q r).Holds 0 D (swapIf v qf rf) := by unfold swapIf; split_ifs; exacts [h.hq, h.hr]
  have hr' : (swapIf v r q).Holds 0 D (swapIf v rf qf) := by unfold swapIf; split_ifs; exacts [h.hr, h.hq]
  have hl : ∀ l : ℂ, (Buf.ofList [l]).Holds 0 1 (fun _ => l) := fun l i hi => by
    obtain rfl : i = 0 := by omega
    rw [Buf.rd_ofList]; rfl
  constructor
  · intro y hy
    have hargs : Spec.BoundArgs D Dg (swapIf v q r) (swapIf v r q) (swapIf v qf rf) (swapIf v rf qf) 1 (Buf.ofList [I * y]) (fun _ => I * y)
        (Buf.malloc 1) (Buf.malloc 1) (some (Buf.malloc 1))
        (if nrm then some (Buf.ofList [0]) else none) (Spec.baseOf a) .KdV 1 :=
      { hDg := h.hDg2, hD := by rw [h4]; exact h.hDg, hq := hq', hr := hr', hK := by omega, hl := hl _
        hd := h3, hp := Or.inl rfl, hx := fun _ _ _ => by simp [hy], ha := le_rfl, hap := le_rfl, hb := fun h => (by cases h),
        hW := fun V hV => by
          cases nrm
          · cases hV
          · cases hV; simp }
    obtain ⟨res, wt, u, e1, e2, e3, -⟩ := kdv_bound_ok hargs h1 h2 T0 T1 (g 0) (g 1)
    obtain ⟨⟨x, x1, x2⟩, ⟨x', y1, y2⟩⟩ := e3 0 (by omega)
    rw [← h.heps] at x2 y2
    refine ⟨wt 0, x, x', ?_, x2, by rw [y2]; unfold kdvReA'; ring⟩
    unfold kdvNewtonEval
    simp only [e1, Option.bind_eq_bind, Option.bind_some, e2, ne_eq, not_true_eq_false, if_false, x1, y1]
    rfl
  · obtain ⟨res, e1, e2⟩ := kdv_bound_zero (a := Buf.malloc 1) (ap := Buf.malloc 1) (b := some (Buf.malloc 1))
      (W := if nrm then some (Buf.ofList [0]) else none) (skip := 1) h.hDg2 (by rw [h4]; exact h.hDg) h.hq h.hr h3
      (fun h => (by cases h)) rfl (hl 0) rfl h1 h2 T0 T1 (g 0) (g 1)
    unfold kdvNewtonEval
    simp only [e1, Option.bind_eq_bind, Option.bind_some, e2]
    rfl

/-- Refinement of guesses on the imaginary axis. -/
theorem kdvRefine_ok (h : KdvBaseArgs D Dg q r qf rf T0 T1 eps o a v) {d' : KdvDisc} (h1 : kdv_to_akns d' = .ok (Spec.baseOf a))
    (h2 : kdv_vanilla_flag d' = .ok v) (h3 : Spec.slow (Spec.baseOf a))
    (h4 : akns_upsampling_factor (Spec.baseOf a) = akns_upsampling_factor a) (g : Garbage) {K0 K : ℕ} {bs : Buf ℂ} {init : ℕ → ℝ}
    (hb : bs.Holds 0 K (fun i => I * (init i : ℂ))) {b : ℝ} (hb0 : 0 ≤ b) :
    ∃ (out : ℕ → ℝ) (fail : Option ℕ) (bs' : Buf ℂ),
      kdvRefine D q r T0 T1 K0 K bs b d' o g = some (if fail = none then SUCCESS else E_SUBROUTINE EC_DIV_BY_ZERO, if fail = none then K else K0, bs') ∧
      Spec.RealNewtonAll (Spec.kdvReA expS (Spec.baseOf a) (v ≠ 0) D T0 T1 eps (swapIf v qf rf) (swapIf v rf qf))
        (kdvReA' (Spec.baseOf a) (v ≠ 0) D T0 T1 eps (swapIf v qf rf) (swapIf v rf qf)) (EPSILON * 100) b o.niter K init out fail ∧
      bs'.Holds 0 K (fun i => I * (out i : ℂ)) ∧ bs'.len = bs.len ∧ ∀ j, K ≤ j → bs'.rd j = bs.rd j := by
  by_cases hK : K = 0
  · subst hK
    refine ⟨init, none, bs, ?_, ⟨fun i hi => by omega, fun f hf => by cases hf⟩, hb, rfl, fun _ _ => rfl⟩
    unfold kdvRefine kdvv_refine_newton
    simp
  by_cases hn : o.niter = 0
  · refine ⟨init, none, bs, ?_, ⟨fun i hi _ => ⟨fun _ => init i, 0, .exhausted, rfl, ?_, by simp, rfl⟩, fun f hf => by cases hf⟩, hb, rfl, fun _ _ => rfl⟩
    · unfold kdvRefine kdvv_refine_newton
      simp [hn]
    · rw [hn]
      exact ⟨fun j hj => by omega, le_rfl, fun j hj => by omega, fun h => by omega, rfl⟩
  · obtain ⟨out, fail, code, bs', e1, e2, e2', e3, e4, e5, e6⟩ := kdvRefine_loop (kdvNewtonEval_ok h h1 h2 h3 h4 o.nrm g) b
      (Nat.pos_of_ne_zero hn) hb
    refine ⟨out, fail, bs', ?_, e3, e4, e5, e6⟩
    unfold kdvRefine kdvv_refine_newton
    rw [if_neg hK, if_neg hn, if_neg (by simp), if_neg (not_not.mpr hb0), e1]
    simp only [Option.bind_eq_bind, Option.bind_some, Option.pure_def]
    by_cases hf : fail = none
    · rw [e2 hf]; simp [hf]
    · obtain ⟨c1, c2⟩ := e2' hf
      rw [if_pos c1, c2]; simp [hf]

end FNFT

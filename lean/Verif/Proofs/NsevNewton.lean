import Verif.Proofs.NsevSelect
import Mathlib.Tactic.Push
/-!
# Proofs: the Newton iteration
-/
namespace FNFT
open Complex

theorem not_lt_num {x : Dbl} {y : EReal} (hx : ∃ e, x = .num e) : ¬ x.lt (.num y) ↔ Dbl.le (.num y) x := by
  obtain ⟨e, rfl⟩ := hx
  simp [Dbl.lt, Dbl.le]

theorem not_num_lt {x : Dbl} {y : EReal} (hx : ∃ e, x = .num e) : ¬ Dbl.lt (.num y) x ↔ x.le (.num y) := by
  obtain ⟨e, rfl⟩ := hx
  simp [Dbl.lt, Dbl.le]

theorem ValidBox.num {box : Fin 4 → Dbl} (h : Spec.ValidBox box) : ∀ i, ∃ e, box i = .num e := by
  obtain ⟨h1, h2⟩ := h
  intro i
  cases hb : box i with
  | num e => exact ⟨e, rfl⟩
  | nan =>
    exfalso
    fin_cases i <;> simp_all [Dbl.le]

theorem outsideBox_iff {box : Fin 4 → Dbl} (h : Spec.ValidBox box) (z : ℂ) : outsideBox box z ↔ ¬ Spec.InBoxC box z := by
  unfold outsideBox Spec.InBoxC
  rw [← not_num_lt (ValidBox.num h 0), ← not_lt_num (ValidBox.num h 1), ← not_num_lt (ValidBox.num h 2), ← not_lt_num (ValidBox.num h 3)]
  tauto

/-- What the evaluations of `a` and `a'` return. -/
def EvalSpec (eval : ℂ → Option (Except ℤ (ℂ × ℂ))) (A A' : ℂ → ℂ) (w : ℂ → ℤ) : Prop :=
  ∀ l, ∃ x x', eval l = some (.ok (x, x')) ∧ (2 : ℂ) ^ (w l) * x = A l ∧ (2 : ℂ) ^ (w l) * x' = A' l

/-- The sequence with a new first element. -/
def consSeq (l : ℂ) (z : ℕ → ℂ) : ℕ → ℂ
  | 0 => l
  | j + 1 => z j

theorem newtonRun_cons {A A' : ℂ → ℂ} {w : ℂ → ℤ} {tol : Dbl} {box : Fin 4 → Dbl} {n : ℕ} {z : ℕ → ℂ} {k : ℕ} {stop : Spec.NewtonStop}
    (h : Spec.NewtonRun A A' w tol box (n - 2) z k stop) {l : ℂ} (hn : 0 < n) (h1 : A l ≠ 0) (h2 : A' l ≠ 0) (hz : z 0 = l - A l / A' l)
    (hb : Spec.InBoxC box (z 0)) (ht : ¬ Dbl.le (.num ((‖A l / A' l‖ : ℝ) : EReal)) tol)
    (ht' : ¬ Dbl.le (.num ((‖(2 : ℂ) ^ (-w l) * A l‖ : ℝ) : EReal)) tol) :
    Spec.NewtonRun A A' w tol box n (consSeq l z) (k + 1) stop := by
  refine ⟨?_, ?_, ?_, ?_, ?_⟩
  · intro j hj
    rcases j with _ | j
    · exact ⟨h1, h2, hz⟩
    · exact h.step j (by omega)
  · intro j hj
    rcases j with _ | j
    · omega
    · have := h.budget j (by omega); omega
  · intro j hj
    rcases j with _ | j
    · exact ⟨hb, ht, ht'⟩
    · exact h.going j (by omega)
  · intro _ hs
    rcases k with _ | k
    · exact ⟨hb, ht, ht'⟩
    · exact h.last (by omega) hs
  · have hr := h.reason
    cases stop with
    | tolerance =>
      obtain ⟨hk, hr⟩ := hr
      obtain ⟨k', rfl⟩ : ∃ k', k = k' + 1 := ⟨k - 1, by omega⟩
      exact ⟨by omega, hr⟩
    | zero => exact ⟨by have := hr.1; omega, hr.2⟩
    | exhausted => show n ≤ 2 * (k + 1); have : n - 2 ≤ 2 * k := hr; omega
    | failed => exact ⟨by have := hr.1; omega, hr.2⟩

open Spec in
/-- The code for a way to stop. -/
def stopCode : NewtonStop → ℤ
  | .failed => EC_DIV_BY_ZERO
  | _ => SUCCESS

open Spec in
/-- `ok_flag` for a way to stop. -/
def stopOk : NewtonStop → Bool
  | .tolerance => true
  | _ => false

theorem newtonLoop_ok {eval : ℂ → Option (Except ℤ (ℂ × ℂ))} {A A' : ℂ → ℂ} {w : ℂ → ℤ} (he : EvalSpec eval A A' w) {tol : Dbl}
    {box : Fin 4 → Dbl} (hbox : Spec.ValidBox box) (niter : ℕ) : ∀ (fuel iter : ℕ) (l : ℂ), niter ≤ iter + 2 * fuel →
    ∃ z k stop, z 0 = l ∧ Spec.NewtonRun A A' w tol box (niter - iter) z k stop ∧
      newtonLoop eval tol box niter (fuel + 1) iter l = some ⟨stopCode stop, stopOk stop, z k⟩ := by
  intro fuel
  induction fuel with
  | zero =>
    intro iter l h
    refine ⟨fun _ => l, 0, .exhausted, rfl,
      ⟨fun j hj => by omega, fun j hj => by omega, fun j hj => by omega, fun h => by omega, ?_⟩, ?_⟩
    · show niter - iter ≤ 0; omega
    · unfold newtonLoop
      rw [if_pos (by omega)]; rfl
  | succ fuel ih =>
    intro iter l h
    by_cases hi : iter < niter
    · obtain ⟨x, x', e1, e2, e3⟩ := he l
      have h2 : (2 : ℂ) ^ (w l) ≠ 0 := zpow_ne_zero _ (by norm_num)
      have hx : x = 0 ↔ A l = 0 := by rw [← e2]; simp [h2]
      have hx' : x' = 0 ↔ A' l = 0 := by rw [← e3]; simp [h2]
      have hq : x / x' = A l / A' l := by rw [← e2, ← e3, mul_div_mul_left _ _ h2]
      have hxv : x = (2 : ℂ) ^ (-w l) * A l := by
        rw [← e2, ← mul_assoc, ← zpow_add₀ (by norm_num), neg_add_cancel, zpow_zero, one_mul]
      by_cases hA : A l = 0
      · refine ⟨fun _ => l, 0, .zero, rfl,
          ⟨fun j hj => by omega, fun j hj => by omega, fun j hj => by omega, fun h => by omega, ⟨by omega, hA⟩⟩, ?_⟩
        unfold newtonLoop
        rw [if_neg (not_not.mpr hi), e1]
        simp only [Option.bind_eq_bind, Option.bind_some]
        rw [if_pos (hx.mpr hA)]; rfl
      · by_cases hA' : A' l = 0
        · refine ⟨fun _ => l, 0, .failed, rfl,
            ⟨fun j hj => by omega, fun j hj => by omega, fun j hj => by omega, fun h => by omega, ⟨by omega, hA, hA'⟩⟩, ?_⟩
          unfold newtonLoop
          rw [if_neg (not_not.mpr hi), e1]
          simp only [Option.bind_eq_bind, Option.bind_some]
          rw [if_neg (fun h => hA (hx.mp h)), if_pos (hx'.mpr hA')]; rfl
        · have hstop : ∀ P : Prop, P = (¬ Spec.InBoxC box (l - A l / A' l) ∨ Dbl.le (.num ((‖A l / A' l‖ : ℝ) : EReal)) tol ∨
              Dbl.le (.num ((‖(2 : ℂ) ^ (-w l) * A l‖ : ℝ) : EReal)) tol) → P →
              Spec.NewtonRun A A' w tol box (niter - iter) (consSeq l fun _ => l - A l / A' l) 1 .tolerance := by
            intro P hP hp
            rw [hP] at hp
            refine ⟨?_, ?_, fun j hj => by omega, fun _ hs => absurd rfl hs, ⟨by omega, hp⟩⟩
            · intro j hj
              obtain rfl : j = 0 := by omega
              exact ⟨hA, hA', rfl⟩
            · intro j hj; omega
          by_cases hb : Spec.InBoxC box (l - A l / A' l)
          · by_cases ht : Dbl.le (.num ((‖A l / A' l‖ : ℝ) : EReal)) tol ∨ Dbl.le (.num ((‖(2 : ℂ) ^ (-w l) * A l‖ : ℝ) : EReal)) tol
            · refine ⟨_, 1, .tolerance, rfl, hstop _ rfl (Or.inr ht), ?_⟩
              unfold newtonLoop
              rw [if_neg (not_not.mpr hi), e1]
              simp only [Option.bind_eq_bind, Option.bind_some]
              rw [if_neg (fun h => hA (hx.mp h)), if_neg (fun h => hA' (hx'.mp h)), hq, outsideBox_iff hbox,
                if_neg (not_not.mpr hb), hxv, if_pos ht]; rfl
            · obtain ⟨z, k, stop, z0, z1, z2⟩ := ih (iter + 2) (l - A l / A' l) (by omega)
              push Not at ht
              refine ⟨consSeq l z, k + 1, stop, rfl, newtonRun_cons (by rwa [Nat.sub_sub]) (by omega) hA hA' z0 (by rwa [z0]) ht.1 ht.2, ?_⟩
              unfold newtonLoop
              rw [if_neg (not_not.mpr hi), e1]
              simp only [Option.bind_eq_bind, Option.bind_some]
              rw [if_neg (fun h => hA (hx.mp h)), if_neg (fun h => hA' (hx'.mp h)), hq, outsideBox_iff hbox,
                if_neg (not_not.mpr hb), hxv, if_neg (by push Not; exact ht)]
              exact z2
          · refine ⟨_, 1, .tolerance, rfl, hstop _ rfl (Or.inl hb), ?_⟩
            unfold newtonLoop
            rw [if_neg (not_not.mpr hi), e1]
            simp only [Option.bind_eq_bind, Option.bind_some]
            rw [if_neg (fun h => hA (hx.mp h)), if_neg (fun h => hA' (hx'.mp h)), hq, outsideBox_iff hbox, if_pos hb]; rfl
    · refine ⟨fun _ => l, 0, .exhausted, rfl,
        ⟨fun j hj => by omega, fun j hj => by omega, fun j hj => by omega, fun h => by omega, ?_⟩, ?_⟩
      · show niter - iter ≤ 0; omega
      · unfold newtonLoop
        rw [if_pos hi]; rfl

theorem refine_loop {eval : ℂ → Option (Except ℤ (ℂ × ℂ))} {A A' : ℂ → ℂ} {w : ℂ → ℤ} (he : EvalSpec eval A A' w) {tol : Dbl}
    {box : Fin 4 → Dbl} (hbox : Spec.ValidBox box) (niter : ℕ) {K : ℕ} {bs : Buf ℂ} {init : ℕ → ℂ} (hb : bs.Holds 0 K init) :
    ∃ (out : ℕ → ℂ) (fail : Option ℕ) (flag : Bool) (bs' : Buf ℂ),
      forLoop K (newtonBody eval tol box niter) (SUCCESS, false, bs) =
        some (if fail = none then SUCCESS else EC_DIV_BY_ZERO, flag, bs') ∧
      Spec.NewtonAll A A' w tol box niter K init out fail ∧ bs'.Holds 0 K out ∧ bs'.len = bs.len ∧ ∀ j, K ≤ j → bs'.rd j = bs.rd j := by
  have key := forLoop_inv (n := K) (body := newtonBody eval tol box niter) (s := (SUCCESS, false, bs))
    (fun i s => ∃ (out : ℕ → ℂ) (fail : Option ℕ), s.1 = (if fail = none then SUCCESS else EC_DIV_BY_ZERO) ∧
      Spec.NewtonAll A A' w tol box niter i init out fail ∧ s.2.2.Holds 0 K out ∧ s.2.2.len = bs.len ∧
      (∀ j, i ≤ j → out j = init j) ∧ ∀ j, K ≤ j → s.2.2.rd j = bs.rd j) ?_ ?_
  · obtain ⟨⟨r, flag, bs'⟩, h1, out, fail, h2, h3, h4, h5, -, h6⟩ := key
    refine ⟨out, fail, flag, bs', ?_, h3, h4, h5, h6⟩
    rw [h1]; simp only at h2; rw [h2]
  · exact ⟨init, none, rfl, ⟨fun i hi => by omega, fun f hf => by cases hf⟩, hb, rfl, fun _ _ => rfl, fun _ _ => rfl⟩
  · rintro i ⟨r, flag, b⟩ hi ⟨out, fail, h1, h2, h3, h4, h5, h6⟩
    simp only at h1 h3 h4 h6
    have hil : i < b.len := by
      have := h3 i hi
      rw [Nat.zero_add] at this
      exact Buf.rd_lt this
    cases hf : fail with
    | some f =>
      refine ⟨(r, flag, b), ?_, out, some f, by rw [hf] at h1; exact h1, ?_, h3, h4, fun j hj => h5 j (by omega), h6⟩
      · unfold newtonBody
        rw [if_pos]
        rw [h1, hf]
        simp [SUCCESS, EC_DIV_BY_ZERO]
      · have hfl := h2.failed f hf
        refine ⟨fun j hj hjf => h2.run j ?_ (fun g hg => by rw [hf] at hg; cases hg; exact hjf f rfl), fun g hg => ?_⟩
        · have := hjf f rfl; omega
        · cases hg
          exact ⟨by omega, hfl.2⟩
    | none =>
      obtain ⟨z, k, stop, z0, z1, z2⟩ := newtonLoop_ok he (tol := tol) hbox niter niter 0 (init i) (by omega)
      rw [Nat.sub_zero] at z1
      have hrd : b.rd i = some (init i) := by
        have := h3 i hi
        rw [Nat.zero_add, h5 i le_rfl] at this
        exact this
      obtain ⟨b', w1, w2, w3, w4⟩ := Buf.wr_spec (b := b) (i := i) (z k) hil
      refine ⟨(stopCode stop, flag || !(stopOk stop), b'), ?_, Function.update out i (z k), if stopCode stop = SUCCESS then none else some i,
        ?_, ?_, ?_, by rw [w2]; exact h4, ?_, ?_⟩
      · unfold newtonBody
        rw [if_neg (by rw [h1, hf]; simp)]
        simp only [hrd, z2, w1, Option.bind_eq_bind, Option.bind_some]
        rfl
      · show stopCode stop = _
        cases stop <;> simp [stopCode, SUCCESS, EC_DIV_BY_ZERO]
      · refine ⟨fun j hj hjf => ?_, fun f hfs => ?_⟩
        · rcases Nat.lt_succ_iff_lt_or_eq.mp hj with hj | rfl
          · rw [Function.update_of_ne (by omega)]
            exact h2.run j hj (fun g hg => by rw [hf] at hg; cases hg)
          · refine ⟨z, k, stop, z0, z1, ?_, by simp⟩
            rintro rfl
            have := hjf j (by simp [stopCode, SUCCESS, EC_DIV_BY_ZERO])
            omega
        · split_ifs at hfs with hs
          cases hfs
          refine ⟨by omega, ⟨z, k, z0, ?_, by simp⟩, fun j hj => ?_⟩
          · cases stop with
            | failed => exact z1
            | _ => exact absurd rfl hs
          · rw [Function.update_of_ne (by omega)]
            exact h5 j (by omega)
      · intro j hj
        rw [Nat.zero_add]
        by_cases hji : j = i
        · subst hji; rw [w3]; simp
        · rw [w4 j hji, Function.update_of_ne hji]
          have := h3 j hj
          rwa [Nat.zero_add] at this
      · intro j hj
        rw [Function.update_of_ne (by omega)]
        exact h5 j (by omega)
      · intro j hj
        show b'.rd j = bs.rd j
        rw [w4 j (by omega)]
        exact h6 j hj

end FNFT

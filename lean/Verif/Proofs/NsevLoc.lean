import Verif.Proofs.NsevBox
/-!
# Proofs: localisation of the bound states
-/
namespace FNFT
open Complex AknsDisc

/-- The list of bound states that is made from the candidates `cand 0, ..., cand (n-1)`: all of them, or those that are selected by the
box and by merging of values that are closer than `√(2^-52)`. -/
def Spec.Filtered (o : NsevOpts) (box : Fin 4 → Dbl) (n : ℕ) (cand : ℕ → ℂ) (out : List ℂ) : Prop :=
  (o.filt = .NONE → out = (List.range n).map cand) ∧
    (o.filt ≠ .NONE → Spec.Selected box (Real.sqrt ((2 : ℝ)⁻¹ ^ 52)) n cand out)

/-- `*K_ptr = K'` is the smaller of `K0` and the length of `out`, and the array contains the first `K'` elements of `out`. -/
def Spec.BsWritten (out : List ℂ) (K0 K' : ℕ) (bs bs' : Buf ℂ) : Prop :=
  K' = min K0 out.length ∧ bs'.HoldsList (out.take K') ∧ bs'.len = bs.len

theorem bsFinish_ok {o : NsevOpts} {box : Fin 4 → Dbl} {K0 : ℕ} {L : LocOut} {cand : ℕ → ℂ}
    (hbox : o.filt ≠ .NONE → Spec.ValidBox box)
    (h1 : L.buf = none → L.K ≤ K0 ∧ L.bs.Holds 0 L.K cand)
    (h2 : ∀ b, L.buf = some b → b.Holds 0 L.K cand ∧ K0 ≤ L.bs.len) :
    ∃ out K' bs', bsFinish o box K0 L = some (SUCCESS, K', bs') ∧ Spec.Filtered o box L.K cand out ∧
      Spec.BsWritten out K0 K' L.bs bs' := by
  obtain ⟨ret, K, bs, buf⟩ := L
  cases buf with
  | none =>
    obtain ⟨h1, h3⟩ := h1 rfl
    obtain ⟨out, b', e1, e2, e3, e4, e5, e6, e7⟩ := bsFilter_ok h3 hbox
    dsimp only at *
    refine ⟨out, out.length, b', ?_, ⟨e4, e5⟩, ?_, ?_, e3⟩
    · unfold bsFinish
      dsimp only
      rw [e1]
      simp
    · omega
    · rw [List.take_length]; exact e2
  | some b =>
    obtain ⟨h3, h4⟩ := h2 b rfl
    obtain ⟨out, b', e1, e2, e3, e4, e5, e6, e7⟩ := bsFilter_ok h3 hbox
    dsimp only at *
    obtain ⟨K', hK'⟩ : ∃ K', K' = (if K0 < out.length then K0 else out.length) := ⟨_, rfl⟩
    have hmin : K' = min K0 out.length := by rw [hK']; split <;> omega
    obtain ⟨c, f1, f2, f3⟩ := fill_spec (off := 0) (cnt := K') (f := fun i => b'.rd i) (b := bs) (fun i => out.getD i 0)
      (fun i _ hi => by
        rw [e2 i (by omega), List.getElem?_eq_getElem (by omega)]
        rw [List.getD_eq_getElem?_getD, List.getElem?_eq_getElem (by omega)]; simp) (Or.inl (by omega))
    refine ⟨out, K', c, ?_, ⟨e4, e5⟩, hmin, ?_, f2⟩
    · unfold bsFinish
      dsimp only
      rw [e1]
      simp only [Option.bind_eq_bind, Option.bind_some, ne_eq, not_true_eq_false, if_false]
      rw [← hK']
      unfold bsCopy
      rw [f1]; rfl
    · intro i hi
      have hi' : i < K' := by
        rw [List.length_take] at hi; omega
      rw [f3 i, if_pos (by omega), List.getElem?_take_of_lt hi', List.getD_eq_getElem?_getD, List.getElem?_eq_getElem (by omega)]
      simp

variable {D Dg : ℕ} {q r : Buf ℂ} {qf rf : ℕ → ℂ} {T0 T1 eps : ℝ} {kappa : ℤ} {o : NsevOpts} {a : AknsDisc}

/-- The tolerance of Newton's method; negative and undefined values are replaced by `100 * 2^-52`. -/
noncomputable def Spec.tolOf (tol : Dbl) : Dbl :=
  open Classical in if Dbl.zero.le tol then tol else .num ((100 * (2 : ℝ)⁻¹ ^ 52 : ℝ) : EReal)

theorem newtonTol_eq (tol : Dbl) : newtonTol tol = Spec.tolOf tol := by
  unfold newtonTol Spec.tolOf EPSILON
  split_ifs <;> rfl

theorem refine_ok (h : BaseArgs D Dg q r qf rf T0 T1 eps kappa o a) {box : Fin 4 → Dbl} (hbox : Spec.ValidBox box) (g : Garbage)
    {K0 : ℕ} {bs : Buf ℂ} {init : ℕ → ℂ} (hb : bs.Holds 0 K0 init) :
    ∃ (w : ℂ → ℤ) (out : ℕ → ℂ) (fail : Option ℕ) (flag : Bool) (bs' : Buf ℂ), (o.nrm = false → ∀ l, w l = 0) ∧
      nsev_refine_newton D (some q) (some r) T0 T1 K0 bs (nsevBaseDisc o.disc) o.niter o.tol box o.nrm g =
        some (if fail = none then SUCCESS else EC_DIV_BY_ZERO, flag, bs') ∧
      Spec.NewtonAll (Spec.slowA expS (Spec.baseOf a) D T0 T1 eps qf rf) (slowA' (Spec.baseOf a) D T0 T1 eps qf rf) w
        (Spec.tolOf o.tol) box o.niter K0 init out fail ∧ bs'.Holds 0 K0 out ∧ bs'.len = bs.len ∧ ∀ j, K0 ≤ j → bs'.rd j = bs.rd j := by
  obtain ⟨w, w1, w2⟩ := newtonEval_ok h o.nrm g
  unfold nsev_refine_newton
  by_cases hK : K0 = 0
  · refine ⟨w, init, none, false, bs, w1, by rw [if_pos hK]; rfl, ⟨fun i hi => by omega, fun f hf => by cases hf⟩, hb, rfl, fun _ _ => rfl⟩
  rw [if_neg hK]
  by_cases hN : o.niter = 0
  · refine ⟨w, init, none, false, bs, w1, by rw [if_pos hN]; rfl, ⟨fun i hi _ => ?_, fun f hf => by cases hf⟩, hb, rfl, fun _ _ => rfl⟩
    refine ⟨fun _ => init i, 0, .exhausted, rfl,
      ⟨fun j hj => by omega, fun j hj => by omega, fun j hj => by omega, fun h => by omega, ?_⟩, by simp, rfl⟩
    show o.niter ≤ 2 * 0
    omega
  rw [if_neg hN, if_neg (by simp), if_neg (by push Not; exact hbox), newtonTol_eq]
  obtain ⟨out, fail, flag, bs', r1, r2, r3, r4, r5⟩ := refine_loop w2 (tol := Spec.tolOf o.tol) hbox o.niter hb
  exact ⟨w, out, fail, flag, bs', w1, r1, r2, r3, r4, r5⟩

theorem boundstates_newton (h : BaseArgs D Dg q r qf rf T0 T1 eps kappa o a) (hf : Spec.FiltOK o) (hloc : o.loc = .NEWTON)
    (roots : RootFinder) (deg : ℕ) (tm : Option (Buf ℂ)) (g : Garbage) {K0 : ℕ} {bs : Buf ℂ} {init : ℕ → ℂ} (hb : bs.Holds 0 K0 init) :
    ∃ (w : ℂ → ℤ) (cand : ℕ → ℂ) (fail : Option ℕ) (code : ℤ) (K' : ℕ) (bs' : Buf ℂ), (o.nrm = false → ∀ l, w l = 0) ∧
      Spec.NewtonAll (Spec.slowA expS (Spec.baseOf a) D T0 T1 eps qf rf) (slowA' (Spec.baseOf a) D T0 T1 eps qf rf) w
        (Spec.tolOf o.tol) (Spec.bsBoxOf o a D T0 T1 eps qf) o.niter K0 init cand fail ∧
      nsev_compute_boundstates roots D q r deg tm T0 T1 eps K0 bs o g = some (code, K', bs') ∧ bs'.len = bs.len ∧
      (fail = none → code = SUCCESS ∧ ∃ out, Spec.Filtered o (Spec.bsBoxOf o a D T0 T1 eps qf) K0 cand out ∧
        Spec.BsWritten out K0 K' bs bs') ∧
      (fail ≠ none → code = E_SUBROUTINE EC_DIV_BY_ZERO ∧ K' = K0 ∧ bs'.Holds 0 K0 cand) := by
  obtain ⟨x1, x2⟩ := bsBox_ok h hf
  obtain ⟨w, out, fail, flag, bs', w1, r1, r2, r3, r4, r5⟩ := refine_ok h x2 g hb
  have hup : nse_upsampling_factor o.disc ≠ 0 := by rw [h.up_eq]; exact h.up_ne
  have hDg : D / nse_upsampling_factor o.disc = Dg := by
    rw [h.up_eq, h.hDg]; exact Nat.mul_div_cancel _ (Nat.pos_of_ne_zero h.up_ne)
  have hL : bsLocalize roots D q r deg tm T0 T1 eps K0 bs (Spec.bsBoxOf o a D T0 T1 eps qf) o g =
      some ⟨if fail = none then SUCCESS else E_SUBROUTINE EC_DIV_BY_ZERO, K0, bs', none⟩ := by
    unfold bsLocalize
    rw [hloc]
    dsimp only
    rw [r1]
    by_cases hfl : fail = none
    · simp [hfl]
    · simp only [hfl, if_false, Option.bind_eq_bind, Option.bind_some]
      rw [if_neg (by decide)]; rfl
  by_cases hfl : fail = none
  · rw [if_pos hfl] at hL
    obtain ⟨ol, K', b2, f1, f2, f3⟩ := bsFinish_ok (o := o) (box := Spec.bsBoxOf o a D T0 T1 eps qf) (K0 := K0)
      (L := ⟨SUCCESS, K0, bs', none⟩) (cand := out) (fun _ => x2) (fun _ => ⟨le_rfl, r3⟩) (fun b hb => by cases hb)
    refine ⟨w, out, fail, SUCCESS, K', b2, w1, r2, ?_, f3.2.2.trans r4, fun _ => ⟨rfl, ol, f2, f3.1, f3.2.1, f3.2.2.trans r4⟩,
      fun hc => absurd hfl hc⟩
    unfold nsev_compute_boundstates
    rw [if_neg hup, hDg, x1]
    simp only [Option.bind_eq_bind, Option.bind_some, hL, ne_eq, not_true_eq_false, if_false]
    exact f1
  · rw [if_neg hfl] at hL
    refine ⟨w, out, fail, E_SUBROUTINE EC_DIV_BY_ZERO, K0, bs', w1, r2, ?_, r4, fun hc => absurd hc hfl, fun _ => ⟨rfl, rfl, r3⟩⟩
    unfold nsev_compute_boundstates
    rw [if_neg hup, hDg, x1]
    simp only [Option.bind_eq_bind, Option.bind_some, hL, ne_eq]
    rw [if_pos (by decide)]; rfl

end FNFT

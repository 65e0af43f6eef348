import Verif.Props.Mex
import Verif.Props.NsepMix
/-!
# The MATLAB interface of `fnft_nsep`
-/
namespace FNFT
open Spec

theorem guesses_ok {a : MxArray} (h : MxEmptyValid a) (hc : a.isCplxRowOrEmpty = true) : ∃ v g, IsGuesses a a.cols v ∧ mxComplex a.cols a = some g ∧ Exactly g a.cols v := by
  simp only [MxArray.isCplxRowOrEmpty, Bool.or_eq_true, decide_eq_true_eq] at hc
  rcases hc with hc | hc
  · have h0 := h.2 hc
    refine ⟨fun _ => 0, Buf.malloc 0, Or.inr ⟨h0, h0⟩, by rw [h0]; rfl, by rw [h0]; rfl, fun i hi => by omega⟩
  · obtain ⟨v, g, h1, h2, h3⟩ := mxComplex_ok h.1 hc
    exact ⟨v, g, Or.inl h1, h2, h3⟩

theorem guesses_of {a : MxArray} {n : ℕ} {v : ℕ → ℂ} (h : IsGuesses a n v) : a.isCplxRowOrEmpty = true ∧ a.cols = n ∧ ∃ g, mxComplex n a = some g := by
  rcases h with h | ⟨h1, h2⟩
  · obtain ⟨g, e, -⟩ := mxComplex_of h
    exact ⟨by simp [MxArray.isCplxRowOrEmpty, isCplxRow_of h], h.2.2.2.1, g, e⟩
  · exact ⟨by simp [MxArray.isCplxRowOrEmpty, MxArray.numel, h1], by omega, Buf.malloc 0, by rw [h2]; rfl⟩

theorem act_nsep (name : String) (act : OptAct NsepGate) (h : nsepOptTable name = some act) : ActOK MxEmptyValid NsepRule name act := by
  have hV : ∀ b, MxEmptyValid b → MxValid b := fun b h => h.1
  unfold nsepOptTable at h
  split at h
  case h_7 =>
    injection h with h; subst h
    intro b hb
    by_cases h1 : b.isCplxRowOrEmpty = true
    swap
    · left; simpa using h1
    obtain ⟨v, g, g1, g2, g3⟩ := guesses_ok hb h1
    refine Or.inr ⟨by simp [h1], fun s => ⟨{ s with K := b.cols, main := some g, o := { s.o with loc := .NEWTON } }, by simp only [g2, Option.bind_eq_bind, Option.bind_some, Option.pure_def], fun c hc => ?_⟩⟩
    by_cases h2 : c.isCplxRowOrEmpty = true
    swap
    · left; simpa using h2
    obtain ⟨w, g', g1', g2', g3'⟩ := guesses_ok hc h2
    exact Or.inr ⟨by simp [h2], { s with K := b.cols, main := some g, M := c.cols, aux := some g', o := { s.o with loc := .NEWTON, disc := .BO } }, by simp only [g2', Option.bind_eq_bind, Option.bind_some, Option.pure_def], fun a ha => .newton ha g1 g1' g3 g3'⟩
  case h_2 =>
    injection h with h; subst h
    intro b hb
    by_cases h1 : b.isRow 4 = true
    · obtain ⟨v, hv⟩ := isRow_ok hb.1 h1
      exact Or.inr ⟨by simpa using h1, fun s => ⟨_, by simp only [mxBox_of hv, Option.bind_eq_bind, Option.bind_some, Option.pure_def], fun a ha => .filtManual ha hv⟩⟩
    · left; simpa using h1
  case h_4 =>
    injection h with h; subst h
    intro b hb
    by_cases h1 : b.isScalar = true
    · obtain ⟨x, h2, h3⟩ := isScalar_ok hb.1 h1
      exact Or.inr ⟨by simpa using h1, fun s => ⟨_, by simp only [h3, Option.bind_eq_bind, Option.bind_some, Option.pure_def], fun a ha => .phase ha h2⟩⟩
    · left; simpa using h1
  case h_18 => cases h
  all_goals injection h with h; subst h
  · exact fun a s ha => .filtNone ha
  · exact actNonneg (R := NsepRule) (f := fun x (s : NsepGate) => { s with o := { s.o with pps := ⌊x⌋₊ } }) hV fun a b s x => .pps
  · exact fun a s ha => .mixed ha
  · exact fun a s ha => .subsample ha
  · exact fun a s ha => .gridsearch ha
  · exact actNonneg (R := NsepRule) (f := fun x (s : NsepGate) => { s with o := { s.o with max_evals := ⌊x⌋₊ } }) hV fun a b s x => .evals
  · exact actNonneg (R := NsepRule) (f := fun x (s : NsepGate) => { s with o := { s.o with Dsub := ⌊x⌋₊ } }) hV fun a b s x => .dsub
  · exact fun a s ha => .skipNorm ha
  · exact fun a s ha => .quiet ha
  · exact fun a s ha => .modal ha
  · exact fun a s ha => .s2A ha
  · exact fun a s ha => .s4A ha
  · exact fun a s ha => .s4B ha
  · exact fun a s ha => .f4B ha

theorem acc_nsep {g : List MxArray} {s s' : NsepGate} (h : NsepRule g s s') : Accepted nsepOptTable g := by
  cases h with
  | filtManual h hb => exact accVal h rfl (by rw [isRow_of hb]) fun t => by simp [mxBox_of hb]
  | pps h hn h0 => exact accVal h rfl (okNonneg_of hn h0) fun t => by simp [(isScalar_of hn).2]
  | phase h hn => exact accVal h rfl (by rw [(isScalar_of hn).1]) fun t => by simp [(isScalar_of hn).2]
  | newton h hb hc _ _ =>
    obtain ⟨e1, e2, g, e3⟩ := guesses_of hb
    obtain ⟨e1', e2', g', e3'⟩ := guesses_of hc
    exact Or.inr (Or.inr ⟨_, _, _, _, _, _, _, rfl, h.1, by rw [h.2]; rfl, by rw [e1], fun t => by simp [e2, e3], by rw [e1'], fun t => by simp [e2', e3']⟩)
  | evals h hn h0 => exact accVal h rfl (okNonneg_of hn h0) fun t => by simp [(isScalar_of hn).2]
  | dsub h hn h0 => exact accVal h rfl (okNonneg_of hn h0) fun t => by simp [(isScalar_of hn).2]
  | filtNone h => exact accFlag h rfl
  | mixed h => exact accFlag h rfl
  | subsample h => exact accFlag h rfl
  | gridsearch h => exact accFlag h rfl
  | skipNorm h => exact accFlag h rfl
  | quiet h => exact accFlag h rfl
  | modal h => exact accFlag h rfl
  | s2A h => exact accFlag h rfl
  | s4A h => exact accFlag h rfl
  | s4B h => exact accFlag h rfl
  | f4B h => exact accFlag h rfl

/-- With Newton's method there are guesses. -/
def NsepInv (s : NsepGate) : Prop := s.o.loc = .NEWTON → ∃ g g', s.main = some g ∧ g.len = s.K ∧ s.aux = some g' ∧ g'.len = s.M

theorem nsep_inv {l : List MxArray} {s s' : NsepGate} (h : Options NsepRule l s s') (hi : NsepInv s) : NsepInv s' := by
  induction h with
  | nil => exact hi
  | cons hg _ ih =>
    apply ih
    cases hg with
    | newton h hb hc hg hg' => exact fun _ => ⟨_, _, rfl, hg.1, rfl, hg'.1⟩
    | mixed h => intro h; cases h
    | subsample h => intro h; cases h
    | gridsearch h => intro h; cases h
    | _ => exact hi

theorem nsepInputs_of {q T κ : MxArray} {D : ℕ} {v : ℕ → ℂ} {t : ℕ → ℝ} {y : ℝ} {k : ℤ} (hq : IsCplxRow q D v) (hD : ∃ p, 1 ≤ p ∧ D = 2 ^ p) (hT : IsRow T 2 t)
    (ht : t 0 < t 1) (hκ : IsNumber κ y) (hk : IsSign y k) : q.numel = D ∧ nsepGateInputs q T κ = some (some ((t 0, t 1), k)) := by
  have hn : q.numel = D := by rw [MxArray.numel, hq.2.2.1, hq.2.2.2.1, Nat.one_mul]
  have h2 : 2 ≤ D := by
    obtain ⟨p, hp, rfl⟩ := hD
    calc 2 = 2 ^ 1 := rfl
      _ ≤ 2 ^ p := Nat.pow_le_pow_right (by norm_num) hp
  have h3 := (pow_iff_and D h2).mpr hD
  refine ⟨hn, ?_⟩
  obtain ⟨h1, h4⟩ := toInt_sign.mpr hk
  unfold nsepGateInputs
  rw [if_neg (by simp [isCplxRow_of hq, isRow_of hT, (isScalar_of hκ).1])]
  simp only [(isScalar_of hκ).2, mxPair_of hT, hn, h1, Option.bind_eq_bind, Option.bind_some, Option.pure_def]
  rw [if_neg (by omega), if_neg (not_le.mpr ht), if_neg (by omega)]

theorem nsepInputs_total {q T κ : MxArray} (hq : MxValid q) (hT : MxValid T) (hκ : MxValid κ) :
    nsepGateInputs q T κ = some none ∨ ∃ D v t y k, IsCplxRow q D v ∧ (∃ p, 1 ≤ p ∧ D = 2 ^ p) ∧ IsRow T 2 t ∧ t 0 < t 1 ∧ IsNumber κ y ∧ IsSign y k := by
  unfold nsepGateInputs
  by_cases h : q.isCplxRow ∧ T.isRow 2 ∧ κ.isScalar
  swap
  · left; rw [if_pos h]
  rw [if_neg (not_not.mpr h)]
  obtain ⟨v, -, h1, -, -⟩ := mxComplex_ok hq h.1
  obtain ⟨t, h2⟩ := isRow_ok hT h.2.1
  obtain ⟨y, h4, h5⟩ := isScalar_ok hκ h.2.2
  have hn : q.numel = q.cols := by rw [MxArray.numel, h1.2.2.1, Nat.one_mul]
  simp only [h5, mxPair_of h2, hn, Option.bind_eq_bind, Option.bind_some, Option.pure_def]
  by_cases c1 : q.cols < 2 ∨ q.cols &&& (q.cols - 1) ≠ 0
  · left; rw [if_pos c1]
  by_cases c2 : t 0 ≥ t 1
  · left; rw [if_neg c1, if_pos c2]
  by_cases c4 : toInt y ≠ 1 ∧ toInt y ≠ -1
  · left; rw [if_neg c1, if_neg c2, if_pos c4]
  · right
    push Not at c1
    exact ⟨q.cols, v, t, y, toInt y, h1, (pow_iff_and _ c1.1).mp c1.2, h2, not_le.mp c2, h4, toInt_sign.mp ⟨rfl, by omega⟩⟩

theorem nsepBufs_ok {D : ℕ} {v : ℕ → ℂ} {t : ℕ → ℝ} {k : ℤ} {s : NsepGate} {qb : Buf ℂ} (hi : NsepInv s) (hq : Exactly qb D v) :
    (s.o.loc = .NEWTON → s.o.pps = 0 → nsepGateBufs D s = none) ∧
    (s.o.loc = .NEWTON → s.o.pps ≠ 0 → ¬ s.o.pps ∣ s.K → nsepGateBufs D s = some none) ∧
    ((s.o.loc = .NEWTON → s.o.pps ≠ 0 ∧ s.o.pps ∣ s.K) → ∃ K main M aux, nsepGateBufs D s = some (some (K, main, M, aux)) ∧
      NsepBelongs D v t k s ⟨D, qb, (t 0, t 1), s.phase, K, main, M, aux, k, s.o⟩) := by
  unfold nsepGateBufs
  refine ⟨fun h1 h2 => by simp [h1, h2], fun h1 h2 h3 => ?_, fun h => ?_⟩
  · rw [if_neg (by simp [h1]), if_neg h2, if_pos (fun e => h3 (Nat.dvd_of_mod_eq_zero e))]
  · by_cases h1 : s.o.loc = .NEWTON
    · obtain ⟨h2, h3⟩ := h h1
      obtain ⟨g, g', e1, e2, e3, e4⟩ := hi h1
      rw [if_neg (by simp [h1]), if_neg h2, if_neg (by simp [Nat.mod_eq_zero_of_dvd h3])]
      refine ⟨_, _, _, _, rfl, rfl, hq, rfl, rfl, rfl, rfl, ⟨g, e1, ?_⟩, ⟨g', e3, ?_⟩⟩
      · rw [if_pos h1]; exact ⟨e1, e2, (Nat.div_mul_cancel h3).symm⟩
      · rw [if_pos h1]; exact ⟨e3, e4, rfl⟩
    · rw [if_pos h1]
      refine ⟨_, _, _, _, rfl, rfl, hq, rfl, rfl, rfl, rfl, ⟨_, rfl, ?_⟩, ⟨_, rfl, ?_⟩⟩
      · rw [if_neg h1]; exact ⟨rfl, rfl⟩
      · rw [if_neg h1]; exact ⟨rfl, rfl⟩

theorem nsepOut_ok {nlhs : ℕ} {r : NsepRet} (h : NsepPost r) :
    (2 ≤ nlhs → ∃ p, nsepGateOut nlhs r = some p ∧ p.len = nlhs ∧ OutRow (p.rd 0) r.K r.main ∧ OutRow (p.rd 1) r.M r.aux) ∧ (nlhs < 2 → nsepGateOut nlhs r = none) := by
  obtain ⟨⟨b, e1, h1⟩, b', e2, h2⟩ := h
  obtain ⟨m, g1, g2, g3, g4⟩ := mxRow_of h1
  obtain ⟨m', g1', g2', g3', g4'⟩ := mxRow_of h2
  obtain ⟨p0, w0, l0, r0, n0⟩ := Buf.wr_spec (b := (Buf.malloc (max nlhs 1) : Plhs)) (i := 0) m (by simp [Buf.malloc])
  have l0' : p0.len = max nlhs 1 := l0
  constructor
  · intro hn
    obtain ⟨p1, w1, l1, r1, n1⟩ := Buf.wr_spec (b := p0) (i := 1) m' (by omega)
    refine ⟨p1, ?_, by omega, by rw [n1 0 (by omega), r0]; exact ⟨m, b, rfl, e1, g2, g3, g4⟩, by rw [r1]; exact ⟨m', b', rfl, e2, g2', g3', g4'⟩⟩
    unfold nsepGateOut
    simp only [e1, e2, g1, g1', w0, w1, Option.bind_eq_bind, Option.bind_some]
  · intro hn
    have : p0.wr 1 m' = none := by rw [Buf.wr, if_neg (by omega)]
    unfold nsepGateOut
    simp only [e1, e2, g1, g1', w0, this, Option.bind_eq_bind, Option.bind_some]

/-- C84. A correct call `mex_fnft_nsep(q, T, kappa, ...)`. With Newton's method the number of guesses for the main spectrum has to be a multiple of `points_per_spine` (zero points lead to an integer division by zero).
Otherwise the gateway makes one call of `fnft_nsep` with arguments that belong to the inputs; errors are reported, and the points that the routine returns are the outputs. This needs two outputs:
otherwise the gateway writes to an output that MATLAB has not provided. -/
theorem C84_nsep {nlhs : ℕ} {prhs : List MxArray} (hv : ∀ a ∈ prhs, MxEmptyValid a) {D : ℕ} {v : ℕ → ℂ} {t : ℕ → ℝ} {k : ℤ} {s0 : NsepGate} (h : NsepMexCall prhs D v t k s0) :
    ∃ s, NsepMexCall prhs D v t k s ∧
      (s.o.loc = .NEWTON → s.o.pps = 0 → ∀ call, mex_fnft_nsep call nlhs prhs = none) ∧
      (s.o.loc = .NEWTON → s.o.pps ≠ 0 → ¬ s.o.pps ∣ s.K → ∀ call, mex_fnft_nsep call nlhs prhs = some (.error .usage)) ∧
      ((s.o.loc = .NEWTON → s.o.pps ≠ 0 ∧ s.o.pps ∣ s.K) → ∃ c, NsepBelongs D v t k s c ∧
        ∀ call : NsepCall → Option (ℤ × NsepRet),
          (∀ ec r, ec ≠ SUCCESS → call c = some (ec, r) → mex_fnft_nsep call nlhs prhs = some (.error (.failed ec))) ∧
          (∀ r, call c = some (SUCCESS, r) → NsepPost r →
            (2 ≤ nlhs → ∃ p, mex_fnft_nsep call nlhs prhs = some (.ok p) ∧ p.len = nlhs ∧ OutRow (p.rd 0) r.K r.main ∧ OutRow (p.rd 1) r.M r.aux) ∧
            (nlhs < 2 → mex_fnft_nsep call nlhs prhs = none))) := by
  obtain ⟨q, T, κ, rest, y, rfl, h1, h2, h3, h4, h7, h8, h9⟩ := h
  obtain ⟨n1, e1⟩ := nsepInputs_of h1 h2 h3 h4 h7 h8
  obtain ⟨s', e2⟩ := parse_complete (fun _ _ _ => acc_nsep) h9 ⟨D, none, D, none, 0, 1, nsep_default_opts⟩
  have hrest : ∀ a ∈ rest, MxEmptyValid a := fun a ha => hv a (by simp [ha])
  rcases parse_valid act_nsep rest.length rest ⟨D, none, D, none, 0, 1, nsep_default_opts⟩ le_rfl hrest with e3 | ⟨s, e3, e4⟩
  · rw [e2] at e3; cases e3
  obtain ⟨qb, e5, e6⟩ := mxComplex_of h1
  have hi : NsepInv s := nsep_inv e4 (fun h => by cases h)
  obtain ⟨k1, k2, k3⟩ := nsepBufs_ok (t := t) (k := k) hi e6
  refine ⟨s, ⟨q, T, κ, rest, y, rfl, h1, h2, h3, h4, h7, h8, e4⟩, fun g1 g2 call => ?_, fun g1 g2 g3 call => ?_, fun hg => ?_⟩
  · unfold mex_fnft_nsep
    simp only [e1, e3, n1, k1 g1 g2, Option.bind_eq_bind, Option.bind_some, Option.bind_none]
  · unfold mex_fnft_nsep
    simp only [e1, e3, n1, k2 g1 g2 g3, Option.bind_eq_bind, Option.bind_some, Option.pure_def]
  obtain ⟨K, main, M, aux, e7, hc⟩ := k3 hg
  refine ⟨_, hc, fun call => ⟨fun ec r hne hcall => ?_, fun r hcall hp => ?_⟩⟩
  · unfold mex_fnft_nsep
    simp only [e1, e3, n1, e7, e5, hcall, hne, Option.bind_eq_bind, Option.bind_some, ne_eq, not_false_eq_true, if_true, Option.pure_def]
  · obtain ⟨o1, o2⟩ := nsepOut_ok (nlhs := nlhs) hp
    refine ⟨fun hn => ?_, fun hn => ?_⟩
    · obtain ⟨p, g1, g2⟩ := o1 hn
      refine ⟨p, ?_, g2⟩
      unfold mex_fnft_nsep
      simp only [e1, e3, n1, e7, e5, hcall, g1, Option.bind_eq_bind, Option.bind_some, ne_eq, not_true_eq_false, if_false, Option.pure_def]
    · unfold mex_fnft_nsep
      simp only [e1, e3, n1, e7, e5, hcall, o2 hn, Option.bind_eq_bind, Option.bind_some, Option.bind_none, ne_eq, not_true_eq_false, if_false]

/-- C84. Every other call of `mex_fnft_nsep` with valid arrays ends with an error message before `fnft_nsep` is called. -/
theorem C84_nsep_rejects {nlhs : ℕ} {prhs : List MxArray} (hv : ∀ a ∈ prhs, MxEmptyValid a) (h : ¬ ∃ D v t k s, NsepMexCall prhs D v t k s)
    (call : NsepCall → Option (ℤ × NsepRet)) : mex_fnft_nsep call nlhs prhs = some (.error .usage) := by
  match prhs, hv, h with
  | [], _, _ => rfl
  | [_], _, _ => rfl
  | [_, _], _, _ => rfl
  | q :: T :: κ :: rest, hv, h =>
    rcases nsepInputs_total (hv q (by simp)).1 (hv T (by simp)).1 (hv κ (by simp)).1 with e | ⟨D, v, t, y, k, h1, h2, h3, h4, h7, h8⟩
    · unfold mex_fnft_nsep
      simp only [e, Option.bind_eq_bind, Option.bind_some, Option.pure_def]
    · obtain ⟨n1, e1⟩ := nsepInputs_of h1 h2 h3 h4 h7 h8
      rcases parse_valid act_nsep rest.length rest ⟨D, none, D, none, 0, 1, nsep_default_opts⟩ le_rfl (fun a ha => hv a (by simp [ha])) with e3 | ⟨s, e3, e4⟩
      · unfold mex_fnft_nsep
        simp only [e1, e3, n1, Option.bind_eq_bind, Option.bind_some, Option.pure_def]
      · exact absurd ⟨D, v, t, k, s, q, T, κ, rest, y, rfl, h1, h2, h3, h4, h7, h8, e4⟩ h

/-- C84. For an array without elements, but with columns (`zeros(0, n)`) as initial guesses the gateway reads from a NULL pointer. -/
theorem C84_nsep_empty {q T κ tn b : MxArray} {r : List MxArray} {D : ℕ} {v : ℕ → ℂ} {t : ℕ → ℝ} {y : ℝ} {k : ℤ} (hq : IsCplxRow q D v) (hD : ∃ p, 1 ≤ p ∧ D = 2 ^ p) (hT : IsRow T 2 t)
    (ht : t 0 < t 1) (hκ : IsNumber κ y) (hk : IsSign y k) (htn : IsText tn "loc_newton") (hb : b.rows = 0 ∧ 0 < b.cols ∧ b.re.len = 0) (nlhs : ℕ) (call : NsepCall → Option (ℤ × NsepRet)) :
    mex_fnft_nsep call nlhs (q :: T :: κ :: tn :: b :: r) = none := by
  obtain ⟨n1, e1⟩ := nsepInputs_of hq hD hT ht hκ hk
  have e2 : mxComplex b.cols b = none := by
    have hl : ∀ j, b.re.rd j = none := fun j => by rw [Buf.rd, if_neg (by omega)]
    obtain ⟨m, hm⟩ : ∃ m, b.cols = m + 1 := ⟨b.cols - 1, by omega⟩
    rw [hm, mxComplex, fill, forLoop_succ]
    cases forLoop m (fun k b_1 => do let v ← b.cval (0 + k); b_1.wr (0 + k) v) (Buf.malloc (m + 1)) with
    | none => rfl
    | some g => simp [MxArray.cval, hl]
  have e3 : mexParse nsepOptTable (tn :: b :: r) ⟨D, none, D, none, 0, 1, nsep_default_opts⟩ = none := by
    have e4 : nsepOptTable tn.str = nsepOptTable "loc_newton" := by rw [htn.2]
    have e5 : b.isCplxRowOrEmpty = true := by simp [MxArray.isCplxRowOrEmpty, MxArray.numel, hb.1]
    rw [mexParse, if_neg (by simp [htn.1]), e4]
    show (do
      if ¬ (← some b.isCplxRowOrEmpty) then return .error .usage
      let s ← (do return { (⟨D, none, D, none, 0, 1, nsep_default_opts⟩ : NsepGate) with K := b.cols, main := some (← mxComplex b.cols b), o := { nsep_default_opts with loc := .NEWTON } } : Option NsepGate)
      match r with
        | [] => return .error .usage
        | c :: r => do
          if ¬ (← some c.isCplxRowOrEmpty) then return .error .usage
          mexParse nsepOptTable r (← (do return { s with M := c.cols, aux := some (← mxComplex c.cols c), o := { s.o with disc := .BO } } : Option NsepGate)) : Option (Except MexErr NsepGate)) = none
    simp [e5, e2]
  unfold mex_fnft_nsep
  simp only [e1, e3, n1, Option.bind_eq_bind, Option.bind_some, Option.bind_none]

end FNFT

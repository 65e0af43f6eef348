import Verif.Props.Mex
import Verif.Proofs.MexKdvv
/-!
# The MATLAB interface of `fnft_kdvv`
-/
namespace FNFT
open Spec

theorem kdvvInputs_of {q T XI : MxArray} {D : ℕ} {v : ℕ → ℝ} {t x : ℕ → ℝ} (hq : IsRow q D v) (hr : q.cplx = false) (hD : 2 ≤ D) (hT : IsRow T 2 t) (ht : t 0 < t 1) (hX : IsRow XI 2 x)
    (hx : x 0 < x 1) : q.numel = D ∧ kdvvGateInputs q T XI = some (some ((t 0, t 1), (x 0, x 1))) := by
  have hn : q.numel = D := by rw [MxArray.numel, hq.2.1, hq.2.2.1, Nat.one_mul]
  refine ⟨hn, ?_⟩
  unfold kdvvGateInputs
  rw [if_neg (by simp [hr, hq.2.1, isRow_of hT, isRow_of hX])]
  simp only [mxPair_of hT, mxPair_of hX, hn, Option.bind_eq_bind, Option.bind_some, Option.pure_def]
  rw [if_neg (by omega), if_neg (not_le.mpr ht), if_neg (not_le.mpr hx)]

theorem kdvvInputs_total {q T XI : MxArray} (hq : MxValid q) (hd : q.cls = .double ∨ q.cplx = true) (hT : MxValid T) (hX : MxValid XI) :
    kdvvGateInputs q T XI = some none ∨ ∃ D v t x, IsRow q D v ∧ q.cplx = false ∧ 2 ≤ D ∧ IsRow T 2 t ∧ t 0 < t 1 ∧ IsRow XI 2 x ∧ x 0 < x 1 := by
  unfold kdvvGateInputs
  by_cases h : q.cplx ∨ q.rows ≠ 1 ∨ ¬ (T.isRow 2 ∧ XI.isRow 2)
  · left; rw [if_pos h]
  rw [if_neg h]
  push Not at h
  obtain ⟨g1, g2, g3, g4⟩ := h
  have g1' : q.cplx = false := by simpa using g1
  have hd' : q.cls = .double := by rcases hd with h | h; exact h; exact absurd h g1
  obtain ⟨v, h1⟩ := isRow_ok (n := q.cols) hq (decide_eq_true ⟨hd', g2, rfl⟩)
  obtain ⟨t, h2⟩ := isRow_ok hT g3
  obtain ⟨x, h3⟩ := isRow_ok hX g4
  have hn : q.numel = q.cols := by rw [MxArray.numel, g2, Nat.one_mul]
  simp only [mxPair_of h2, mxPair_of h3, hn, Option.bind_eq_bind, Option.bind_some, Option.pure_def]
  by_cases c1 : q.cols < 2
  · left; rw [if_pos c1]
  by_cases c2 : t 0 ≥ t 1
  · left; rw [if_neg c1, if_pos c2]
  by_cases c3 : x 0 ≥ x 1
  · left; rw [if_neg c1, if_neg c2, if_pos c3]
  · right
    exact ⟨q.cols, v, t, x, h1, g1', not_lt.mp c1, h2, not_le.mp c2, h3, not_le.mp c3⟩

/-- C84. The same for `mex_fnft_kdvv(q, T, XI, ...)`; there is space for 1024 bound states if there are no initial guesses. -/
theorem C84_kdvv {nlhs : ℕ} {prhs : List MxArray} (hv : ∀ a ∈ prhs, MxValid a) {D : ℕ} {v t x : ℕ → ℝ} {s0 : VGate KdvvOpts} (h : KdvvMexCall nlhs prhs D v t x s0) :
    ∃ s c, KdvvMexCall nlhs prhs D v t x s ∧ VPre KdvvOpts.cs c ∧ VBelongs D (fun i => (v i : ℂ)) t x 0 s 1024 c ∧
      ∀ call : VCall KdvvOpts → Option (ℤ × NsevSt),
        (∀ ec r, ec ≠ SUCCESS → call c = some (ec, r) → mex_fnft_kdvv call nlhs prhs = some (.error (.failed ec))) ∧
        (∀ r, call c = some (SUCCESS, r) → VPost KdvvOpts.cs c r → ∃ p, mex_fnft_kdvv call nlhs prhs = some (.ok p) ∧ VOut KdvvOpts.cs nlhs s r p) := by
  obtain ⟨q, T, XI, rest, rfl, h1, hr, h2, h3, h4, h5, h6, h9⟩ := h
  obtain ⟨n1, e1⟩ := kdvvInputs_of h1 hr h2 h3 h4 h5 h6
  obtain ⟨s', e2⟩ := parse_complete (fun _ _ _ => acc_kdvv) h9 ⟨D, D, none, false, decide (nlhs < 2), decide (nlhs < 3), kdvv_default_opts⟩
  have hrest : ∀ a ∈ rest, MxValid a := fun a ha => hv a (by simp [ha])
  rcases parse_valid act_kdvv rest.length rest ⟨D, D, none, false, decide (nlhs < 2), decide (nlhs < 3), kdvv_default_opts⟩ le_rfl hrest with e3 | ⟨s, e3, e4⟩
  · rw [e2] at e3; cases e3
  obtain ⟨qb, e5, e6⟩ := realBuf_of h1
  have hi := kdvv_inv e4 (vinv_start (nlhs := nlhs))
  obtain ⟨c1, c2⟩ := vcall_ok (cs := KdvvOpts.cs) (maxK := 1024) (k := 0) hi h2 e6 h4 h6
  refine ⟨s, _, ⟨q, T, XI, rest, rfl, h1, hr, h2, h3, h4, h5, h6, e4⟩, c1, c2, fun call => ⟨fun ec r hne hc => ?_, fun r hc hp => ?_⟩⟩
  · unfold mex_fnft_kdvv
    simp only [e1, e3, n1, e5, hc, hne, Option.bind_eq_bind, Option.bind_some, ne_eq, not_false_eq_true, if_true, Option.pure_def]
  · obtain ⟨p, e7, e8⟩ := vout_ok hi c2 hp
    refine ⟨p, ?_, e8⟩
    unfold mex_fnft_kdvv
    simp only [e1, e3, n1, e5, hc, e7, Option.bind_eq_bind, Option.bind_some, ne_eq, not_true_eq_false, if_false, Option.pure_def]

/-- C84. Every other call of `mex_fnft_kdvv` with valid arrays, where `q` is of class double (or complex), ends with an error message before `fnft_kdvv` is called. -/
theorem C84_kdvv_rejects {nlhs : ℕ} {prhs : List MxArray} (hv : ∀ a ∈ prhs, MxValid a) (hd : ∀ q, prhs.head? = some q → q.cls = .double ∨ q.cplx = true)
    (h : ¬ ∃ D v t x s, KdvvMexCall nlhs prhs D v t x s) (call : VCall KdvvOpts → Option (ℤ × NsevSt)) : mex_fnft_kdvv call nlhs prhs = some (.error .usage) := by
  match prhs, hv, hd, h with
  | [], _, _, _ => rfl
  | [_], _, _, _ => rfl
  | [_, _], _, _, _ => rfl
  | q :: T :: XI :: rest, hv, hd, h =>
    rcases kdvvInputs_total (hv q (by simp)) (hd q rfl) (hv T (by simp)) (hv XI (by simp)) with e | ⟨D, v, t, x, h1, hr, h2, h3, h4, h5, h6⟩
    · unfold mex_fnft_kdvv
      simp only [e, Option.bind_eq_bind, Option.bind_some, Option.pure_def]
    · obtain ⟨n1, e1⟩ := kdvvInputs_of h1 hr h2 h3 h4 h5 h6
      rcases parse_valid act_kdvv rest.length rest ⟨D, D, none, false, decide (nlhs < 2), decide (nlhs < 3), kdvv_default_opts⟩ le_rfl (fun a ha => hv a (by simp [ha])) with e3 | ⟨s, e3, e4⟩
      · unfold mex_fnft_kdvv
        simp only [e1, e3, n1, Option.bind_eq_bind, Option.bind_some, Option.pure_def]
      · exact absurd ⟨D, v, t, x, s, q, T, XI, rest, rfl, h1, hr, h2, h3, h4, h5, h6, e4⟩ h

/-- C84. The gateway tests that `q` is not complex, but not that it is of class double: for single precision samples (`n` of them fill the space of `n/2` doubles) it reads behind the end of the array. -/
theorem C84_kdvv_single (q T XI : MxArray) {n : ℕ} {t x : ℕ → ℝ} (hq : q.cls = .single ∧ q.cplx = false ∧ q.rows = 1 ∧ q.cols = n ∧ q.re.len = n / 2) (hn : 2 ≤ n)
    (hT : IsRow T 2 t) (ht : t 0 < t 1) (hX : IsRow XI 2 x) (hx : x 0 < x 1) (nlhs : ℕ) (call : VCall KdvvOpts → Option (ℤ × NsevSt)) :
    mex_fnft_kdvv call nlhs [q, T, XI] = none := by
  have hnum : q.numel = n := by rw [MxArray.numel, hq.2.2.1, hq.2.2.2.1, Nat.one_mul]
  have e1 : kdvvGateInputs q T XI = some (some ((t 0, t 1), (x 0, x 1))) := by
    unfold kdvvGateInputs
    rw [if_neg (by simp [hq.2.1, hq.2.2.1, isRow_of hT, isRow_of hX])]
    simp only [mxPair_of hT, mxPair_of hX, hnum, Option.bind_eq_bind, Option.bind_some, Option.pure_def]
    rw [if_neg (by omega), if_neg (not_le.mpr ht), if_neg (not_le.mpr hx)]
  have e2 : fill 0 n (fun j => (q.re.rd j).map fun x : ℝ => (x : ℂ)) (Buf.malloc n) = none := by
    have hl : q.re.rd (n - 1) = none := by
      rw [Buf.rd, if_neg (by rw [hq.2.2.2.2]; omega)]
    obtain ⟨m, rfl⟩ : ∃ m, n = m + 1 := ⟨n - 1, by omega⟩
    rw [fill, forLoop_succ]
    simp only [Nat.zero_add, Nat.add_sub_cancel] at hl ⊢
    cases forLoop m (fun k b => do let v ← (q.re.rd k).map fun x : ℝ => (x : ℂ); b.wr k v) (Buf.malloc (m + 1)) with
    | none => rfl
    | some b => simp [hl]
  unfold mex_fnft_kdvv
  simp only [e1, mexParse, hnum, e2, Option.bind_eq_bind, Option.bind_some, Option.bind_none]

end FNFT

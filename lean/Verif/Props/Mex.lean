import Verif.Proofs.MexNsev
/-!
# The MATLAB interface
-/
namespace FNFT
open Spec

/-- The tests of the first four inputs. -/
theorem nsevInputs_of {q T XI κ : MxArray} {D : ℕ} {v : ℕ → ℂ} {t x : ℕ → ℝ} {y : ℝ} {k : ℤ} (hq : IsCplxRow q D v) (hD : 2 ≤ D) (hT : IsRow T 2 t) (ht : t 0 < t 1) (hX : IsRow XI 2 x)
    (hx : x 0 < x 1) (hκ : IsNumber κ y) (hk : IsSign y k) : q.numel = D ∧ nsevGateInputs q T XI κ = some (some ((t 0, t 1), (x 0, x 1), k)) := by
  have hn : q.numel = D := by rw [MxArray.numel, hq.2.2.1, hq.2.2.2.1, Nat.one_mul]
  refine ⟨hn, ?_⟩
  obtain ⟨h1, h2⟩ := toInt_sign.mpr hk
  unfold nsevGateInputs
  rw [if_neg (by simp [isCplxRow_of hq, isRow_of hT, isRow_of hX, (isScalar_of hκ).1])]
  simp only [(isScalar_of hκ).2, mxPair_of hT, mxPair_of hX, hn, h1, Option.bind_eq_bind, Option.bind_some, Option.pure_def]
  rw [if_neg (by omega), if_neg (not_le.mpr ht), if_neg (not_le.mpr hx), if_neg (by omega)]

theorem nsevInputs_total {q T XI κ : MxArray} (hq : MxValid q) (hT : MxValid T) (hX : MxValid XI) (hκ : MxValid κ) :
    nsevGateInputs q T XI κ = some none ∨ ∃ D v t x y k, IsCplxRow q D v ∧ 2 ≤ D ∧ IsRow T 2 t ∧ t 0 < t 1 ∧ IsRow XI 2 x ∧ x 0 < x 1 ∧ IsNumber κ y ∧ IsSign y k := by
  unfold nsevGateInputs
  by_cases h : q.isCplxRow ∧ T.isRow 2 ∧ XI.isRow 2 ∧ κ.isScalar
  swap
  · left; rw [if_pos h]
  rw [if_neg (not_not.mpr h)]
  obtain ⟨v, -, h1, -, -⟩ := mxComplex_ok hq h.1
  obtain ⟨t, h2⟩ := isRow_ok hT h.2.1
  obtain ⟨x, h3⟩ := isRow_ok hX h.2.2.1
  obtain ⟨y, h4, h5⟩ := isScalar_ok hκ h.2.2.2
  have hn : q.numel = q.cols := by rw [MxArray.numel, h1.2.2.1, Nat.one_mul]
  simp only [h5, mxPair_of h2, mxPair_of h3, hn, Option.bind_eq_bind, Option.bind_some, Option.pure_def]
  by_cases c1 : q.cols < 2
  · left; rw [if_pos c1]
  by_cases c2 : t 0 ≥ t 1
  · left; rw [if_neg c1, if_pos c2]
  by_cases c3 : x 0 ≥ x 1
  · left; rw [if_neg c1, if_neg c2, if_pos c3]
  by_cases c4 : toInt y ≠ 1 ∧ toInt y ≠ -1
  · left; rw [if_neg c1, if_neg c2, if_neg c3, if_pos c4]
  · right
    exact ⟨q.cols, v, t, x, y, toInt y, h1, not_lt.mp c1, h2, not_le.mp c2, h3, not_le.mp c3, h4, toInt_sign.mp ⟨rfl, by omega⟩⟩

/-- C84. A correct call `mex_fnft_nsev(q, T, XI, kappa, ...)` makes exactly one call of `fnft_nsev`. Its arguments belong to the inputs (samples, intervals, options), and they satisfy what the documentation of
`fnft_nsev` requires. If the routine returns an error, MATLAB reports an error. If it returns the results that its documentation promises, these are the outputs, and nothing that is not requested is computed or returned. No
memory outside of the arrays is accessed. -/
theorem C84_nsev {nlhs : ℕ} {prhs : List MxArray} (hv : ∀ a ∈ prhs, MxValid a) {D : ℕ} {v : ℕ → ℂ} {t x : ℕ → ℝ} {k : ℤ} {s0 : VGate NsevOpts} (h : NsevMexCall nlhs prhs D v t x k s0) :
    ∃ s c, NsevMexCall nlhs prhs D v t x k s ∧ VPre NsevOpts.cs c ∧
      VBelongs D v t x k s (if nsev_max_K D (some s.o) = 0 then D else nsev_max_K D (some s.o)) c ∧
      ∀ call : VCall NsevOpts → Option (ℤ × NsevSt),
        (∀ ec r, ec ≠ SUCCESS → call c = some (ec, r) → mex_fnft_nsev call nlhs prhs = some (.error (.failed ec))) ∧
        (∀ r, call c = some (SUCCESS, r) → VPost NsevOpts.cs c r → ∃ p, mex_fnft_nsev call nlhs prhs = some (.ok p) ∧ VOut NsevOpts.cs nlhs s r p) := by
  obtain ⟨q, T, XI, κ, rest, y, rfl, h1, h2, h3, h4, h5, h6, h7, h8, h9⟩ := h
  obtain ⟨n1, e1⟩ := nsevInputs_of h1 h2 h3 h4 h5 h6 h7 h8
  obtain ⟨s', e2⟩ := parse_complete (fun _ _ _ => acc_nsev) h9 ⟨D, D, none, false, decide (nlhs < 2), decide (nlhs < 3), nsev_default_opts⟩
  have hrest : ∀ a ∈ rest, MxValid a := fun a ha => hv a (by simp [ha])
  rcases parse_valid act_nsev rest.length rest ⟨D, D, none, false, decide (nlhs < 2), decide (nlhs < 3), nsev_default_opts⟩ le_rfl hrest with e3 | ⟨s, e3, e4⟩
  · rw [e2] at e3; cases e3
  obtain ⟨qb, e5, e6⟩ := mxComplex_of h1
  have hi := nsev_inv e4 (vinv_start (nlhs := nlhs))
  obtain ⟨c1, c2⟩ := vcall_ok (cs := NsevOpts.cs) (maxK := if nsev_max_K D (some s.o) = 0 then D else nsev_max_K D (some s.o)) (k := k) hi h2 e6 h4 h6
  refine ⟨s, _, ⟨q, T, XI, κ, rest, y, rfl, h1, h2, h3, h4, h5, h6, h7, h8, e4⟩, c1, c2, fun call => ⟨fun ec r hne hc => ?_, fun r hc hp => ?_⟩⟩
  · unfold mex_fnft_nsev
    simp only [e1, e3, n1, e5, hc, hne, Option.bind_eq_bind, Option.bind_some, ne_eq, not_false_eq_true, if_true, Option.pure_def]
  · obtain ⟨p, e7, e8⟩ := vout_ok hi c2 hp
    refine ⟨p, ?_, e8⟩
    unfold mex_fnft_nsev
    simp only [e1, e3, n1, e5, hc, e7, Option.bind_eq_bind, Option.bind_some, ne_eq, not_true_eq_false, if_false, Option.pure_def]

/-- C84. Every other call of `mex_fnft_nsev` with valid arrays ends with an error message before `fnft_nsev` is called, and without an access to memory outside of the arrays. -/
theorem C84_nsev_rejects {nlhs : ℕ} {prhs : List MxArray} (hv : ∀ a ∈ prhs, MxValid a) (h : ¬ ∃ D v t x k s, NsevMexCall nlhs prhs D v t x k s)
    (call : VCall NsevOpts → Option (ℤ × NsevSt)) : mex_fnft_nsev call nlhs prhs = some (.error .usage) := by
  match prhs, hv, h with
  | [], _, _ => rfl
  | [_], _, _ => rfl
  | [_, _], _, _ => rfl
  | [_, _, _], _, _ => rfl
  | q :: T :: XI :: κ :: rest, hv, h =>
    rcases nsevInputs_total (hv q (by simp)) (hv T (by simp)) (hv XI (by simp)) (hv κ (by simp)) with e | ⟨D, v, t, x, y, k, h1, h2, h3, h4, h5, h6, h7, h8⟩
    · unfold mex_fnft_nsev
      simp only [e, Option.bind_eq_bind, Option.bind_some, Option.pure_def]
    · obtain ⟨n1, e1⟩ := nsevInputs_of h1 h2 h3 h4 h5 h6 h7 h8
      rcases parse_valid act_nsev rest.length rest ⟨D, D, none, false, decide (nlhs < 2), decide (nlhs < 3), nsev_default_opts⟩ le_rfl (fun a ha => hv a (by simp [ha])) with e3 | ⟨s, e3, e4⟩
      · unfold mex_fnft_nsev
        simp only [e1, e3, n1, Option.bind_eq_bind, Option.bind_some, Option.pure_def]
      · exact absurd ⟨D, v, t, x, k, s, q, T, XI, κ, rest, y, rfl, h1, h2, h3, h4, h5, h6, h7, h8, e4⟩ h

/-- C84. The gateway tests that `q` is complex, but not that it is of class double: for single precision samples (`n` of them; their real and imaginary parts fill the space of `n/2` doubles each)
it reads behind the end of the array. -/
theorem C84_nsev_single (q T XI κ : MxArray) {n : ℕ} {t x : ℕ → ℝ} {y : ℝ} {k : ℤ} (hq : q.cls = .single ∧ q.cplx = true ∧ q.rows = 1 ∧ q.cols = n ∧ q.re.len = n / 2) (hn : 2 ≤ n)
    (hT : IsRow T 2 t) (ht : t 0 < t 1) (hX : IsRow XI 2 x) (hx : x 0 < x 1) (hκ : IsNumber κ y) (hk : IsSign y k) (nlhs : ℕ) (call : VCall NsevOpts → Option (ℤ × NsevSt)) :
    mex_fnft_nsev call nlhs [q, T, XI, κ] = none := by
  have hnum : q.numel = n := by rw [MxArray.numel, hq.2.2.1, hq.2.2.2.1, Nat.one_mul]
  obtain ⟨h1, h2⟩ := toInt_sign.mpr hk
  have e1 : nsevGateInputs q T XI κ = some (some ((t 0, t 1), (x 0, x 1), k)) := by
    unfold nsevGateInputs
    have : q.isCplxRow = true := decide_eq_true ⟨hq.2.1, hq.2.2.1⟩
    rw [if_neg (by simp [this, isRow_of hT, isRow_of hX, (isScalar_of hκ).1])]
    simp only [(isScalar_of hκ).2, mxPair_of hT, mxPair_of hX, hnum, h1, Option.bind_eq_bind, Option.bind_some, Option.pure_def]
    rw [if_neg (by omega), if_neg (not_le.mpr ht), if_neg (not_le.mpr hx), if_neg (by omega)]
  have e2 : mxComplex n q = none := by
    have hl : q.re.rd (n - 1) = none := by
      rw [Buf.rd, if_neg (by rw [hq.2.2.2.2]; omega)]
    obtain ⟨m, rfl⟩ : ∃ m, n = m + 1 := ⟨n - 1, by omega⟩
    rw [mxComplex, fill, forLoop_succ]
    simp only [Nat.zero_add, Nat.add_sub_cancel] at hl ⊢
    cases forLoop m (fun k b => do let v ← q.cval k; b.wr k v) (Buf.malloc (m + 1)) with
    | none => rfl
    | some b => simp [MxArray.cval, hl]
  unfold mex_fnft_nsev
  simp only [e1, mexParse, hnum, e2, Option.bind_eq_bind, Option.bind_some, Option.bind_none]

end FNFT

import Verif.Props.Mex
import Verif.Props.Nsev
import Mathlib.Tactic.IntervalCases
/-!
# The MATLAB interface together with the C routine
-/
namespace FNFT
open Spec

theorem nsevTable_name {name : String} {d : NseDisc} (h : (name, d) ∈ nsevNames) :
    nsevOptTable name = some (.flag fun s => { s with o := { s.o with disc := d } }) := by
  have hd := nsevName_iff.mpr h
  simp only [nsevNames, List.mem_cons, Prod.mk.injEq, List.not_mem_nil, or_false] at h
  rcases h with ⟨rfl, rfl⟩ | ⟨rfl, rfl⟩ | ⟨rfl, rfl⟩ | ⟨rfl, rfl⟩ | ⟨rfl, rfl⟩ | ⟨rfl, rfl⟩ | ⟨rfl, rfl⟩ | ⟨rfl, rfl⟩ | ⟨rfl, rfl⟩ | ⟨rfl, rfl⟩ | ⟨rfl, rfl⟩ | ⟨rfl, rfl⟩ | ⟨rfl, rfl⟩ | ⟨rfl, rfl⟩ | ⟨rfl, rfl⟩ | ⟨rfl, rfl⟩ | ⟨rfl, rfl⟩ | ⟨rfl, rfl⟩ | ⟨rfl, rfl⟩ | ⟨rfl, rfl⟩ | ⟨rfl, rfl⟩ | ⟨rfl, rfl⟩ | ⟨rfl, rfl⟩ | ⟨rfl, rfl⟩ | ⟨rfl, rfl⟩ | ⟨rfl, rfl⟩ | ⟨rfl, rfl⟩ | ⟨rfl, rfl⟩ <;> rfl

/-- The model of `fnft_nsev` as the routine that the gateway calls. -/
noncomputable def nsevRoutine (roots : RootFinder) (g : ℕ → Garbage) (c : VCall NsevOpts) : Option (ℤ × NsevSt) :=
  (fnft_nsev roots c.D (some c.q) (some c.T) c.M (some c.XI) c.kappa c.opts g c.st).map fun r => (r.1, r.2.1)

/-- C84. The call `contspec = mex_fnft_nsev(q, T, XI, kappa, 'M', m, 'discr_...')`, where `fnft_nsev` is the model of the C routine. Let `a(ξ)`, `b(ξ)` be the scattering coefficients that
the chosen discretization finds for the signal `v` (see C41). If all `a(ξ_i)` are different from zero, the output is the `1 × M` matrix of the reflection coefficients `b(ξ_i)/a(ξ_i)` on the grid, `M = ⌊m⌋`.
Otherwise the gateway reports the error of the routine. -/
theorem C84_nsev_end_to_end {q T XI κ tM bM tn : MxArray} {D : ℕ} {v : ℕ → ℂ} {t x : ℕ → ℝ} {y m : ℝ} {k : ℤ} {name : String} {d : NseDisc} {a : AknsDisc}
    (hq : IsCplxRow q D v) (hT : IsRow T 2 t) (hX : IsRow XI 2 x) (hx : x 0 < x 1) (hκ : IsNumber κ y) (hk : IsSign y k)
    (htM : IsText tM "M") (hbM : IsNumber bM m) (hm : 2 ≤ m) (htn : IsText tn name) (hname : (name, d) ∈ nsevNames)
    (hargs : ∀ qb : Buf ℂ, qb.Holds 0 D v → NsevArgs D qb v (t 0) (t 1) k { nsev_default_opts with disc := d } a) (hsz : ContSize D ⌊m⌋₊ a) {nlhs : ℕ} (hn : nlhs < 2) :
    let eps := (t 1 - t 0) / (D - 1)
    ∃ qf rf U, Processed a k D eps v D 1 qf rf ∧ NseSteps a eps qf rf U ∧
      let av := gridA a (D * akns_upsampling_factor a) (t 0) (t 1) eps (x 0) (x 1) ⌊m⌋₊ U
      let bv := gridB a (D * akns_upsampling_factor a) (t 0) (t 1) eps (x 0) (x 1) ⌊m⌋₊ U
      ∀ (roots : RootFinder) (g : ℕ → Garbage),
      ((∀ i, i < ⌊m⌋₊ → av i ≠ 0) → ∃ p M, mex_fnft_nsev (nsevRoutine roots g) nlhs [q, T, XI, κ, tM, bM, tn] = some (.ok p) ∧ p.rd 0 = some M ∧
        M.rows = 1 ∧ M.cols = ⌊m⌋₊ ∧ ∀ i, i < ⌊m⌋₊ → M.val.rd i = some (bv i / av i)) ∧
      ((∃ i, i < ⌊m⌋₊ ∧ av i = 0) → mex_fnft_nsev (nsevRoutine roots g) nlhs [q, T, XI, κ, tM, bM, tn] = some (.error (.failed (E_SUBROUTINE EC_DIV_BY_ZERO)))) := by
  intro eps
  obtain ⟨qb, e5, e6⟩ := mxComplex_of hq
  have hH : qb.Holds 0 D v := fun i hi => by simpa using e6.2 i hi
  have hA := hargs qb hH
  obtain ⟨n1, e1⟩ := nsevInputs_of hq hA.hD hT hA.hT hX hx hκ hk
  have hM2 : 2 ≤ ⌊m⌋₊ := Nat.le_floor (by exact_mod_cast hm)
  have hCR : ContReq D ⌊m⌋₊ (x 0) (x 1) { nsev_default_opts with disc := d } a (Buf.malloc ⌊m⌋₊) :=
    ⟨hM2, hx, hsz, fun n h => (by cases h), by simp [nsev_default_opts, Spec.csLen, Buf.malloc]⟩
  obtain ⟨qf, rf, U, h1, h2, h3⟩ := C41_continuous_spectrum hA hCR (by simp [nsev_default_opts]) (some D) none none (by simp) (Or.inl rfl)
  refine ⟨qf, rf, U, h1, h2, ?_⟩
  intro av bv roots g
  obtain ⟨h4, h5⟩ := h3 roots g
  have e2 : mexParse nsevOptTable [tM, bM, tn] ⟨D, D, none, false, decide (nlhs < 2), decide (nlhs < 3), nsev_default_opts⟩ =
      some (.ok ⟨⌊m⌋₊, D, none, false, decide (nlhs < 2), decide (nlhs < 3), { nsev_default_opts with disc := d }⟩) := by
    have e7 : nsevOptTable "M" = some (.val okNonneg fun a s => do return { s with M := ⌊← a.scalar⌋₊ }) := rfl
    simp [mexParse, htM.1, htM.2, e7, okNonneg_of hbM (by linarith), (isScalar_of hbM).2, htn.1, htn.2, nsevTable_name hname]
  have d1 : decide (nlhs < 2) = true := decide_eq_true hn
  have d2 : decide (nlhs < 3) = true := decide_eq_true (by omega)
  rw [d1, d2] at e2
  have e3 : ∀ mk, vGateBufs NsevOpts.cs mk ⟨⌊m⌋₊, D, none, false, true, true, { nsev_default_opts with disc := d }⟩ = ⟨some (Buf.malloc ⌊m⌋₊), some D, none, none⟩ := fun mk => by
    simp [vGateBufs, csLen, nsev_default_opts]
  constructor
  · intro hav
    obtain ⟨c', h6, h7⟩ := h4 (Or.inr hav)
    have h8 : ∀ i, i < ⌊m⌋₊ → c'.rd i = some (bv i / av i) := fun i hi => by
      have := h7.vals i (by simp [Spec.csLen, nsev_default_opts]; omega)
      simpa [Spec.csOut, nsev_default_opts] using this
    obtain ⟨M, m1, m2, m3, m4⟩ := mxRow_of (n := ⌊m⌋₊) (b := c') (fun i hi => by simp [h8 i hi])
    obtain ⟨p, w1, w2, w3, w4⟩ := Buf.wr_spec (b := (Buf.malloc (max nlhs 1) : Plhs)) (i := 0) M (by simp [Buf.malloc])
    refine ⟨p, M, ?_, w3, m2, m3, fun i hi => by rw [(m4 i hi).2, h8 i hi]⟩
    have e4 : vGateOut NsevOpts.cs nlhs ⟨⌊m⌋₊, D, none, false, true, true, { nsev_default_opts with disc := d }⟩ ⟨some c', some 0, none, none⟩ = some p := by
      have e8 : csLen nsev_default_opts.cs ⌊m⌋₊ = ⌊m⌋₊ := by simp [csLen, nsev_default_opts]
      simp [vGateOut, e8, m1, w1, show ¬ 2 ≤ nlhs by omega, show ¬ 3 ≤ nlhs by omega]
    unfold mex_fnft_nsev
    simp only [e1, d1, d2, e2, n1, e5, e3, nsevRoutine, h6, Option.bind_eq_bind, Option.bind_some, Option.pure_def, Option.map_some, ne_eq, not_true_eq_false, if_false, e4]
  · intro hav
    obtain ⟨c', h6, -, -⟩ := h5 (by simp [nsev_default_opts]) hav
    unfold mex_fnft_nsev
    simp only [e1, d1, d2, e2, n1, e5, e3, nsevRoutine, h6, Option.bind_eq_bind, Option.bind_some, Option.pure_def, Option.map_some]
    rw [if_pos (by decide)]

/-! ## Concrete calls -/

/-- Arrays for the examples. -/
def exText (s : String) : MxArray := ⟨.char, false, 1, s.length, Buf.malloc 0, Buf.malloc 0, s⟩
noncomputable def exNum (x : ℝ) : MxArray := ⟨.double, false, 1, 1, Buf.ofList [x], Buf.malloc 0, ""⟩
noncomputable def exPair (x y : ℝ) : MxArray := ⟨.double, false, 1, 2, Buf.ofList [x, y], Buf.malloc 0, ""⟩
/-- `[1, 2, 2i, 4]` -/
noncomputable def exSig : MxArray := ⟨.double, true, 1, 4, Buf.ofList [1, 2, 0, 4], Buf.ofList [0, 0, 2, 0], ""⟩
/-- `[i, 1+2i]` -/
noncomputable def exGuess : MxArray := ⟨.double, true, 1, 2, Buf.ofList [0, 1], Buf.ofList [1, 2], ""⟩

theorem exText_text (s : String) : IsText (exText s) s := ⟨rfl, rfl⟩
theorem exNum_num (x : ℝ) : IsNumber (exNum x) x := ⟨rfl, rfl, rfl⟩
theorem exPair_row (x y : ℝ) : IsRow (exPair x y) 2 (fun i => if i = 0 then x else y) :=
  ⟨rfl, rfl, rfl, fun i hi => by interval_cases i <;> rfl⟩
theorem exSig_row : IsCplxRow exSig 4 (fun i => [1, 2, 2 * Complex.I, 4].getD i 0) :=
  ⟨rfl, rfl, rfl, rfl, fun i hi => by interval_cases i <;> simp [exSig, Buf.ofList, Buf.rd]⟩
theorem exGuess_row : IsCplxRow exGuess 2 (fun i => [Complex.I, 1 + 2 * Complex.I].getD i 0) :=
  ⟨rfl, rfl, rfl, rfl, fun i hi => by interval_cases i <;> simp [exGuess, Buf.ofList, Buf.rd]⟩

theorem Spec.IsCplxRow.valid {a : MxArray} {n : ℕ} {v : ℕ → ℂ} (h : IsCplxRow a n v) : MxValid a :=
  Or.inl ⟨h.1, fun i hi => by rw [h.2.2.1, h.2.2.2.1] at hi; simp [(h.2.2.2.2 i (by omega)).1], fun _ i hi => by
    rw [h.2.2.1, h.2.2.2.1] at hi; simp [(h.2.2.2.2 i (by omega)).2]⟩
theorem exText_valid (s : String) : MxValid (exText s) := Or.inr ⟨by simp [exText], rfl⟩
theorem exNum_valid (x : ℝ) : MxValid (exNum x) :=
  Or.inl ⟨rfl, fun i hi => by simp [exNum] at hi; subst hi; simp [exNum, Buf.ofList, Buf.rd], fun h => by simp [exNum] at h⟩
theorem exPair_valid (x y : ℝ) : MxValid (exPair x y) :=
  Or.inl ⟨rfl, fun i hi => by simp [exPair] at hi; interval_cases i <;> simp [exPair, Buf.ofList, Buf.rd], fun h => by simp [exPair] at h⟩

/-- A call with three outputs, initial guesses and several options that satisfies the hypotheses of `C84_nsev`:
`mex_fnft_nsev([1 2 2i 4], [-1 1], [-2 2], 1, 'M', 8.5, 'bsloc_newton', [i, 1+2i], 'discr_CF4_2', 'cstype_ab')`. -/
example : (∀ a ∈ [exSig, exPair (-1) 1, exPair (-2) 2, exNum 1, exText "M", exNum 8.5, exText "bsloc_newton", exGuess, exText "discr_CF4_2", exText "cstype_ab"], MxValid a) ∧
    ∃ s t x, NsevMexCall 3 [exSig, exPair (-1) 1, exPair (-2) 2, exNum 1, exText "M", exNum 8.5, exText "bsloc_newton", exGuess, exText "discr_CF4_2", exText "cstype_ab"] 4
      (fun i => [1, 2, 2 * Complex.I, 4].getD i 0) t x 1 s ∧ s.M = 8 ∧ s.K = 2 ∧ s.skipBs = false ∧ s.skipNc = false ∧ s.o.disc = .CF4_2 ∧ s.o.cs = .AB ∧ s.o.loc = .NEWTON := by
  constructor
  · intro a ha
    simp only [List.mem_cons, List.not_mem_nil, or_false] at ha
    rcases ha with rfl | rfl | rfl | rfl | rfl | rfl | rfl | rfl | rfl | rfl
    · exact exSig_row.valid
    · exact exPair_valid _ _
    · exact exPair_valid _ _
    · exact exNum_valid _
    · exact exText_valid _
    · exact exNum_valid _
    · exact exText_valid _
    · exact exGuess_row.valid
    · exact exText_valid _
    · exact exText_valid _
  · obtain ⟨g, -, hg⟩ := mxComplex_of exGuess_row
    refine ⟨_, _, _, ⟨_, _, _, _, _, 1, rfl, exSig_row, by norm_num, exPair_row _ _, by norm_num, exPair_row _ _, by norm_num, exNum_num 1, ⟨Or.inl rfl, by norm_num, by norm_num⟩,
      Options.cons (NsevRule.M (exText_text "M") (exNum_num 8.5) (by norm_num))
        (Options.cons (NsevRule.newton (exText_text "bsloc_newton") exGuess_row (by norm_num) hg)
          (Options.cons (NsevRule.disc (exText_text "discr_CF4_2") (d := .CF4_2) (by simp [nsevNames]))
            (Options.cons (NsevRule.ab (exText_text "cstype_ab")) (Options.nil _))))⟩, ?_, rfl, ?_, ?_, rfl, rfl, rfl⟩
    · exact (Nat.floor_eq_iff (by norm_num)).mpr ⟨by norm_num, by norm_num⟩
    · show decide (3 < 2) = false; rfl
    · show decide (3 < 3) = false; rfl

/-- A call that satisfies the hypotheses of `C84_nsev_end_to_end`. -/
example (hk : |(1 : ℤ)| = 1) : (∀ qb : Buf ℂ, qb.Holds 0 4 (fun i => [1, 2, 2 * Complex.I, 4].getD i 0) →
    NsevArgs 4 qb (fun i => [1, 2, 2 * Complex.I, 4].getD i 0) (-1) 1 1 { nsev_default_opts with disc := .D2SPLIT4A } .D2SPLIT4A) ∧ ContSize 4 ⌊(8.5 : ℝ)⌋₊ .D2SPLIT4A ∧
    ("discr_2split4A", NseDisc.D2SPLIT4A) ∈ nsevNames := by
  refine ⟨fun qb h => { hd := rfl, hD := by norm_num, hCF := fun h => (by norm_num), hsize := by decide, hq := h, hT := by norm_num, hk := hk, hal := fun h => by cases h }, ?_, by simp [nsevNames]⟩
  have : ⌊(8.5 : ℝ)⌋₊ = 8 := (Nat.floor_eq_iff (by norm_num)).mpr ⟨by norm_num, by norm_num⟩
  rw [this]; unfold ContSize; decide

end FNFT

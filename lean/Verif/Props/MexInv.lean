import Verif.Props.Mex
/-!
# The MATLAB interface of `fnft_nsev_inverse`
-/
namespace FNFT
open Spec

theorem rowOrEmpty_ok {a : MxArray} (h : MxValid a) (hc : a.isCplxRowOrEmpty = true) : ∃ v, IsRowOrEmpty a a.numel v := by
  simp only [MxArray.isCplxRowOrEmpty, Bool.or_eq_true, decide_eq_true_eq] at hc
  rcases hc with hc | hc
  · exact ⟨fun _ => 0, Or.inr ⟨hc, hc⟩⟩
  · obtain ⟨v, -, h1, -, -⟩ := mxComplex_ok h hc
    have : a.numel = a.cols := by rw [MxArray.numel, h1.2.2.1, Nat.one_mul]
    exact ⟨v, Or.inl (this ▸ h1)⟩

theorem rowOrEmpty_of {a : MxArray} {n : ℕ} {v : ℕ → ℂ} (h : IsRowOrEmpty a n v) : a.isCplxRowOrEmpty = true ∧ a.numel = n ∧
    ∃ o, (if n > 0 then (mxComplex n a).map some else some none) = some o ∧ if n = 0 then o = none else ∃ b, o = some b ∧ Exactly b n v := by
  rcases h with h | ⟨h1, h2⟩
  · obtain ⟨g, e1, e2⟩ := mxComplex_of h
    refine ⟨by simp [MxArray.isCplxRowOrEmpty, isCplxRow_of h], by rw [MxArray.numel, h.2.2.1, h.2.2.2.1, Nat.one_mul], ?_⟩
    by_cases hn : n = 0
    · exact ⟨none, by rw [if_neg (by omega)], by rw [if_pos hn]⟩
    · exact ⟨some g, by rw [if_pos (by omega), e1]; rfl, by rw [if_neg hn]; exact ⟨g, rfl, e2⟩⟩
  · exact ⟨by simp [MxArray.isCplxRowOrEmpty, MxArray.numel, h1], by rw [MxArray.numel, h1, h2], none, by rw [if_neg (by omega)], by rw [if_pos h2]⟩

theorem act_inv {D M : ℕ} (name : String) (act : OptAct InvGate) (h : invOptTable D M name = some act) : ActOK MxValid (InvRule D M) name act := by
  unfold invOptTable at h
  split at h
  case h_11 => cases h
  case h_5 =>
    injection h with h; subst h
    intro b hb
    by_cases h1 : (b.isCplxRow && decide (b.cols = D) && decide (M = 0)) = true
    swap
    · left; simpa using h1
    have h2 := h1
    simp only [Bool.and_eq_true, decide_eq_true_eq] at h2
    obtain ⟨v, -, h3, -, -⟩ := mxComplex_ok hb h2.1.1
    refine Or.inr ⟨congrArg some h1, fun s => ⟨_, rfl, fun a ha => .seed ha (h2.1.2 ▸ h3) h2.2⟩⟩
  case h_9 =>
    injection h with h; subst h
    intro b hb
    rcases okOne_ok hb with h1 | ⟨h1, x, h2, h3, h4⟩
    · exact Or.inl h1
    · exact Or.inr ⟨h1, fun s => ⟨{ s with o := { s.o with over := ⌊x⌋₊ } }, by simp [h3], fun a ha => .over ha h2 h4⟩⟩
  all_goals injection h with h; subst h
  · exact fun a s ha => .rho ha
  · exact fun a s ha => .btau ha
  · exact fun a s ha => .bxi ha
  · exact fun a s ha => .residues ha
  · exact fun a s ha => .refl ha
  · exact fun a s ha => .ab ha
  · exact fun a s ha => .modal ha
  · exact fun a s ha => .quiet ha

theorem acc_inv {D M : ℕ} {g : List MxArray} {s s' : InvGate} (h : InvRule D M g s s') : Accepted (invOptTable D M) g := by
  cases h with
  | rho h => exact accFlag h rfl
  | btau h => exact accFlag h rfl
  | bxi h => exact accFlag h rfl
  | residues h => exact accFlag h rfl
  | seed h hb hM => exact accVal h rfl (by simp [isCplxRow_of hb, hb.2.2.2.1, hM]) fun t => ⟨_, rfl⟩
  | refl h => exact accFlag h rfl
  | ab h => exact accFlag h rfl
  | modal h => exact accFlag h rfl
  | over h hn h0 => exact accVal h rfl (okOne_of hn h0) fun t => by simp [(isScalar_of hn).2]
  | quiet h => exact accFlag h rfl

/-- A seed potential is a row of `D` samples. -/
theorem inv_seed {D M : ℕ} {l : List MxArray} {s s' : InvGate} (h : Options (InvRule D M) l s s') (hi : ∀ b, s.q0 = some b → ∃ w, IsCplxRow b D w) :
    ∀ b, s'.q0 = some b → ∃ w, IsCplxRow b D w := by
  induction h with
  | nil => exact hi
  | cons hg _ ih =>
    apply ih
    cases hg with
    | seed h hb hM => intro b e; cases e; exact ⟨_, hb⟩
    | _ => exact hi

theorem invInputs_of {c XI b n dd T κ : MxArray} {M K D : ℕ} {cs bs nc : ℕ → ℂ} {x t : ℕ → ℝ} {d y : ℝ} {k : ℤ} (hc : IsRowOrEmpty c M cs) (hX : IsRow XI 2 x) (hx : x 0 < x 1)
    (hb : IsRowOrEmpty b K bs) (hn : IsRowOrEmpty n K nc) (hd : IsNumber dd d) (hD : D = ⌊d⌋₊) (hD2 : 2 ≤ D) (hT : IsRow T 2 t) (ht : t 0 < t 1) (hκ : IsNumber κ y) (hk : IsSign y k) :
    invGateInputs c XI b n dd T κ = some (some (D, (t 0, t 1), (x 0, x 1), k)) := by
  obtain ⟨h1, h4⟩ := toInt_sign.mpr hk
  unfold invGateInputs
  rw [if_neg (by simp [(rowOrEmpty_of hc).1, (rowOrEmpty_of hb).1, (rowOrEmpty_of hn).1, isRow_of hT, isRow_of hX, (isScalar_of hκ).1, (isScalar_of hd).1])]
  simp only [(isScalar_of hκ).2, (isScalar_of hd).2, mxPair_of hT, mxPair_of hX, (rowOrEmpty_of hb).2.1, (rowOrEmpty_of hn).2.1, h1, Option.bind_eq_bind, Option.bind_some, Option.pure_def]
  rw [if_neg (by simp), if_neg (not_le.mpr ht), if_neg (not_le.mpr hx), if_neg (by omega), if_neg (by omega), hD]

theorem invInputs_total {c XI b n dd T κ : MxArray} (hc : MxValid c) (hX : MxValid XI) (hb : MxValid b) (hn : MxValid n) (hd : MxValid dd) (hT : MxValid T) (hκ : MxValid κ) :
    invGateInputs c XI b n dd T κ = some none ∨ ∃ M cs x K bs nc D t k d y, IsRowOrEmpty c M cs ∧ IsRow XI 2 x ∧ x 0 < x 1 ∧ IsRowOrEmpty b K bs ∧ IsRowOrEmpty n K nc ∧
      IsNumber dd d ∧ D = ⌊d⌋₊ ∧ 2 ≤ D ∧ IsRow T 2 t ∧ t 0 < t 1 ∧ IsNumber κ y ∧ IsSign y k := by
  unfold invGateInputs
  by_cases h : c.isCplxRowOrEmpty ∧ XI.isRow 2 ∧ b.isCplxRowOrEmpty ∧ n.isCplxRowOrEmpty ∧ dd.isScalar ∧ T.isRow 2 ∧ κ.isScalar
  swap
  · left; rw [if_pos h]
  rw [if_neg (not_not.mpr h)]
  obtain ⟨cs, h1⟩ := rowOrEmpty_ok hc h.1
  obtain ⟨x, h2⟩ := isRow_ok hX h.2.1
  obtain ⟨bs, h3⟩ := rowOrEmpty_ok hb h.2.2.1
  obtain ⟨nc, h4⟩ := rowOrEmpty_ok hn h.2.2.2.1
  obtain ⟨d, h5, h5'⟩ := isScalar_ok hd h.2.2.2.2.1
  obtain ⟨t, h6⟩ := isRow_ok hT h.2.2.2.2.2.1
  obtain ⟨y, h7, h7'⟩ := isScalar_ok hκ h.2.2.2.2.2.2
  simp only [h5', h7', mxPair_of h6, mxPair_of h2, Option.bind_eq_bind, Option.bind_some, Option.pure_def]
  by_cases c1 : b.numel ≠ n.numel
  · left; rw [if_pos c1]
  by_cases c2 : t 0 ≥ t 1
  · left; rw [if_neg c1, if_pos c2]
  by_cases c3 : x 0 ≥ x 1
  · left; rw [if_neg c1, if_neg c2, if_pos c3]
  by_cases c4 : ⌊d⌋₊ < 2
  · left; rw [if_neg c1, if_neg c2, if_neg c3, if_pos c4]
  by_cases c5 : toInt y ≠ 1 ∧ toInt y ≠ -1
  · left; rw [if_neg c1, if_neg c2, if_neg c3, if_neg c4, if_pos c5]
  · right
    have e : n.numel = b.numel := by omega
    exact ⟨_, cs, x, b.numel, bs, nc, _, t, toInt y, d, y, h1, h2, not_le.mp c3, h3, e ▸ h4, h5, rfl, not_lt.mp c4, h6, not_le.mp c2, h7, toInt_sign.mp ⟨rfl, by omega⟩⟩

/-- C84. A correct call `q = mex_fnft_nsev_inverse(contspec, XI, bound_states, normconsts, D, T, kappa, ...)` makes exactly one call of `fnft_nsev_inverse` with arguments that belong to the inputs.
Errors are reported; otherwise the output is the row of the `D` samples. -/
theorem C84_inverse {nlhs : ℕ} (hnl : 1 ≤ nlhs) {prhs : List MxArray} (hv : ∀ a ∈ prhs, MxValid a) {M K D : ℕ} {cs bs nc : ℕ → ℂ} {x t : ℕ → ℝ} {k : ℤ} {s0 : InvGate}
    (h : InvMexCall prhs M cs x K bs nc D t k s0) :
    ∃ s c, InvMexCall prhs M cs x K bs nc D t k s ∧ InvBelongs M cs x K bs nc D t k s c ∧
      ∀ call : InvCall → Option (ℤ × Option (Buf ℂ)),
        (∀ ec r, ec ≠ SUCCESS → call c = some (ec, r) → mex_fnft_nsev_inverse call nlhs prhs = some (.error (.failed ec))) ∧
        (∀ b, call c = some (SUCCESS, some b) → (∀ i, i < D → b.rd i ≠ none) →
          ∃ p, mex_fnft_nsev_inverse call nlhs prhs = some (.ok p) ∧ p.len = nlhs ∧ OutRow (p.rd 0) D (some b)) := by
  obtain ⟨c, XI, b, n, dd, T, κ, rest, d, y, rfl, h1, h2, h2', h3, h4, h5, h5', h5'', h6, h6', h7, h8, h9⟩ := h
  have e1 := invInputs_of h1 h2 h2' h3 h4 h5 h5' h5'' h6 h6' h7 h8
  obtain ⟨s', e2⟩ := parse_complete (fun _ _ _ => acc_inv) h9 ⟨none, inv_default_opts⟩
  have hrest : ∀ a ∈ rest, MxValid a := fun a ha => hv a (by simp [ha])
  rcases parse_valid act_inv rest.length rest ⟨none, inv_default_opts⟩ le_rfl hrest with e3 | ⟨s, e3, e4⟩
  · rw [e2] at e3; cases e3
  obtain ⟨-, n1, o1, f1, g1⟩ := rowOrEmpty_of h1
  obtain ⟨-, n2, o2, f2, g2⟩ := rowOrEmpty_of h3
  obtain ⟨-, -, o3, f3, g3⟩ := rowOrEmpty_of h4
  have hq : ∃ qb, (match s.q0 with | some a => mxComplex D a | none => some (Buf.malloc D)) = some qb ∧ qb.len = D ∧ ∀ b w, s.q0 = some b → IsCplxRow b D w → Exactly qb D w := by
    cases e : s.q0 with
    | none => exact ⟨Buf.malloc D, rfl, rfl, fun b w h => by cases h⟩
    | some a =>
      obtain ⟨w, hw⟩ := inv_seed e4 (fun b e => by cases e) a e
      obtain ⟨g, e5, e6⟩ := mxComplex_of hw
      refine ⟨g, e5, e6.1, fun b w' hb hw' => ?_⟩
      cases hb
      obtain ⟨g', e5', e6'⟩ := mxComplex_of hw'
      rw [e5] at e5'; cases e5'
      exact e6'
  obtain ⟨qb, f4, g4⟩ := hq
  refine ⟨s, ⟨M, o1, (x 0, x 1), K, o2, o3, D, qb, (t 0, t 1), k, s.o⟩, ⟨c, XI, b, n, dd, T, κ, rest, d, y, rfl, h1, h2, h2', h3, h4, h5, h5', h5'', h6, h6', h7, h8, e4⟩,
    ⟨rfl, g1, rfl, rfl, g2, g3, rfl, g4, rfl, rfl, rfl⟩, fun call => ?_⟩
  have run : mex_fnft_nsev_inverse call nlhs (c :: XI :: b :: n :: dd :: T :: κ :: rest) = (do
      let R ← call ⟨M, o1, (x 0, x 1), K, o2, o3, D, qb, (t 0, t 1), k, s.o⟩
      if R.1 ≠ SUCCESS then return .error (.failed R.1)
      let p : Plhs := Buf.malloc (max nlhs 1)
      let p ← p.wr 0 (← mxRow D R.2)
      return .ok p) := by
    unfold mex_fnft_nsev_inverse
    rw [if_neg (by omega)]
    simp only [e1, n1, n2, e3, Option.bind_eq_bind, Option.bind_some]
    by_cases hM : M > 0
    · rw [if_pos hM] at f1
      by_cases hK : K > 0
      · rw [if_pos hK] at f2 f3
        cases e : s.q0 <;> rw [e] at f4 <;> simp only [hM, hK, if_true, f1, f2, f3, Option.bind_some] <;> dsimp only at f4 ⊢ <;> first | (cases f4; rfl) | (rw [f4]; rfl)
      · rw [if_neg hK] at f2 f3
        cases f2; cases f3
        cases e : s.q0 <;> rw [e] at f4 <;> simp only [hM, hK, if_true, if_false, f1, Option.bind_some] <;> dsimp only at f4 ⊢ <;> first | (cases f4; rfl) | (rw [f4]; rfl)
    · rw [if_neg hM] at f1
      cases f1
      by_cases hK : K > 0
      · rw [if_pos hK] at f2 f3
        cases e : s.q0 <;> rw [e] at f4 <;> simp only [hM, hK, if_true, if_false, f2, f3, Option.bind_some] <;> dsimp only at f4 ⊢ <;> first | (cases f4; rfl) | (rw [f4]; rfl)
      · rw [if_neg hK] at f2 f3
        cases f2; cases f3
        cases e : s.q0 <;> rw [e] at f4 <;> simp only [hM, hK, if_false, Option.bind_some] <;> dsimp only at f4 ⊢ <;> first | (cases f4; rfl) | (rw [f4]; rfl)
  refine ⟨fun ec r hne hcall => ?_, fun b' hcall hb' => ?_⟩
  · rw [run, hcall]; simp [hne]
  · obtain ⟨m, m1, m2, m3, m4⟩ := mxRow_of hb'
    obtain ⟨p, w1, w2, w3, w4⟩ := Buf.wr_spec (b := (Buf.malloc (max nlhs 1) : Plhs)) (i := 0) m (by simp [Buf.malloc])
    refine ⟨p, by rw [run, hcall]; simp [m1, w1], by rw [w2]; simp [Buf.malloc]; omega, m, b', w3, rfl, m2, m3, m4⟩

/-- C84. Every other call of `mex_fnft_nsev_inverse` with valid arrays and an output ends with an error message before `fnft_nsev_inverse` is called; without an output nothing happens. -/
theorem C84_inverse_rejects {nlhs : ℕ} {prhs : List MxArray} (hv : ∀ a ∈ prhs, MxValid a) (call : InvCall → Option (ℤ × Option (Buf ℂ))) :
    (nlhs = 0 → mex_fnft_nsev_inverse call nlhs prhs = some (.ok (Buf.malloc 1))) ∧
    (1 ≤ nlhs → (¬ ∃ M cs x K bs nc D t k s, InvMexCall prhs M cs x K bs nc D t k s) → mex_fnft_nsev_inverse call nlhs prhs = some (.error .usage)) := by
  refine ⟨fun h => by unfold mex_fnft_nsev_inverse; rw [if_pos (by omega)], fun hnl h => ?_⟩
  unfold mex_fnft_nsev_inverse
  rw [if_neg (by omega)]
  match prhs, hv, h with
  | [], _, _ => rfl
  | [_], _, _ => rfl
  | [_, _], _, _ => rfl
  | [_, _, _], _, _ => rfl
  | [_, _, _, _], _, _ => rfl
  | [_, _, _, _, _], _, _ => rfl
  | [_, _, _, _, _, _], _, _ => rfl
  | c :: XI :: b :: n :: dd :: T :: κ :: rest, hv, h =>
    rcases invInputs_total (hv c (by simp)) (hv XI (by simp)) (hv b (by simp)) (hv n (by simp)) (hv dd (by simp)) (hv T (by simp)) (hv κ (by simp)) with
      e | ⟨M, cs, x, K, bs, nc, D, t, k, d, y, h1, h2, h2', h3, h4, h5, h5', h5'', h6, h6', h7, h8⟩
    · simp only [e, Option.bind_eq_bind, Option.bind_some, Option.pure_def]
    · have e1 := invInputs_of h1 h2 h2' h3 h4 h5 h5' h5'' h6 h6' h7 h8
      have n1 := (rowOrEmpty_of h1).2.1
      rcases parse_valid (act_inv (D := D) (M := M)) rest.length rest ⟨none, inv_default_opts⟩ le_rfl (fun a ha => hv a (by simp [ha])) with e3 | ⟨s, e3, e4⟩
      · simp only [e1, n1, e3, Option.bind_eq_bind, Option.bind_some, Option.pure_def]
      · exact absurd ⟨M, cs, x, K, bs, nc, D, t, k, s, c, XI, b, n, dd, T, κ, rest, d, y, rfl, h1, h2, h2', h3, h4, h5, h5', h5'', h6, h6', h7, h8, e4⟩ h

end FNFT

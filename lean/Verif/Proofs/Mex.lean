import Verif.Spec.Mex
/-! # Proofs about the MATLAB gateways: inputs and outputs -/
namespace FNFT
open Spec

theorem chars_valid {a : MxArray} (h : MxValid a) (hc : a.cplx = true) : a.cls = .double := by
  rcases h with h | h
  · exact h.1
  · rw [h.2] at hc; cases hc

/-- Reading a valid complex row vector. -/
theorem mxComplex_ok {a : MxArray} (h : MxValid a) (hc : a.isCplxRow = true) :
    ∃ v g, IsCplxRow a a.cols v ∧ mxComplex a.cols a = some g ∧ Exactly g a.cols v := by
  simp only [MxArray.isCplxRow, decide_eq_true_eq] at hc
  have hd := chars_valid h hc.1
  rcases h with h | h
  · have h1 := h.2.1
    have h2 := h.2.2 hc.1
    rw [hc.2, Nat.one_mul] at h1 h2
    let v : ℕ → ℂ := fun i => ⟨(a.re.rd i).getD 0, (a.im.rd i).getD 0⟩
    have hv : ∀ i, i < a.cols → a.re.rd i = some (v i).re ∧ a.im.rd i = some (v i).im := by
      intro i hi
      obtain ⟨x, hx⟩ := Option.ne_none_iff_exists'.mp (h1 i hi)
      obtain ⟨y, hy⟩ := Option.ne_none_iff_exists'.mp (h2 i hi)
      simp [v, hx, hy]
    obtain ⟨g, e1, e2, e3⟩ := fill_spec (off := 0) (cnt := a.cols) (f := a.cval) (b := Buf.malloc a.cols) v (fun i _ hi => by
      rw [Nat.zero_add] at hi
      simp only [MxArray.cval, (hv i hi).1, (hv i hi).2, Option.bind_eq_bind, Option.bind_some, Option.pure_def]
      rw [mul_comm, Complex.re_add_im]) (Or.inl (by simp [Buf.malloc]))
    refine ⟨v, g, ⟨hd, hc.1, hc.2, rfl, hv⟩, e1, e2, fun i hi => ?_⟩
    rw [e3 i, if_pos (by omega)]
  · exact absurd hd h.1

theorem mxComplex_of {a : MxArray} {n : ℕ} {v : ℕ → ℂ} (h : IsCplxRow a n v) : ∃ g, mxComplex n a = some g ∧ Exactly g n v := by
  obtain ⟨g, e1, e2, e3⟩ := fill_spec (off := 0) (cnt := n) (f := a.cval) (b := Buf.malloc n) v (fun i _ hi => by
    rw [Nat.zero_add] at hi
    simp only [MxArray.cval, (h.2.2.2.2 i hi).1, (h.2.2.2.2 i hi).2, Option.bind_eq_bind, Option.bind_some, Option.pure_def]
    rw [mul_comm, Complex.re_add_im]) (Or.inl (by simp [Buf.malloc]))
  exact ⟨g, e1, e2, fun i hi => by rw [e3 i, if_pos (by omega)]⟩

theorem isScalar_ok {a : MxArray} (h : MxValid a) (hs : a.isScalar = true) : ∃ x, IsNumber a x ∧ a.scalar = some x := by
  replace hs : a.cls = .double ∧ a.rows * a.cols = 1 := of_decide_eq_true hs
  rcases h with h | h
  · obtain ⟨x, hx⟩ := Option.ne_none_iff_exists'.mp (h.2.1 0 (by rw [hs.2]; exact Nat.one_pos))
    exact ⟨x, ⟨hs.1, hs.2, hx⟩, hx⟩
  · exact absurd hs.1 h.1

theorem isScalar_of {a : MxArray} {x : ℝ} (h : IsNumber a x) : a.isScalar = true ∧ a.scalar = some x := by
  refine ⟨?_, h.2.2⟩
  exact decide_eq_true ⟨h.1, h.2.1⟩

theorem isRow_ok {a : MxArray} {n : ℕ} (h : MxValid a) (hs : a.isRow n = true) : ∃ v, IsRow a n v := by
  simp only [MxArray.isRow, decide_eq_true_eq] at hs
  rcases h with h | h
  · refine ⟨fun i => (a.re.rd i).getD 0, hs.1, hs.2.1, hs.2.2, fun i hi => ?_⟩
    obtain ⟨x, hx⟩ := Option.ne_none_iff_exists'.mp (h.2.1 i (by rw [hs.2.1, hs.2.2]; omega))
    simp [hx]
  · exact absurd hs.1 h.1

theorem isRow_of {a : MxArray} {n : ℕ} {v : ℕ → ℝ} (h : IsRow a n v) : a.isRow n = true := by
  simp only [MxArray.isRow, decide_eq_true_eq]
  exact ⟨h.1, h.2.1, h.2.2.1⟩

theorem mxPair_of {a : MxArray} {v : ℕ → ℝ} (h : IsRow a 2 v) : mxPair a = some (v 0, v 1) := by
  simp [mxPair, h.2.2.2 0 (by norm_num), h.2.2.2 1 (by norm_num)]

theorem mxBox_of {a : MxArray} {v : ℕ → ℝ} (h : IsRow a 4 v) :
    mxBox a = some ![.num (v 0 : EReal), .num (v 1 : EReal), .num (v 2 : EReal), .num (v 3 : EReal)] := by
  simp [mxBox, h.2.2.2 0 (by norm_num), h.2.2.2 1 (by norm_num), h.2.2.2 2 (by norm_num), h.2.2.2 3 (by norm_num)]

theorem isCplxRow_of {a : MxArray} {n : ℕ} {v : ℕ → ℂ} (h : IsCplxRow a n v) : a.isCplxRow = true := by
  simp only [MxArray.isCplxRow, decide_eq_true_eq]
  exact ⟨h.2.1, h.2.2.1⟩

/-! ### Tests of single numbers -/

theorem okNonneg_ok {a : MxArray} (h : MxValid a) : okNonneg a = some false ∨ (okNonneg a = some true ∧ ∃ x, IsNumber a x ∧ a.scalar = some x ∧ 0 ≤ x) := by
  unfold okNonneg
  by_cases hs : a.isScalar = true
  · obtain ⟨x, h1, h2⟩ := isScalar_ok h hs
    rw [if_pos hs, h2]
    by_cases h0 : x < 0
    · left; simp [h0]
    · right; exact ⟨by simpa using h0, x, h1, rfl, not_lt.mp h0⟩
  · left; rw [if_neg hs]

theorem okPos_ok {a : MxArray} (h : MxValid a) : okPos a = some false ∨ (okPos a = some true ∧ ∃ x, IsNumber a x ∧ a.scalar = some x ∧ 0 < x) := by
  unfold okPos
  by_cases hs : a.isScalar = true
  · obtain ⟨x, h1, h2⟩ := isScalar_ok h hs
    rw [if_pos hs, h2]
    by_cases h0 : x ≤ 0
    · left; simp [h0]
    · right; exact ⟨by simpa using h0, x, h1, rfl, not_le.mp h0⟩
  · left; rw [if_neg hs]

theorem okOne_ok {a : MxArray} (h : MxValid a) : okOne a = some false ∨ (okOne a = some true ∧ ∃ x, IsNumber a x ∧ a.scalar = some x ∧ 1 ≤ x) := by
  unfold okOne
  by_cases hs : a.isScalar = true
  · obtain ⟨x, h1, h2⟩ := isScalar_ok h hs
    rw [if_pos hs, h2]
    by_cases h0 : x < 1
    · left; simp [h0]
    · right; exact ⟨by simpa using h0, x, h1, rfl, not_lt.mp h0⟩
  · left; rw [if_neg hs]

theorem okNonneg_of {a : MxArray} {x : ℝ} (h : IsNumber a x) (h0 : 0 ≤ x) : okNonneg a = some true := by
  unfold okNonneg
  rw [if_pos (isScalar_of h).1, (isScalar_of h).2]
  simpa using h0

theorem okPos_of {a : MxArray} {x : ℝ} (h : IsNumber a x) (h0 : 0 < x) : okPos a = some true := by
  unfold okPos
  rw [if_pos (isScalar_of h).1, (isScalar_of h).2]
  simpa using h0

theorem okOne_of {a : MxArray} {x : ℝ} (h : IsNumber a x) (h0 : 1 ≤ x) : okOne a = some true := by
  unfold okOne
  rw [if_pos (isScalar_of h).1, (isScalar_of h).2]
  simpa using h0

theorem okGuesses_ok {a : MxArray} (h : MxValid a) :
    okGuesses a = some false ∨ (okGuesses a = some true ∧ 1 ≤ a.cols ∧ ∃ v g, IsCplxRow a a.cols v ∧ mxComplex a.cols a = some g ∧ Exactly g a.cols v) := by
  unfold okGuesses
  by_cases h1 : a.isCplxRow = true
  · by_cases h2 : 1 ≤ a.cols
    · right; exact ⟨by simp [h1, h2], h2, mxComplex_ok h h1⟩
    · left; simp [h2]
  · left; simp [h1]

theorem okGuesses_of {a : MxArray} {n : ℕ} {v : ℕ → ℂ} (h : IsCplxRow a n v) (hn : 1 ≤ n) : okGuesses a = some true := by
  have := h.2.2.2.1
  simp [okGuesses, isCplxRow_of h, this, hn]

/-! ### Signs -/

theorem toInt_sign {y : ℝ} {k : ℤ} : (toInt y = k ∧ (k = 1 ∨ k = -1)) ↔ IsSign y k := by
  unfold toInt IsSign
  constructor
  · rintro ⟨h, hk⟩
    refine ⟨hk, ?_⟩
    split_ifs at h with h0
    · have := Int.floor_nonneg.mpr h0
      rcases hk with rfl | rfl
      · rw [Int.floor_eq_iff] at h
        push_cast at h ⊢
        constructor <;> linarith [h.1, h.2]
      · omega
    · have : ⌈y⌉ ≤ 0 := Int.ceil_le.mpr (by push_cast; linarith)
      rcases hk with rfl | rfl
      · omega
      · rw [Int.ceil_eq_iff] at h
        push_cast at h ⊢
        constructor <;> linarith [h.1, h.2]
  · rintro ⟨hk, h1, h2⟩
    refine ⟨?_, hk⟩
    rcases hk with rfl | rfl
    · push_cast at h1 h2
      rw [if_pos (by linarith), Int.floor_eq_iff]
      push_cast
      constructor <;> linarith
    · push_cast at h1 h2
      rw [if_neg (by linarith), Int.ceil_eq_iff]
      push_cast
      constructor <;> linarith

/-! ### The loop over the optional inputs -/

variable {σ : Type} {tbl : String → Option (OptAct σ)} {R : List MxArray → σ → σ → Prop}

/-- The action does what the rule says, for valid inputs (`V`); it never fails on them. -/
def ActOK (V : MxArray → Prop) (R : List MxArray → σ → σ → Prop) (name : String) : OptAct σ → Prop
  | .flag f => ∀ a s, IsText a name → R [a] s (f s)
  | .val ok f => ∀ b, V b → ok b = some false ∨ (ok b = some true ∧ ∀ s, ∃ s', f b s = some s' ∧ ∀ a, IsText a name → R [a, b] s s')
  | .val2 ok f ok' f' => ∀ b, V b → ok b = some false ∨ (ok b = some true ∧ ∀ s, ∃ s', f b s = some s' ∧
      ∀ c, V c → ok' c = some false ∨ (ok' c = some true ∧ ∃ s'', f' c s' = some s'' ∧ ∀ a, IsText a name → R [a, b, c] s s''))

/-- The rule is accepted by the table. -/
def Accepted (tbl : String → Option (OptAct σ)) (g : List MxArray) : Prop :=
  (∃ a f, g = [a] ∧ a.cls = .char ∧ tbl a.str = some (.flag f)) ∨
  (∃ a b ok f, g = [a, b] ∧ a.cls = .char ∧ tbl a.str = some (.val ok f) ∧ ok b = some true ∧ ∀ t, ∃ t', f b t = some t') ∨
  (∃ a b c ok f ok' f', g = [a, b, c] ∧ a.cls = .char ∧ tbl a.str = some (.val2 ok f ok' f') ∧ ok b = some true ∧ (∀ t, ∃ t', f b t = some t') ∧
    ok' c = some true ∧ ∀ t, ∃ t', f' c t = some t')

theorem parse_valid {V : MxArray → Prop} (hR : ∀ name act, tbl name = some act → ActOK V R name act) :
    ∀ (n : ℕ) (l : List MxArray) (s : σ), l.length ≤ n → (∀ a ∈ l, V a) →
      mexParse tbl l s = some (.error .usage) ∨ ∃ s', mexParse tbl l s = some (.ok s') ∧ Options R l s s' := by
  intro n
  induction n with
  | zero =>
    intro l s hl _
    cases l with
    | nil => right; exact ⟨s, rfl, .nil s⟩
    | cons => simp at hl
  | succ n ih =>
    intro l s hl hv
    cases l with
    | nil => right; exact ⟨s, rfl, .nil s⟩
    | cons a r =>
      have hr : r.length ≤ n := by simpa using hl
      have hvr : ∀ a ∈ r, V a := fun b hb => hv b (List.mem_cons_of_mem _ hb)
      rw [mexParse]
      by_cases hc : a.cls = .char
      swap
      · left; rw [if_pos hc]
      rw [if_neg (by simpa using hc)]
      cases ht : tbl a.str with
      | none => left; rfl
      | some act =>
        have hact := hR _ _ ht
        cases act with
        | flag f =>
          dsimp only
          rcases ih r (f s) hr hvr with h | ⟨s', h1, h2⟩
          · left; exact h
          · right; exact ⟨s', h1, .cons (hact a s ⟨hc, rfl⟩) h2⟩
        | val ok f =>
          cases r with
          | nil => left; rfl
          | cons b r =>
            dsimp only
            have hr' : r.length ≤ n := by simp at hr; omega
            have hvr' : ∀ a ∈ r, V a := fun b hb => hvr b (List.mem_cons_of_mem _ hb)
            rcases hact b (hvr b List.mem_cons_self) with h | ⟨h, hs⟩
            · left; simp [h]
            · obtain ⟨t, h3, h4⟩ := hs s
              rcases ih r t hr' hvr' with h' | ⟨s', h1, h2⟩
              · left; simp [h, h3, h']
              · right; exact ⟨s', by simp [h, h3, h1], .cons (h4 a ⟨hc, rfl⟩) h2⟩
        | val2 ok f ok' f' =>
          cases r with
          | nil => left; rfl
          | cons b r =>
            dsimp only
            have hvr' : ∀ a ∈ r, V a := fun b hb => hvr b (List.mem_cons_of_mem _ hb)
            rcases hact b (hvr b List.mem_cons_self) with h | ⟨h, hs⟩
            · left; simp [h]
            · obtain ⟨t, h3, h4⟩ := hs s
              cases r with
              | nil => left; simp [h, h3]
              | cons c r =>
                have hr'' : r.length ≤ n := by simp at hr; omega
                rcases h4 c (hvr' c List.mem_cons_self) with h5 | ⟨h5, u, h6, h7⟩
                · left; simp [h, h3, h5]
                · rcases ih r u hr'' (fun b hb => hvr' b (List.mem_cons_of_mem _ hb)) with h' | ⟨s', h1, h2⟩
                  · left; simp [h, h3, h5, h6, h']
                  · right; exact ⟨s', by simp [h, h3, h5, h6, h1], .cons (h7 a ⟨hc, rfl⟩) h2⟩

theorem parse_complete (hA : ∀ g s s', R g s s' → Accepted tbl g) {l : List MxArray} {s s' : σ} (h : Options R l s s') :
    ∀ t, ∃ t', mexParse tbl l t = some (.ok t') := by
  induction h with
  | nil s => exact fun t => ⟨t, rfl⟩
  | cons hg _ ih =>
    intro t
    rcases hA _ _ _ hg with ⟨a, f, rfl, hc, ht⟩ | ⟨a, b, ok, f, rfl, hc, ht, hok, hf⟩ | ⟨a, b, c, ok, f, ok', f', rfl, hc, ht, hok, hf, hok', hf'⟩
    · obtain ⟨t', h'⟩ := ih (f t)
      exact ⟨t', by simp [mexParse, hc, ht, h']⟩
    · obtain ⟨u, hu⟩ := hf t
      obtain ⟨t', h'⟩ := ih u
      exact ⟨t', by simp [mexParse, hc, ht, hok, hu, h']⟩
    · obtain ⟨u, hu⟩ := hf t
      obtain ⟨w, hw⟩ := hf' u
      obtain ⟨t', h'⟩ := ih w
      exact ⟨t', by simp [mexParse, hc, ht, hok, hu, hok', hw, h']⟩

/-! ### Outputs -/

theorem mxRow_of {n : ℕ} {b : Buf ℂ} (h : ∀ i, i < n → b.rd i ≠ none) :
    ∃ m, mxRow n (some b) = some m ∧ m.rows = 1 ∧ m.cols = n ∧ ∀ i, i < n → b.rd i ≠ none ∧ m.val.rd i = b.rd i := by
  obtain ⟨v, e1, e2, e3⟩ := fill_spec (off := 0) (cnt := n) (f := b.rd) (b := Buf.calloc n) (fun i => (b.rd i).getD 0) (fun i _ hi => by
    obtain ⟨x, hx⟩ := Option.ne_none_iff_exists'.mp (h i (by omega))
    simp [hx]) (Or.inl (by simp [Buf.calloc]))
  refine ⟨⟨1, n, v⟩, by simp [mxRow, e1], rfl, rfl, fun i hi => ⟨h i hi, ?_⟩⟩
  obtain ⟨x, hx⟩ := Option.ne_none_iff_exists'.mp (h i hi)
  rw [e3 i, if_pos (by omega), hx]; rfl

end FNFT

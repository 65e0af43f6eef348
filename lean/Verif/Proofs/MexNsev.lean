import Verif.Proofs.Mex
/-! # The gateway for `fnft_nsev` -/
namespace FNFT
open Spec

theorem nsevName_iff {name : String} {d : NseDisc} : nsevDiscName name = some d ↔ (name, d) ∈ nsevNames := by
  constructor
  · intro h
    unfold nsevDiscName at h
    split at h <;> first | (cases h; done) | (injection h with h; subst h; simp [nsevNames])
  · intro h
    simp only [nsevNames, List.mem_cons, Prod.mk.injEq, List.not_mem_nil, or_false] at h
    rcases h with ⟨rfl, rfl⟩ | ⟨rfl, rfl⟩ | ⟨rfl, rfl⟩ | ⟨rfl, rfl⟩ | ⟨rfl, rfl⟩ | ⟨rfl, rfl⟩ | ⟨rfl, rfl⟩ | ⟨rfl, rfl⟩ | ⟨rfl, rfl⟩ | ⟨rfl, rfl⟩ | ⟨rfl, rfl⟩ | ⟨rfl, rfl⟩ | ⟨rfl, rfl⟩ | ⟨rfl, rfl⟩ |
      ⟨rfl, rfl⟩ | ⟨rfl, rfl⟩ | ⟨rfl, rfl⟩ | ⟨rfl, rfl⟩ | ⟨rfl, rfl⟩ | ⟨rfl, rfl⟩ | ⟨rfl, rfl⟩ | ⟨rfl, rfl⟩ | ⟨rfl, rfl⟩ | ⟨rfl, rfl⟩ | ⟨rfl, rfl⟩ | ⟨rfl, rfl⟩ | ⟨rfl, rfl⟩ | ⟨rfl, rfl⟩ <;> rfl

/-- Proof of `ActOK` for a number behind the string. -/
theorem actNonneg {σ : Type} {R : List MxArray → σ → σ → Prop} {name : String} {f : ℝ → σ → σ} {V : MxArray → Prop} (hV : ∀ b, V b → MxValid b)
    (h : ∀ a b s x, IsText a name → IsNumber b x → 0 ≤ x → R [a, b] s (f x s)) :
    ActOK V R name (.val okNonneg fun a s => do return f (← a.scalar) s) := by
  intro b hb
  rcases okNonneg_ok (hV b hb) with h1 | ⟨h1, x, h2, h3, h4⟩
  · exact Or.inl h1
  · exact Or.inr ⟨h1, fun s => ⟨f x s, by simp [h3], fun a ha => h a b s x ha h2 h4⟩⟩

theorem act_nsev (name : String) (act : OptAct (VGate NsevOpts)) (h : nsevOptTable name = some act) : ActOK MxValid NsevRule name act := by
  unfold nsevOptTable at h
  split at h
  case h_20 =>
    obtain ⟨d, h1, rfl⟩ := Option.map_eq_some_iff.mp h
    exact fun a s ha => .disc ha (nsevName_iff.mp h1)
  case h_3 =>
    injection h with h; subst h
    intro b hb
    rcases okGuesses_ok hb with h1 | ⟨h1, hn, v, g, h2, h3, h4⟩
    · exact Or.inl h1
    · exact Or.inr ⟨h1, fun s => ⟨_, by simp only [h3, Option.bind_eq_bind, Option.bind_some, Option.pure_def], fun a ha => .newton ha h2 hn h4⟩⟩
  case h_11 =>
    injection h with h; subst h
    intro b hb
    by_cases h1 : b.isRow 4 = true
    · obtain ⟨v, hv⟩ := isRow_ok hb h1
      exact Or.inr ⟨by simpa using h1, fun s => ⟨_, by simp only [mxBox_of hv, Option.bind_eq_bind, Option.bind_some, Option.pure_def], fun a ha => .filtManual ha hv⟩⟩
    · left; simpa using h1
  all_goals injection h with h; subst h
  · exact actNonneg (R := NsevRule) (f := fun x (s : VGate NsevOpts) => { s with M := ⌊x⌋₊ }) (fun _ h => h) fun a b s x => .M
  · exact fun a s ha => .fasteigen ha
  · exact actNonneg (R := NsevRule) (f := fun x (s : VGate NsevOpts) => { s with o := { s.o with niter := ⌊x⌋₊ } }) (fun _ h => h) fun a b s x => .niter
  · exact actNonneg (R := NsevRule) (f := fun x (s : VGate NsevOpts) => { s with o := { s.o with tol := .num (x : EReal) } }) (fun _ h => h) fun a b s x => .tol
  · exact fun a s ha => .subsamp ha
  · exact actNonneg (R := NsevRule) (f := fun x (s : VGate NsevOpts) => { s with o := { s.o with Dsub := ⌊x⌋₊ } }) (fun _ h => h) fun a b s x => .dsub
  · exact fun a s ha => .filtNone ha
  · exact fun a s ha => .filtBasic ha
  · exact fun a s ha => .filtFull ha
  · exact fun a s ha => .re ha
  · exact fun a s ha => .residues ha
  · exact fun a s ha => .ab ha
  · exact fun a s ha => .skipCs ha
  · exact fun a s ha => .skipBs ha
  · exact fun a s ha => .skipNc ha
  · exact fun a s ha => .skipNorm ha
  · exact fun a s ha => .quiet ha

theorem accFlag {σ : Type} {tbl : String → Option (OptAct σ)} {a : MxArray} {name : String} {f : σ → σ} (h : IsText a name) (ht : tbl name = some (.flag f)) : Accepted tbl [a] :=
  Or.inl ⟨a, f, rfl, h.1, by rw [h.2, ht]⟩

theorem accVal {σ : Type} {tbl : String → Option (OptAct σ)} {a b : MxArray} {name : String} {ok : MxArray → Option Bool} {f : MxArray → σ → Option σ} (h : IsText a name)
    (ht : tbl name = some (.val ok f)) (hok : ok b = some true) (hf : ∀ t, ∃ t', f b t = some t') : Accepted tbl [a, b] :=
  Or.inr (Or.inl ⟨a, b, ok, f, rfl, h.1, by rw [h.2, ht], hok, hf⟩)

theorem nsevTable_disc {name : String} {d : NseDisc} (h : (name, d) ∈ nsevNames) : ∃ f, nsevOptTable name = some (.flag f) := by
  simp only [nsevNames, List.mem_cons, Prod.mk.injEq, List.not_mem_nil, or_false] at h
  rcases h with ⟨rfl, rfl⟩ | ⟨rfl, rfl⟩ | ⟨rfl, rfl⟩ | ⟨rfl, rfl⟩ | ⟨rfl, rfl⟩ | ⟨rfl, rfl⟩ | ⟨rfl, rfl⟩ | ⟨rfl, rfl⟩ | ⟨rfl, rfl⟩ | ⟨rfl, rfl⟩ | ⟨rfl, rfl⟩ | ⟨rfl, rfl⟩ | ⟨rfl, rfl⟩ | ⟨rfl, rfl⟩ |
    ⟨rfl, rfl⟩ | ⟨rfl, rfl⟩ | ⟨rfl, rfl⟩ | ⟨rfl, rfl⟩ | ⟨rfl, rfl⟩ | ⟨rfl, rfl⟩ | ⟨rfl, rfl⟩ | ⟨rfl, rfl⟩ | ⟨rfl, rfl⟩ | ⟨rfl, rfl⟩ | ⟨rfl, rfl⟩ | ⟨rfl, rfl⟩ | ⟨rfl, rfl⟩ | ⟨rfl, rfl⟩ <;> exact ⟨_, rfl⟩

theorem acc_nsev {g : List MxArray} {s s' : VGate NsevOpts} (h : NsevRule g s s') : Accepted nsevOptTable g := by
  cases h with
  | M h hn h0 => exact accVal h rfl (okNonneg_of hn h0) fun t => by simp [(isScalar_of hn).2]
  | fasteigen h => exact accFlag h rfl
  | newton h hc hn _ =>
    obtain ⟨g, hg, -⟩ := mxComplex_of hc
    exact accVal h rfl (okGuesses_of hc hn) fun t => by simp [hc.2.2.2.1, hg]
  | niter h hn h0 => exact accVal h rfl (okNonneg_of hn h0) fun t => by simp [(isScalar_of hn).2]
  | tol h hn h0 => exact accVal h rfl (okNonneg_of hn h0) fun t => by simp [(isScalar_of hn).2]
  | subsamp h => exact accFlag h rfl
  | dsub h hn h0 => exact accVal h rfl (okNonneg_of hn h0) fun t => by simp [(isScalar_of hn).2]
  | filtNone h => exact accFlag h rfl
  | filtBasic h => exact accFlag h rfl
  | filtFull h => exact accFlag h rfl
  | filtManual h hb => exact accVal h rfl (by rw [isRow_of hb]) fun t => by simp [mxBox_of hb]
  | re h => exact accFlag h rfl
  | residues h => exact accFlag h rfl
  | ab h => exact accFlag h rfl
  | skipCs h => exact accFlag h rfl
  | skipBs h => exact accFlag h rfl
  | skipNc h => exact accFlag h rfl
  | skipNorm h => exact accFlag h rfl
  | quiet h => exact accFlag h rfl
  | disc h hm =>
    obtain ⟨f, hf⟩ := nsevTable_disc hm
    exact accFlag h hf

/-- What holds for the settings at any time. -/
structure VInv {O : Type} (nlhs : ℕ) (s : VGate O) : Prop where
  h2 : nlhs < 2 → s.skipBs = true
  h3 : nlhs < 3 → s.skipNc = true
  hs : s.skipBs = true → s.skipNc = true
  hb : ∀ g, s.bs = some g → g.len = s.K

theorem nsev_inv {nlhs : ℕ} {l : List MxArray} {s s' : VGate NsevOpts} (h : Options NsevRule l s s') (hi : VInv nlhs s) : VInv nlhs s' := by
  induction h with
  | nil => exact hi
  | cons hg _ ih =>
    apply ih
    cases hg with
    | newton h hc hn hg => exact ⟨hi.h2, hi.h3, hi.hs, fun g e => by cases e; exact hg.1⟩
    | skipBs h => exact ⟨fun _ => rfl, fun _ => rfl, fun _ => rfl, hi.hb⟩
    | skipNc h => exact ⟨hi.h2, fun _ => rfl, fun _ => rfl, hi.hb⟩
    | _ => exact ⟨hi.h2, hi.h3, hi.hs, hi.hb⟩

theorem vinv_start {O : Type} {nlhs D : ℕ} {o : O} : VInv nlhs ⟨D, D, none, false, decide (nlhs < 2), decide (nlhs < 3), o⟩ :=
  ⟨fun h => by simpa using h, fun h => by simpa using h, fun h => by simp only [decide_eq_true_eq] at h ⊢; omega, fun g e => by cases e⟩

/-- The arguments that the gateways pass satisfy the documentation. -/
theorem vcall_ok {O : Type} {cs : O → CsType} {nlhs D maxK : ℕ} {v : ℕ → ℂ} {t x : ℕ → ℝ} {k : ℤ} {s : VGate O} {qb : Buf ℂ} (hi : VInv nlhs s) (hD : 2 ≤ D)
    (hq : Exactly qb D v) (ht : t 0 < t 1) (hx : x 0 < x 1) :
    VPre cs ⟨D, qb, (t 0, t 1), s.M, (x 0, x 1), k, s.o, vGateBufs cs maxK s⟩ ∧ VBelongs D v t x k s maxK ⟨D, qb, (t 0, t 1), s.M, (x 0, x 1), k, s.o, vGateBufs cs maxK s⟩ := by
  obtain ⟨M, K, bs, sc, sb, sn, o⟩ := s
  obtain ⟨h2, h3, hs, hb⟩ := hi
  dsimp only at h2 h3 hs hb
  constructor
  · constructor
    · exact hD
    · exact fun i hi => by simp [hq.2 i hi]
    · exact ht
    · exact hx
    · intro b hb'
      cases sc <;> simp [vGateBufs] at hb'
      subst hb'
      simp [Buf.malloc, csLen]
    · cases sb <;> cases sn <;> cases bs <;> simp [vGateBufs, Buf.malloc] at hs hb ⊢ <;> omega
  · constructor
    · rfl
    · exact hq
    · rfl
    · rfl
    · rfl
    · rfl
    · rfl
    · cases sc <;> simp [vGateBufs]
    · intro g hg
      dsimp only at hg
      subst hg
      have := hb g rfl
      cases sb <;> simp [vGateBufs, this]
    · intro h1 h2
      dsimp only at h1 h2
      subst h1; subst h2
      simp [vGateBufs]
    · intro h1 h2
      dsimp only at h1 h2
      subst h1; subst h2
      simp [vGateBufs]
    · cases sn <;> simp [vGateBufs]

/-- The results are copied without errors. -/
theorem vout_ok {O : Type} {cs : O → CsType} {nlhs D maxK : ℕ} {v : ℕ → ℂ} {t x : ℕ → ℝ} {k : ℤ} {s : VGate O} {c : VCall O} {r : NsevSt} (hi : VInv nlhs s)
    (hc : VBelongs D v t x k s maxK c) (hp : VPost cs c r) : ∃ p, vGateOut cs nlhs s r = some p ∧ VOut cs nlhs s r p := by
  obtain ⟨K, hK, hbs, hnc⟩ := hp.hK
  -- plhs[0]
  have h0 : ∃ m, (if s.skipCs then some mxEmpty else mxRow (csLen (cs s.o) s.M) r.contspec) = some m ∧
      if s.skipCs then OutEmpty (some m) else OutRow (some m) (if cs s.o = .AB then 2 * s.M else s.M) r.contspec := by
    by_cases h : s.skipCs = true
    · exact ⟨mxEmpty, by rw [if_pos h], by rw [if_pos h]; exact ⟨_, rfl, rfl, rfl⟩⟩
    · obtain ⟨b, e, hb⟩ := hp.hcs (fun e => h (hc.hcs.mp e))
      rw [hc.ho, hc.hM] at hb
      obtain ⟨m, hm, h1, h2, h3⟩ := mxRow_of hb
      refine ⟨m, by rw [if_neg h, e]; exact hm, ?_⟩
      rw [if_neg h]
      exact ⟨m, b, rfl, e, h1, h2, h3⟩
  obtain ⟨m0, e0, o0⟩ := h0
  obtain ⟨p0, w0, l0, r0, n0⟩ := Buf.wr_spec (b := (Buf.malloc (max nlhs 1) : Plhs)) (i := 0) m0 (by simp [Buf.malloc])
  have l0' : p0.len = max nlhs 1 := l0
  -- plhs[1]
  have h1 : ∃ p1, (if s.skipBs then (if 2 ≤ nlhs then p0.wr 1 mxEmpty else some p0) else (do p0.wr 1 (← mxRow K r.bs))) = some p1 ∧ p1.len = max nlhs 1 ∧ p1.rd 0 = some m0 ∧
      (2 ≤ nlhs → if s.skipBs then OutEmpty (p1.rd 1) else OutRow (p1.rd 1) K r.bs) := by
    by_cases h : s.skipBs = true
    · rw [if_pos h]
      by_cases hn : 2 ≤ nlhs
      · obtain ⟨p1, w1, l1, r1, n1⟩ := Buf.wr_spec (b := p0) (i := 1) mxEmpty (by omega)
        exact ⟨p1, by rw [if_pos hn]; exact w1, by omega, by rw [n1 0 (by omega), r0], fun _ => by rw [if_pos h, r1]; exact ⟨_, rfl, rfl, rfl⟩⟩
      · exact ⟨p0, by rw [if_neg hn], l0', r0, fun h' => absurd h' hn⟩
    · have hn : 2 ≤ nlhs := by by_contra hn; exact h (hi.h2 (by omega))
      have hb : c.st.bs ≠ none := by
        cases hg : s.bs with
        | some g => rw [(hc.hg g hg).1]; simp
        | none => exact (hc.hn hg (by simpa using h)).2
      obtain ⟨b, e, hb'⟩ := hbs hb
      obtain ⟨m, hm, g1, g2, g3⟩ := mxRow_of hb'
      obtain ⟨p1, w1, l1, r1, n1⟩ := Buf.wr_spec (b := p0) (i := 1) m (by omega)
      refine ⟨p1, by rw [if_neg h, e, hm]; exact w1, by omega, by rw [n1 0 (by omega), r0], fun _ => ?_⟩
      rw [if_neg h, r1]
      exact ⟨m, b, rfl, e, g1, g2, g3⟩
  obtain ⟨p1, e1, l1, z1, o1⟩ := h1
  -- plhs[2]
  have h2 : ∃ p2, (if s.skipNc then (if 3 ≤ nlhs then p1.wr 2 mxEmpty else some p1) else (do p1.wr 2 (← mxRow K r.nc))) = some p2 ∧ p2.len = max nlhs 1 ∧
      (∀ j, j ≠ 2 → p2.rd j = p1.rd j) ∧ (3 ≤ nlhs → if s.skipNc then OutEmpty (p2.rd 2) else OutRow (p2.rd 2) K r.nc) := by
    by_cases h : s.skipNc = true
    · rw [if_pos h]
      by_cases hn : 3 ≤ nlhs
      · obtain ⟨p2, w2, l2, r2, n2⟩ := Buf.wr_spec (b := p1) (i := 2) mxEmpty (by omega)
        exact ⟨p2, by rw [if_pos hn]; exact w2, by omega, n2, fun _ => by rw [if_pos h, r2]; exact ⟨_, rfl, rfl, rfl⟩⟩
      · exact ⟨p1, by rw [if_neg hn], l1, fun _ _ => rfl, fun h' => absurd h' hn⟩
    · have hn : 3 ≤ nlhs := by by_contra hn; exact h (hi.h3 (by omega))
      obtain ⟨b, e, hb'⟩ := hnc (fun e => h (hc.hnc.mp e))
      obtain ⟨m, hm, g1, g2, g3⟩ := mxRow_of hb'
      obtain ⟨p2, w2, l2, r2, n2⟩ := Buf.wr_spec (b := p1) (i := 2) m (by omega)
      refine ⟨p2, by rw [if_neg h, e, hm]; exact w2, by omega, n2, fun _ => ?_⟩
      rw [if_neg h, r2]
      exact ⟨m, b, rfl, e, g1, g2, g3⟩
  obtain ⟨p2, e2, l2, z2, o2⟩ := h2
  refine ⟨p2, ?_, ⟨l2, ?_, ?_, ?_⟩⟩
  · unfold vGateOut
    simp only [Option.bind_eq_bind] at e1 e2 ⊢
    by_cases ha : s.skipCs = true <;> by_cases hb : s.skipBs = true <;> by_cases hn : s.skipNc = true <;>
      simp only [ha, hb, hn, if_true, if_false, Bool.false_eq_true, Option.bind_eq_some_iff] at e0 e1 e2 ⊢
    · cases e0; exact ⟨_, rfl, p0, w0, K, hK, p1, e1, e2⟩
    · obtain ⟨m2, e2, w2⟩ := e2
      cases e0; exact ⟨_, rfl, p0, w0, K, hK, p1, e1, m2, e2, w2⟩
    · obtain ⟨m1, e1, w1⟩ := e1
      cases e0; exact ⟨_, rfl, p0, w0, K, hK, m1, e1, p1, w1, e2⟩
    · obtain ⟨m1, e1, w1⟩ := e1
      obtain ⟨m2, e2, w2⟩ := e2
      cases e0; exact ⟨_, rfl, p0, w0, K, hK, m1, e1, p1, w1, m2, e2, w2⟩
    · exact ⟨m0, e0, p0, w0, K, hK, p1, e1, e2⟩
    · obtain ⟨m2, e2, w2⟩ := e2
      exact ⟨m0, e0, p0, w0, K, hK, p1, e1, m2, e2, w2⟩
    · obtain ⟨m1, e1, w1⟩ := e1
      exact ⟨m0, e0, p0, w0, K, hK, m1, e1, p1, w1, e2⟩
    · obtain ⟨m1, e1, w1⟩ := e1
      obtain ⟨m2, e2, w2⟩ := e2
      exact ⟨m0, e0, p0, w0, K, hK, m1, e1, p1, w1, m2, e2, w2⟩
  · rw [z2 0 (by omega), z1]; exact o0
  · intro hn
    rw [z2 1 (by omega)]
    have := o1 hn
    split_ifs at this ⊢ with h
    · exact this
    · exact ⟨K, hK, this⟩
  · intro hn
    have := o2 hn
    split_ifs at this ⊢ with h
    · exact this
    · exact ⟨K, hK, this⟩

end FNFT

import Verif.Proofs.MexNsev
/-! # The gateway for `fnft_kdvv` -/
namespace FNFT
open Spec

theorem kdvvName_iff {name : String} {d : KdvDisc} : kdvvDiscName name = some d ↔ (name, d) ∈ kdvvNames := by
  constructor
  · intro h
    unfold kdvvDiscName at h
    split at h <;> first | (cases h; done) | (injection h with h; subst h; simp [kdvvNames])
  · intro h
    simp only [kdvvNames, List.mem_cons, Prod.mk.injEq, List.not_mem_nil, or_false] at h
    rcases h with ⟨rfl, rfl⟩ | ⟨rfl, rfl⟩ | ⟨rfl, rfl⟩ | ⟨rfl, rfl⟩ | ⟨rfl, rfl⟩ | ⟨rfl, rfl⟩ | ⟨rfl, rfl⟩ | ⟨rfl, rfl⟩ | ⟨rfl, rfl⟩ | ⟨rfl, rfl⟩ | ⟨rfl, rfl⟩ | ⟨rfl, rfl⟩ | ⟨rfl, rfl⟩ | ⟨rfl, rfl⟩ |
      ⟨rfl, rfl⟩ | ⟨rfl, rfl⟩ | ⟨rfl, rfl⟩ | ⟨rfl, rfl⟩ | ⟨rfl, rfl⟩ | ⟨rfl, rfl⟩ | ⟨rfl, rfl⟩ | ⟨rfl, rfl⟩ | ⟨rfl, rfl⟩ | ⟨rfl, rfl⟩ | ⟨rfl, rfl⟩ | ⟨rfl, rfl⟩ | ⟨rfl, rfl⟩ | ⟨rfl, rfl⟩ <;> rfl

/-- Proof of `ActOK` for a positive number behind the string. -/
theorem actPos {σ : Type} {R : List MxArray → σ → σ → Prop} {name : String} {f : ℝ → σ → σ} {V : MxArray → Prop} (hV : ∀ b, V b → MxValid b)
    (h : ∀ a b s x, IsText a name → IsNumber b x → 0 < x → R [a, b] s (f x s)) :
    ActOK V R name (.val okPos fun a s => do return f (← a.scalar) s) := by
  intro b hb
  rcases okPos_ok (hV b hb) with h1 | ⟨h1, x, h2, h3, h4⟩
  · exact Or.inl h1
  · exact Or.inr ⟨h1, fun s => ⟨f x s, by simp [h3], fun a ha => h a b s x ha h2 h4⟩⟩

theorem act_kdvv (name : String) (act : OptAct (VGate KdvvOpts)) (h : kdvvOptTable name = some act) : ActOK MxValid KdvvRule name act := by
  unfold kdvvOptTable at h
  split at h
  case h_14 =>
    obtain ⟨d, h1, rfl⟩ := Option.map_eq_some_iff.mp h
    exact fun a s ha => .disc ha (kdvvName_iff.mp h1)
  case h_2 =>
    injection h with h; subst h
    intro b hb
    rcases okGuesses_ok hb with h1 | ⟨h1, hn, v, g, h2, h3, h4⟩
    · exact Or.inl h1
    · exact Or.inr ⟨h1, fun s => ⟨_, by simp only [h3, Option.bind_eq_bind, Option.bind_some, Option.pure_def], fun a ha => .newton ha h2 hn h4⟩⟩
  all_goals injection h with h; subst h
  · exact actNonneg (R := KdvvRule) (f := fun x (s : VGate KdvvOpts) => { s with M := ⌊x⌋₊ }) (fun _ h => h) fun a b s x => .M
  · exact fun a s ha => .gridsearch ha
  · exact actNonneg (R := KdvvRule) (f := fun x (s : VGate KdvvOpts) => { s with o := { s.o with niter := ⌊x⌋₊ } }) (fun _ h => h) fun a b s x => .niter
  · exact actPos (R := KdvvRule) (f := fun x (s : VGate KdvvOpts) => { s with o := { s.o with grid_spacing := x } }) (fun _ h => h) fun a b s x => .spacing
  · exact fun a s ha => .re ha
  · exact fun a s ha => .residues ha
  · exact fun a s ha => .ab ha
  · exact fun a s ha => .skipCs ha
  · exact fun a s ha => .skipBs ha
  · exact fun a s ha => .skipNc ha
  · exact fun a s ha => .skipNorm ha
  · exact fun a s ha => .quiet ha

theorem kdvvTable_disc {name : String} {d : KdvDisc} (h : (name, d) ∈ kdvvNames) : ∃ f, kdvvOptTable name = some (.flag f) := by
  simp only [kdvvNames, List.mem_cons, Prod.mk.injEq, List.not_mem_nil, or_false] at h
  rcases h with ⟨rfl, rfl⟩ | ⟨rfl, rfl⟩ | ⟨rfl, rfl⟩ | ⟨rfl, rfl⟩ | ⟨rfl, rfl⟩ | ⟨rfl, rfl⟩ | ⟨rfl, rfl⟩ | ⟨rfl, rfl⟩ | ⟨rfl, rfl⟩ | ⟨rfl, rfl⟩ | ⟨rfl, rfl⟩ | ⟨rfl, rfl⟩ | ⟨rfl, rfl⟩ | ⟨rfl, rfl⟩ |
    ⟨rfl, rfl⟩ | ⟨rfl, rfl⟩ | ⟨rfl, rfl⟩ | ⟨rfl, rfl⟩ | ⟨rfl, rfl⟩ | ⟨rfl, rfl⟩ | ⟨rfl, rfl⟩ | ⟨rfl, rfl⟩ | ⟨rfl, rfl⟩ | ⟨rfl, rfl⟩ | ⟨rfl, rfl⟩ | ⟨rfl, rfl⟩ | ⟨rfl, rfl⟩ | ⟨rfl, rfl⟩ <;> exact ⟨_, rfl⟩

theorem acc_kdvv {g : List MxArray} {s s' : VGate KdvvOpts} (h : KdvvRule g s s') : Accepted kdvvOptTable g := by
  cases h with
  | M h hn h0 => exact accVal h rfl (okNonneg_of hn h0) fun t => by simp [(isScalar_of hn).2]
  | newton h hc hn _ =>
    obtain ⟨g, hg, -⟩ := mxComplex_of hc
    exact accVal h rfl (okGuesses_of hc hn) fun t => by simp [hc.2.2.2.1, hg]
  | gridsearch h => exact accFlag h rfl
  | niter h hn h0 => exact accVal h rfl (okNonneg_of hn h0) fun t => by simp [(isScalar_of hn).2]
  | spacing h hn h0 => exact accVal h rfl (okPos_of hn h0) fun t => by simp [(isScalar_of hn).2]
  | re h => exact accFlag h rfl
  | residues h => exact accFlag h rfl
  | ab h => exact accFlag h rfl
  | skipCs h => exact accFlag h rfl
  | skipBs h => exact accFlag h rfl
  | skipNc h => exact accFlag h rfl
  | skipNorm h => exact accFlag h rfl
  | quiet h => exact accFlag h rfl
  | disc h hm =>
    obtain ⟨f, hf⟩ := kdvvTable_disc hm
    exact accFlag h hf

theorem kdvv_inv {nlhs : ℕ} {l : List MxArray} {s s' : VGate KdvvOpts} (h : Options KdvvRule l s s') (hi : VInv nlhs s) : VInv nlhs s' := by
  induction h with
  | nil => exact hi
  | cons hg _ ih =>
    apply ih
    cases hg with
    | newton h hc hn hg => exact ⟨hi.h2, hi.h3, hi.hs, fun g e => by cases e; exact hg.1⟩
    | skipBs h => exact ⟨fun _ => rfl, fun _ => rfl, fun _ => rfl, hi.hb⟩
    | skipNc h => exact ⟨hi.h2, fun _ => rfl, fun _ => rfl, hi.hb⟩
    | _ => exact ⟨hi.h2, hi.h3, hi.hs, hi.hb⟩

theorem realBuf_of {a : MxArray} {n : ℕ} {v : ℕ → ℝ} (h : IsRow a n v) :
    ∃ g : Buf ℂ, fill 0 n (fun j => (a.re.rd j).map fun x : ℝ => (x : ℂ)) (Buf.malloc n) = some g ∧ Exactly g n (fun i => (v i : ℂ)) := by
  obtain ⟨g, e1, e2, e3⟩ := fill_spec (off := 0) (cnt := n) (f := fun j => (a.re.rd j).map fun x : ℝ => (x : ℂ)) (b := Buf.malloc n) (fun i => (v i : ℂ))
    (fun i _ hi => by simp [h.2.2.2 i (by omega)]) (Or.inl (by simp [Buf.malloc]))
  exact ⟨g, e1, by simpa [Buf.malloc] using e2, fun i hi => by rw [e3 i, if_pos (by omega)]⟩

end FNFT

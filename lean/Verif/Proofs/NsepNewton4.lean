import Verif.Proofs.NsepNewton3
/-!
# Proofs: the Newton routine of fnft_nsep.c, output
-/
namespace FNFT
open Complex

variable {D : ℕ} {q r : Buf ℂ} {qf rf : ℕ → ℂ} {eps : ℝ} {kappa : ℤ} {d : NseDisc} {a : AknsDisc}

open Classical in
theorem nsepFilter_inplace {o : NsepOpts} (ho : o.filt = .NONE ∨ Spec.ValidBox o.box) {b : Buf ℂ} {n : ℕ} {f : ℕ → ℂ} (hb : b.Holds 0 n f) :
    ∃ b', nsepFilter o n b = some (.ok ((Spec.Kept o.filt o.box ((List.range n).map f)).length, b')) ∧
      b'.HoldsList (Spec.Kept o.filt o.box ((List.range n).map f)) ∧ b'.len = b.len ∧ ∀ j, n ≤ j → b'.rd j = b.rd j := by
  unfold nsepFilter Spec.Kept
  by_cases hn : o.filt = .NONE
  · simp only [hn, if_true]
    exact ⟨b, by simp, list_of_holds hb, rfl, fun _ _ => rfl⟩
  · simp only [if_neg hn]
    obtain ⟨b', h1, h2, h3, h4⟩ := filterC_ok hb (ho.resolve_left hn)
    have e : (List.range n).filter (fun j => decide (Spec.InBoxC o.box (f j))) = (List.range n).filter ((fun z => decide (Spec.InBoxC o.box z)) ∘ f) := rfl
    refine ⟨b', ?_, by rw [List.filter_map, ← e]; exact h2, h3, h4⟩
    rw [h1, List.filter_map, List.length_map, ← e]; rfl


theorem chk_ne {c : ℤ} (h : c ≠ SUCCESS) : chk c ≠ SUCCESS := by unfold chk; rw [if_neg h]; exact E_SUBROUTINE_ne h

theorem newtonMain_ok (h : MonoArgs D q r qf rf eps kappa d a) (o : NsepOpts) (ho : o.disc = d) (hv : o.filt = .NONE ∨ Spec.ValidBox o.box)
    {K : ℕ} {main : Option (Buf ℂ)} {init : ℕ → ℂ} (hb : ∀ b, main = some b → b.Holds 0 (K * o.pps) init) :
    ∃ code out, (main.isSome → Spec.Refined (fun i => Spec.mainMethod (Spec.mono expS a D eps qf rf) (monoD a D eps qf rf) o o.box (i / K))
        (K * o.pps) init code out) ∧
      (main.isSome → code ≠ SUCCESS → ∃ m, newtonMain D q r eps K kappa o main = some (chk code, K, some m)) ∧
      ((main.isSome → code = SUCCESS) → ∃ K' m, newtonMain D q r eps K kappa o main = some (SUCCESS, K', m) ∧
        Spec.InPlace (K * o.pps) (Spec.Kept o.filt o.box ((List.range (K * o.pps)).map out)) K main K' m) := by
  unfold newtonMain
  rcases main with _ | b
  · exact ⟨SUCCESS, init, fun hh => (by cases hh), fun hh => (by cases hh), fun _ => ⟨K, none, rfl, fun _ => ⟨rfl, rfl⟩, fun c hc => (by cases hc)⟩⟩
  · obtain ⟨code, b', out, h1, h2, h3, h4, h5⟩ := newtonSpines_ok h o ho (hb b rfl) rfl
    dsimp only
    refine ⟨code, out, fun _ => h2, fun _ hc => ?_, fun hc => ?_⟩
    · refine ⟨b', ?_⟩
      simp only [h1, Option.bind_eq_bind, Option.bind_some]
      rw [if_pos (chk_ne hc)]; rfl
    · obtain rfl := hc rfl
      obtain ⟨c, c1, c2, c3, c4⟩ := nsepFilter_inplace hv h3
      simp only [h1, Option.bind_eq_bind, Option.bind_some, chk_success, ne_eq, not_true_eq_false, if_false, c1, Option.pure_def]
      refine ⟨_, _, rfl, fun hh => (by cases hh), fun c' hc' => ⟨rfl, c, rfl, ?_, c2, ?_⟩⟩
      · cases hc'; rw [c3, h4]
      · cases hc'; intro j hj; rw [c4 j hj, h5 j hj]

theorem newtonAux_ok (h : MonoArgs D q r qf rf eps kappa d a) (o : NsepOpts) (ho : o.disc = d) (hv : o.filt = .NONE ∨ Spec.ValidBox o.box)
    {M : ℕ} {aux : Option (Buf ℂ)} {init : ℕ → ℂ} (hb : ∀ b, aux = some b → b.Holds 0 M init) :
    ∃ w : ℂ → ℤ, (o.nrm = false → ∀ l, w l = 0) ∧
    ∃ code out, (aux.isSome → Spec.Refined (fun _ => Spec.auxMethod (Spec.mono expS a D eps qf rf) (monoD a D eps qf rf) w o o.box)
        M init code out) ∧
      (aux.isSome → code ≠ SUCCESS → ∃ m, newtonAux D q r eps M kappa o aux = some (E_SUBROUTINE code, M, some m)) ∧
      ((aux.isSome → code = SUCCESS) → ∃ M' m, newtonAux D q r eps M kappa o aux = some (SUCCESS, M', m) ∧
        Spec.InPlace M (Spec.Kept o.filt o.box ((List.range M).map out)) M aux M' m) := by
  subst ho
  unfold newtonAux
  rcases aux with _ | b
  · exact ⟨fun _ => 0, fun _ _ => rfl, SUCCESS, init, fun hh => (by cases hh), fun hh => (by cases hh),
      fun _ => ⟨M, none, rfl, fun _ => ⟨rfl, rfl⟩, fun c hc => (by cases hc)⟩⟩
  · obtain ⟨w, w1, code, b', out, h1, h2, h3, h4, h5⟩ := refine_auxspec_ok h o.nrm o.box o.max_evals (nsepTol o) (hb b rfl)
    dsimp only
    refine ⟨w, w1, code, out, fun _ => ?_, fun _ hc => ?_, fun hc => ?_⟩
    · rw [nsepTol_eq] at h2; exact h2
    · refine ⟨b', ?_⟩
      simp only [h1, Option.bind_eq_bind, Option.bind_some]
      rw [if_pos hc]; rfl
    · obtain rfl := hc rfl
      obtain ⟨c, c1, c2, c3, c4⟩ := nsepFilter_inplace hv h3
      simp only [h1, Option.bind_eq_bind, Option.bind_some, ne_eq, not_true_eq_false, if_false, c1, Option.pure_def]
      refine ⟨_, _, rfl, fun hh => (by cases hh), fun c' hc' => ⟨rfl, c, rfl, ?_, c2, ?_⟩⟩
      · cases hc'; rw [c3, h4]
      · cases hc'; intro j hj; rw [c4 j hj, h5 j hj]

theorem mainNewton_code {f f' : ℂ → ℂ} {tol : ℝ} {box : Fin 4 → Dbl} {max : ℕ} {z0 : ℂ} {code : ℤ} {out : ℂ}
    (h : Spec.MainNewton f f' tol box max z0 code out) : code = SUCCESS ∨ code = EC_DIV_BY_ZERO := by
  unfold Spec.MainNewton at h
  split_ifs at h
  · exact Or.inl h.1
  · obtain ⟨z, e, k, -, h2⟩ := h
    cases h2
    · exact Or.inl rfl
    · exact Or.inl rfl
    · exact Or.inl rfl
    · exact Or.inr rfl

theorem auxNewton_code {f f' : ℂ → ℂ} {w : ℂ → ℤ} {tol : ℝ} {box : Fin 4 → Dbl} {max : ℕ} {z0 : ℂ} {code : ℤ} {out : ℂ}
    (h : Spec.AuxNewton f f' w tol box max z0 code out) : code = SUCCESS ∨ code = EC_DIV_BY_ZERO := by
  obtain ⟨z, k, -, -, -, -, -, h⟩ := h
  rcases h with h | h
  · exact Or.inr h.1
  · exact Or.inl h.1

theorem slowSamples_up {a : AknsDisc} (hs : Spec.slow a) (D : ℕ) : Spec.slowSamples a (D * akns_upsampling_factor a) := by
  rcases hs with h | h | h | h | h | h | h <;> subst h <;> simp [Spec.slowSamples, akns_upsampling_factor]

theorem nsep_newton_ok {x : ℕ → ℂ} {T0 T1 : ℝ} {o : NsepOpts} (h : PerArgs D q x T0 T1 kappa o.disc a) (hs : Spec.slow a)
    (heps : eps = (T1 - T0) / D) {box : Fin 4 → Dbl} (hbox : box = Spec.nsepEffBox o a eps) (hv : o.filt = .NONE ∨ Spec.ValidBox box)
    {N : ℕ} (hN : N = D * akns_upsampling_factor a)
    {K M : ℕ} {main aux : Option (Buf ℂ)} {init inita : ℕ → ℂ} (hm : ∀ b, main = some b → b.Holds 0 (K * o.pps) init)
    (ha : ∀ b, aux = some b → b.Holds 0 M inita) :
    ∃ (qf rf : ℕ → ℂ) (Y : ℂ → Spec.M2) (w : ℂ → ℤ), Spec.Processed a kappa D eps x D 1 qf rf ∧
      (∀ l, Spec.MonoDeriv expS a N eps qf rf l (Y l)) ∧ (o.nrm = false → ∀ l, w l = 0) ∧
      ∃ cm outm ca outa,
        (main.isSome → Spec.Refined (fun i => Spec.mainMethod (Spec.mono expS a N eps qf rf) Y o box (i / K)) (K * o.pps) init cm outm) ∧
        (aux.isSome → Spec.Refined (fun _ => Spec.auxMethod (Spec.mono expS a N eps qf rf) Y w o box) M inita ca outa) ∧
        (main.isSome ∧ cm ≠ SUCCESS ∨ aux.isSome ∧ ca ≠ SUCCESS →
          ∃ st, nsep_newton D q T0 T1 kappa ⟨K, main, M, aux, o⟩ = some (E_SUBROUTINE EC_DIV_BY_ZERO, st)) ∧
        ((main.isSome → cm = SUCCESS) ∧ (aux.isSome → ca = SUCCESS) →
          ∃ K' m M' u, nsep_newton D q T0 T1 kappa ⟨K, main, M, aux, o⟩ = some (SUCCESS, ⟨K', m, M', u, { o with box := box }⟩) ∧
            Spec.InPlace (K * o.pps) (Spec.Kept o.filt box ((List.range (K * o.pps)).map outm)) K main K' m ∧
            Spec.InPlace M (Spec.Kept o.filt box ((List.range M).map outa)) M aux M' u) := by
  have hpos : 0 < eps := heps ▸ h.eps_pos
  obtain ⟨Dsub, s, qp, rp, qf, rf, p1, p2, p3, p4, p5⟩ := nse_pre_ok h.hd h.hD h.hCF h.D_lt h.hq hpos h.hk D
  obtain ⟨rfl, rfl⟩ := subGrid_full p2
  rw [← hN] at p3 p4
  have hup := nse_up_eq h.hd
  have hmono : MonoArgs N qp rp qf rf eps kappa o.disc a :=
    ⟨h.hd, hs, by rw [hN]; have := h.hD; have := Nat.pos_of_ne_zero h.up_ne; positivity, p3, p4, hpos, h.hk, by rw [hN]; exact slowSamples_up hs _⟩
  obtain ⟨o', ho'⟩ : ∃ o' : NsepOpts, o' = { o with box := box } := ⟨_, rfl⟩
  have hbx : nsepBox eps o = o' := by rw [nsepBox_ok h.hd, ← hbox, ho']
  have hv' : o'.filt = .NONE ∨ Spec.ValidBox o'.box := by rw [ho']; exact hv
  have hpps : o'.pps = o.pps := by rw [ho']
  obtain ⟨cm, outm, a1, a2, a3⟩ := newtonMain_ok hmono o' (by rw [ho']) hv' (K := K) (main := main) (init := init) (by rw [hpps]; exact hm)
  obtain ⟨w, w1, ca, outa, b1, b2, b3⟩ := newtonAux_ok hmono o' (by rw [ho']) hv' (M := M) (aux := aux) (init := inita) ha
  have hm' : ∀ n, Spec.mainMethod (Spec.mono expS a N eps qf rf) (monoD a N eps qf rf) o' o'.box n =
      Spec.mainMethod (Spec.mono expS a N eps qf rf) (monoD a N eps qf rf) o box n := by intro n; rw [ho']; rfl
  have ha' : Spec.auxMethod (Spec.mono expS a N eps qf rf) (monoD a N eps qf rf) w o' o'.box =
      Spec.auxMethod (Spec.mono expS a N eps qf rf) (monoD a N eps qf rf) w o box := by rw [ho']; rfl
  simp only [hm'] at a1
  rw [ha'] at b1
  rw [hpps] at a1 a3
  have hfilt : o'.filt = o.filt := by rw [ho']
  have hbox' : o'.box = box := by rw [ho']
  rw [hfilt, hbox'] at a3 b3
  refine ⟨qf, rf, monoD a N eps qf rf, w, p5, monoD_ok hmono, ?_, cm, outm, ca, outa, a1, b1, ?_, ?_⟩
  · rw [ho'] at w1; exact w1
  · have hcode : main.isSome → cm ≠ SUCCESS → cm = EC_DIV_BY_ZERO := by
      intro h1 h2
      obtain ⟨f, -, f2, -, -⟩ := (a1 h1).failed h2
      exact (mainNewton_code f2).resolve_left h2
    have hcode' : aux.isSome → ca ≠ SUCCESS → ca = EC_DIV_BY_ZERO := by
      intro h1 h2
      obtain ⟨f, -, f2, -, -⟩ := (b1 h1).failed h2
      exact (auxNewton_code f2).resolve_left h2
    intro hc
    unfold nsep_newton
    dsimp only
    rw [if_neg (by rw [hup]; exact h.up_ne), ← heps, p1]
    simp only [Option.bind_eq_bind, Option.bind_some, ne_eq, not_true_eq_false, if_false, hup, ← hN, hbx]
    by_cases hcm : main.isSome ∧ cm ≠ SUCCESS
    · obtain ⟨m, hm2⟩ := a2 hcm.1 hcm.2
      rw [hm2]
      simp only [Option.bind_some]
      rw [if_pos (chk_ne hcm.2), hcode hcm.1 hcm.2]
      exact ⟨_, rfl⟩
    · obtain ⟨K', m, e1, -⟩ := a3 (fun hh => by by_contra hne; exact hcm ⟨hh, hne⟩)
      rcases hc with hc | hc
      · exact absurd hc hcm
      · obtain ⟨u, hu⟩ := b2 hc.1 hc.2
        rw [e1]
        simp only [Option.bind_some, not_true_eq_false, if_false]
        rw [hu, hcode' hc.1 hc.2]
        exact ⟨_, rfl⟩
  · intro hc
    obtain ⟨K', m, e1, e2⟩ := a3 hc.1
    obtain ⟨M', u, f1, f2⟩ := b3 hc.2
    refine ⟨K', m, M', u, ?_, e2, f2⟩
    unfold nsep_newton
    dsimp only
    rw [if_neg (by rw [hup]; exact h.up_ne), ← heps, p1]
    simp only [Option.bind_eq_bind, Option.bind_some, ne_eq, not_true_eq_false, if_false, hup, ← hN, hbx]
    rw [e1]
    simp only [Option.bind_some, not_true_eq_false, if_false]
    rw [f1, ho']
    rfl

/-- The shift of a list that was written in place. -/
theorem inPlace_shift {n dflt n' : ℕ} {l : List ℂ} {b m : Option (Buf ℂ)} (hn : l.length ≤ n) (hl : Spec.InPlace n l dflt b n' m) (L : ℝ) :
    ∃ m', nsepShift n' L m = some m' ∧ Spec.InPlace n (l.map (· + (L : ℂ))) dflt b n' m' := by
  obtain ⟨h1, h2⟩ := hl
  rcases b with _ | b
  · obtain ⟨rfl, rfl⟩ := h1 rfl
    exact ⟨none, rfl, fun _ => ⟨rfl, rfl⟩, fun c hc => (by cases hc)⟩
  · obtain ⟨rfl, c', rfl, e1, e2, e3⟩ := h2 b rfl
    obtain ⟨b'', g1, g2, g3, g4⟩ := shift_ok (b := c') (b' := c') (l := l) ⟨rfl, fun i hi => by rw [Nat.zero_add, e2 i hi, List.getElem?_eq_getElem hi], fun _ _ => rfl⟩ L
    refine ⟨some b'', g1, fun hc => (by cases hc), fun c hc => ?_⟩
    cases hc
    refine ⟨by simp, b'', rfl, by rw [g2, e1], fun i hi => ?_, fun j hj => ?_⟩
    · have := g3 i hi
      rw [Nat.zero_add] at this
      rw [this, List.getElem?_eq_getElem hi]
    · rw [g4 j (Or.inr (by rw [List.length_map]; omega)), e3 j hj]

theorem kept_length (filt : NsepFilt) (box : Fin 4 → Dbl) (l : List ℂ) : (Spec.Kept filt box l).length ≤ l.length := by
  unfold Spec.Kept
  split_ifs
  · exact le_rfl
  · exact List.length_filter_le _ _

end FNFT

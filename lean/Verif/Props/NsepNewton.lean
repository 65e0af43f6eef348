import Verif.Proofs.NsepNewton4
/-!
# Properties of `fnft_nsep`: Newton's method
-/
namespace FNFT
open Complex

variable {D : ℕ} {q : Buf ℂ} {x : ℕ → ℂ} {T0 T1 : ℝ} {kappa : ℤ} {o : NsepOpts} {a : AknsDisc}

/-! ## C61: refinement of given initial guesses -/

theorem frame_eq (L : ℝ) (o : NsepOpts) : Spec.frameOpts L o = { o with box := (Spec.frameOpts L o).box } := by
  unfold Spec.frameOpts; split_ifs <;> rfl

theorem newton_switch (roots : RootFinder) (junk : ℕ) {qp : Buf ℂ} {s : NsepSt} (hs : s.opts.loc = .NEWTON) :
    nsepSwitch roots junk D qp T0 T1 kappa s = (do
      let R ← nsep_newton D qp T0 T1 kappa s
      return (chk R.1, R.2)) := by
  unfold nsepSwitch
  rw [hs]

/-- C61. With `fnft_nsep_loc_NEWTON`, each of the `points_per_spine` blocks of `K` initial guesses for the main spectrum is refined by Newton's method for the
value of the Floquet discriminant that belongs to the block, and the guesses for the auxiliary spectrum by Newton's method for the zeros
of the `(1,2)` entry of the monodromy matrix of the periodic signal. If no derivative was zero, the results that pass the filter are returned,
in order and shifted back, with their number; nothing else is written. Otherwise the call fails with the code for a division by zero. (The
guesses are not shifted: they refer to the periodic signal.) -/
theorem C61_newton (h : Spec.NsepArgs D q x T0 T1 kappa o a) (hloc : o.loc = .NEWTON) (hs : Spec.slow a)
    {ph L eps : ℝ} (hL : L = Spec.lamShift ph (T1 - T0)) (heps : eps = (T1 - T0) / D) {box : Fin 4 → Dbl}
    (hbox : box = Spec.nsepEffBox (Spec.frameOpts L o) a eps) (hv : o.filt = .NONE ∨ Spec.ValidBox box)
    {N : ℕ} (hN : N = D * akns_upsampling_factor a) {K M : ℕ} {main aux : Option (Buf ℂ)} {init inita : ℕ → ℂ}
    (hboth : o.filt = .NONE ∨ main ≠ none ∨ aux = none)
    (hm : ∀ b, main = some b → b.Holds 0 (K * o.pps) init) (ha : ∀ b, aux = some b → b.Holds 0 M inita) :
    ∃ (E : Spec.M2 → Spec.M2) (qf rf : ℕ → ℂ) (Y : ℂ → Spec.M2) (w : ℂ → ℤ), Spec.NearExp E ∧
      Spec.Processed a kappa D eps (Spec.periodic x L T0 eps) D 1 qf rf ∧
      (∀ l, Spec.MonoDeriv E a N eps qf rf l (Y l)) ∧ (o.nrm = false → ∀ l, w l = 0) ∧
      ∃ cm outm ca outa,
        (main.isSome → Spec.Refined (fun i => Spec.mainMethod (Spec.mono E a N eps qf rf) Y o box (i / K)) (K * o.pps) init cm outm) ∧
        (aux.isSome → Spec.Refined (fun _ => Spec.auxMethod (Spec.mono E a N eps qf rf) Y w o box) M inita ca outa) ∧
        ∀ roots junk,
        (main.isSome ∧ cm ≠ SUCCESS ∨ aux.isSome ∧ ca ≠ SUCCESS →
          ∃ st, fnft_nsep roots junk D (some q) (some (T0, T1)) ph (some K) main (some M) aux false kappa o =
            some (E_SUBROUTINE EC_DIV_BY_ZERO, some st)) ∧
        ((main.isSome → cm = SUCCESS) ∧ (aux.isSome → ca = SUCCESS) →
          ∃ K' m M' u, fnft_nsep roots junk D (some q) (some (T0, T1)) ph (some K) main (some M) aux false kappa o =
              some (SUCCESS, some ⟨K', m, M', u, { o with box := Spec.nsepEffBox o a eps }⟩) ∧
            Spec.InPlace (K * o.pps) ((Spec.Kept o.filt box ((List.range (K * o.pps)).map outm)).map (· + (L : ℂ))) K main K' m ∧
            Spec.InPlace M ((Spec.Kept o.filt box ((List.range M).map outa)).map (· + (L : ℂ))) M aux M' u) := by
  obtain ⟨qp, hp, hrun⟩ := nsep_top' h hL
  rw [← heps] at hp
  obtain ⟨o', ho'⟩ : ∃ o', o' = Spec.frameOpts L o := ⟨_, rfl⟩
  have hdisc : o'.disc = o.disc := by rw [ho', frame_disc]
  have hfilt : o'.filt = o.filt := by rw [ho', frame_filt]
  have hloc' : o'.loc = .NEWTON := by rw [ho', frame_loc, hloc]
  have hpps : o'.pps = o.pps := by rw [ho', frame_eq]
  have hnrm : o'.nrm = o.nrm := by rw [ho', frame_eq]
  have hmm : ∀ S Y n, Spec.mainMethod S Y o' box n = Spec.mainMethod S Y o box n := by
    intro S Y n; rw [ho', frame_eq]; rfl
  have haa : ∀ S Y w, Spec.auxMethod S Y w o' box = Spec.auxMethod S Y w o box := by
    intro S Y w; rw [ho', frame_eq]; rfl
  rw [← ho'] at hbox
  obtain ⟨qf, rf, Y, w, e1, e2, e3, cm, outm, ca, outa, e4, e5, e6, e7⟩ := nsep_newton_ok (o := o') (by rw [hdisc]; exact hp) hs heps hbox
    (by rw [hfilt]; exact hv) hN (K := K) (M := M) (main := main) (aux := aux) (init := init) (inita := inita) (by rw [hpps]; exact hm) ha
  obtain ⟨o'', ho''⟩ : ∃ o'' : NsepOpts, o'' = { o' with box := box } := ⟨_, rfl⟩
  simp only [← ho''] at e7
  simp only [hmm, haa, hpps, hnrm, hfilt] at e3 e4 e5 e6 e7
  refine ⟨expS, qf, rf, Y, w, nearExp_expS, e1, e2, e3, cm, outm, ca, outa, e4, e5, fun roots junk => ?_⟩
  rw [hrun K M main aux hboth, newton_switch roots junk (by rw [← ho']; exact hloc'), ← ho']
  constructor
  · intro hc
    obtain ⟨st, hst⟩ := e6 hc
    rw [hst]
    exact ⟨st, rfl⟩
  · intro hc
    obtain ⟨K', m, M', u, g1, g2, g3⟩ := e7 hc
    obtain ⟨m', k1, k2⟩ := inPlace_shift (le_trans (kept_length _ _ _) (by simp)) g2 L
    obtain ⟨u', l1, l2⟩ := inPlace_shift (le_trans (kept_length _ _ _) (by simp)) g3 L
    refine ⟨K', m', M', u', ?_, k2, l2⟩
    rw [g1]
    simp only [Option.bind_eq_bind, Option.bind_some, Option.pure_def, chk_success, nsepFinish, ne_eq, not_true_eq_false, if_false, k1, l1]
    rw [ho'', hbox, ho', box_back]

/-- C61. A guess that is exactly right (and a simple root) is returned unchanged. -/
theorem C61_exact {f f' : ℂ → ℂ} {tol : ℝ} (htol : 0 ≤ tol) {box : Fin 4 → Dbl} {max : ℕ} {z0 : ℂ} (h0 : f z0 = 0) (h1 : f' z0 ≠ 0)
    {code : ℤ} {out : ℂ} (h : Spec.MainNewton f f' tol box max z0 code out) : code = SUCCESS ∧ out = z0 := by
  unfold Spec.MainNewton at h
  split_ifs at h with hm
  · exact h
  · obtain ⟨z, e, k, hr, he⟩ := h
    obtain ⟨s1, s2⟩ := hr.start
    have hz1 : 0 < k → z 1 = z0 := by
      intro hk
      have := (hr.step 0 hk).2.1
      rw [s1, h0] at this
      simpa using this
    have hk : k ≤ 1 := by
      by_contra hk
      have := (hr.going 0 (by omega)).2.1
      rw [Nat.zero_add, hz1 (by omega), s1, sub_self, norm_zero] at this
      linarith
    rcases Nat.le_one_iff_eq_zero_or_eq_one.mp hk with rfl | rfl
    · cases he with
      | converged hk0 => omega
      | left hk0 => omega
      | exhausted hx => rw [s2] at hx; omega
      | failed hx => rw [s1] at hx; exact absurd hx h1
    · have hz := hz1 one_pos
      have hno : ¬ tol < ‖z 1 - z (1 - 1)‖ := by rw [Nat.sub_self, hz, s1, sub_self, norm_zero]; exact not_lt.mpr htol
      cases he with
      | converged => exact ⟨rfl, by rw [hz, h0]; simp⟩
      | left hk0 hx => exact absurd hx.1 hno
      | exhausted hx hy => exact absurd (hy one_pos).2.1 hno
      | failed hx => rw [hz] at hx; exact absurd hx h1

/-- C61. A guess at which the derivative of the Floquet discriminant is zero (for instance, one that is exactly at a double point of the
spectrum) makes the refinement fail. -/
theorem C61_double {f f' : ℂ → ℂ} {tol : ℝ} {box : Fin 4 → Dbl} {max : ℕ} (hmax : max ≠ 0) {z0 : ℂ} (h1 : f' z0 = 0)
    {code : ℤ} {out : ℂ} (h : Spec.MainNewton f f' tol box max z0 code out) : code = EC_DIV_BY_ZERO ∧ out = z0 := by
  unfold Spec.MainNewton at h
  rw [if_neg hmax] at h
  obtain ⟨z, e, k, hr, he⟩ := h
  obtain ⟨s1, s2⟩ := hr.start
  have hk : k = 0 := by
    by_contra hk
    have := (hr.step 0 (by omega)).1
    rw [s1] at this
    exact this h1
  subst hk
  cases he with
  | converged hk0 => omega
  | left hk0 => omega
  | exhausted hx => rw [s2] at hx; omega
  | failed hx => exact ⟨rfl, s1⟩

/-- C61. The refinement of one guess takes at most `max` steps, and at most `max + 2` evaluations of the monodromy matrix. -/
theorem C61_budget {f f' : ℂ → ℂ} {tol : ℝ} {box : Fin 4 → Dbl} {max : ℕ} {z0 : ℂ} {z : ℕ → ℂ} {e : ℕ → ℕ} {k : ℕ}
    (h : Spec.MainRun f f' tol box max 1 z0 z e k) : k ≤ max ∧ (max ≠ 0 → e k ≤ max + 2) := by
  have hm : ∀ z d, 1 ≤ (Spec.multOf f tol z d).2 ∧ (Spec.multOf f tol z d).2 ≤ 2 := by
    intro z d; unfold Spec.multOf; split_ifs <;> simp
  have he : ∀ j, j ≤ k → j + 1 ≤ e j := by
    intro j
    induction j with
    | zero => intro _; rw [h.start.2]
    | succ j ih =>
      intro hj
      rw [(h.step j (by omega)).2.2]
      have := ih (by omega)
      have := (hm (z j) (f (z j) / f' (z j))).1
      omega
  rcases k with _ | k
  · exact ⟨Nat.zero_le _, fun _ => by rw [h.start.2]; omega⟩
  · have h1 := he k (by omega)
    have h2 := h.budget k (by omega)
    refine ⟨by omega, fun _ => ?_⟩
    rw [(h.step k (by omega)).2.2]
    have := (hm (z k) (f (z k) / f' (z k))).2
    omega

/-- C61. With a filter, all points that are returned are in the (shifted) box. -/
theorem C61_in_box {filt : NsepFilt} (hf : filt ≠ .NONE) {box : Fin 4 → Dbl} {l : List ℂ} {z : ℂ} (hz : z ∈ Spec.Kept filt box l) :
    Spec.InBoxC box z ∧ z ∈ l := by
  unfold Spec.Kept at hz
  rw [if_neg hf, List.mem_filter] at hz
  exact ⟨by simpa using hz.2, hz.1⟩

theorem monoEval_fast {N : ℕ} (hd : nse_to_akns o.disc = .ok a) (hs : ¬ Spec.slow a) (qp rp : Buf ℂ) (eps : ℝ) (nrm : Bool) (l : ℂ) :
    ∃ ec, ec ≠ SUCCESS ∧ monoEval N qp rp eps kappa nrm o.disc l = some (.error ec) := by
  have : ∀ W, ∃ ec, ec ≠ SUCCESS ∧ ∃ m V, nse_scatter_matrix N (some qp) (some rp) eps kappa 1 (some (Buf.ofList [l])) (some (Buf.malloc 8))
      W o.disc 1 = some ⟨ec, m, V⟩ := by
    intro W
    unfold nse_scatter_matrix
    dsimp only
    split
    · exact ⟨_, by decide, _, _, rfl⟩
    · rw [hd]
      dsimp only
      obtain ⟨ec, e1, e2⟩ := C32_scatter_rejects a hs N (some qp) (some rp) eps 1 (some (Buf.ofList [l])) (Buf.malloc 8) W .NSE 0 1
      rw [e2]
      simp only [Option.bind_eq_bind, Option.bind_some, if_neg e1, Option.pure_def]
      exact ⟨_, E_SUBROUTINE_ne e1, _, _, rfl⟩
  obtain ⟨ec, e1, m, W, e2⟩ := this (if nrm then some (Buf.ofList [0]) else none)
  refine ⟨_, E_SUBROUTINE_ne e1, ?_⟩
  unfold monoEval
  rw [e2]
  simp only [Option.bind_eq_bind, Option.bind_some, if_pos e1, Option.pure_def]

/-- A loop that stops at an error, with an error in the first iteration. -/
theorem errLoop {σ : Type*} {n : ℕ} (hn : 0 < n) {body : ℕ → ℤ × σ → Option (ℤ × σ)} {s : σ}
    (h0 : ∃ ec t, ec ≠ SUCCESS ∧ body 0 (SUCCESS, s) = some (ec, t))
    (hstep : ∀ i (t : ℤ × σ), t.1 ≠ SUCCESS → body i t = some t) :
    ∃ ec t, ec ≠ SUCCESS ∧ forLoop n body (SUCCESS, s) = some (ec, t) := by
  obtain ⟨⟨ec, t⟩, h1, h2⟩ := forLoop_inv (n := n) (body := body) (s := ((SUCCESS : ℤ), s))
    (fun k t => if k = 0 then t = (SUCCESS, s) else t.1 ≠ SUCCESS) (by simp) (by
      intro i t hi ht
      by_cases h : i = 0
      · subst h
        rw [if_pos rfl] at ht
        obtain ⟨ec, t', e1, e2⟩ := h0
        exact ⟨(ec, t'), by rw [ht, e2], by simpa using e1⟩
      · rw [if_neg h] at ht
        exact ⟨t, hstep i t ht, by simpa using ht⟩)
  rw [if_neg hn.ne'] at h2
  exact ⟨ec, t, h2, h1⟩

theorem refine_err {point : ℂ → Option (ℤ × ℂ)} (hp : ∀ z, ∃ ec y, ec ≠ SUCCESS ∧ point z = some (ec, y)) {off K : ℕ} (hK : 0 < K)
    {b : Buf ℂ} {z : ℂ} (hz : b.rd off = some z) :
    ∃ ec t, ec ≠ SUCCESS ∧ forLoop K (refineBody point off) (SUCCESS, b) = some (ec, t) := by
  refine errLoop hK ?_ (fun i t ht => by unfold refineBody; rw [if_pos ht])
  obtain ⟨ec, y, e1, e2⟩ := hp z
  obtain ⟨c, c1, -⟩ := Buf.wr_spec (b := b) (i := off) y (Buf.rd_lt hz)
  refine ⟨ec, c, e1, ?_⟩
  unfold refineBody
  simp only [ne_eq, not_true_eq_false, if_false, Nat.add_zero, hz, Option.bind_eq_bind, Option.bind_some, e2, c1, Option.pure_def]

/-- C61. For discretizations that have only a fast method, no values are made up: a call that asks for refinement fails. -/
theorem C61_fast (h : Spec.NsepArgs D q x T0 T1 kappa o a) (hloc : o.loc = .NEWTON) (hs : ¬ Spec.slow a) (hmax : o.max_evals ≠ 0)
    {ph L eps : ℝ} (hL : L = Spec.lamShift ph (T1 - T0)) (heps : eps = (T1 - T0) / D)
    (hv : o.filt = .NONE ∨ Spec.ValidBox (Spec.nsepEffBox (Spec.frameOpts L o) a eps))
    {K M : ℕ} {main aux : Option (Buf ℂ)} {init inita : ℕ → ℂ} (hboth : o.filt = .NONE ∨ main ≠ none ∨ aux = none)
    (hm : ∀ b, main = some b → b.Holds 0 (K * o.pps) init) (ha : ∀ b, aux = some b → b.Holds 0 M inita)
    (hask : (main.isSome ∧ 0 < K * o.pps) ∨ (aux.isSome ∧ 0 < M)) (roots : RootFinder) (junk : ℕ) :
    ∃ ec st, ec ≠ SUCCESS ∧ fnft_nsep roots junk D (some q) (some (T0, T1)) ph (some K) main (some M) aux false kappa o =
      some (ec, some st) := by
  obtain ⟨qp, hp, hrun⟩ := nsep_top' h hL
  rw [← heps] at hp
  obtain ⟨o', ho'⟩ : ∃ o', o' = Spec.frameOpts L o := ⟨_, rfl⟩
  have hdisc : o'.disc = o.disc := by rw [ho', frame_disc]
  have hfilt : o'.filt = o.filt := by rw [ho', frame_filt]
  have hloc' : o'.loc = .NEWTON := by rw [ho', frame_loc, hloc]
  have hpps : o'.pps = o.pps := by rw [ho', frame_eq]
  have hmax' : o'.max_evals ≠ 0 := by rw [ho', frame_eq]; exact hmax
  rw [← ho'] at hv
  obtain ⟨o'', ho''⟩ : ∃ o'' : NsepOpts, o'' = { o' with box := Spec.nsepEffBox o' a eps } := ⟨_, rfl⟩
  have hbx : nsepBox eps o' = o'' := by rw [nsepBox_ok (by rw [hdisc]; exact h.hd), ho'']
  have hd'' : nse_to_akns o''.disc = .ok a := by rw [ho'']; dsimp only; rw [hdisc]; exact h.hd
  have hv'' : o''.filt = .NONE ∨ Spec.ValidBox o''.box := by rw [ho'']; dsimp only; rw [hfilt]; exact hv
  have hmax'' : o''.max_evals ≠ 0 := by rw [ho'']; exact hmax'
  have hpps'' : o''.pps = o.pps := by rw [ho'', ← hpps]
  rw [hrun K M main aux hboth, newton_switch roots junk (by rw [← ho']; exact hloc'), ← ho']
  have hpos : 0 < eps := heps ▸ hp.eps_pos
  obtain ⟨Dsub, s, q1, r1, qf, rf, p1, p2, -, -, -⟩ := nse_pre_ok hp.hd hp.hD hp.hCF hp.D_lt hp.hq hpos hp.hk D
  obtain ⟨rfl, rfl⟩ := subGrid_full p2
  have hup : nse_upsampling_factor o'.disc = akns_upsampling_factor a := by rw [hdisc]; exact nse_up_eq hp.hd
  obtain ⟨N, hN⟩ : ∃ N, N = Dsub * akns_upsampling_factor a := ⟨_, rfl⟩
  have hev := monoEval_fast (kappa := kappa) (N := N) hd'' hs q1 r1 eps o''.nrm
  -- the main spectrum
  have hmain : 0 < K * o.pps → main.isSome → ∃ ec K' m, ec ≠ SUCCESS ∧ newtonMain N q1 r1 eps K kappa o'' main = some (ec, K', m) := by
    intro hKp hsome
    obtain ⟨b, rfl⟩ := Option.isSome_iff_exists.mp hsome
    have hK : 0 < K := Nat.pos_of_mul_pos_right hKp
    have hP : 0 < o''.pps := by rw [hpps'']; exact Nat.pos_of_mul_pos_left hKp
    obtain ⟨ec, t, e1, e2⟩ := errLoop (s := b) hP (body := newtonSpine N q1 r1 eps K kappa o'') (by
      have hz := hm b rfl 0 hKp
      obtain ⟨ec, t, e1, e2⟩ := refine_err (b := b) (off := 0) (K := K) (z := init 0)
        (point := mainPoint (addRhs (-nsepRhs o'' 0) (mainEval N q1 r1 eps kappa o''.nrm o''.disc)) (nsepTol o'') o''.box o''.max_evals)
        (fun z => by
          obtain ⟨ec, e1, e2⟩ := hev z
          refine ⟨ec, z, e1, ?_⟩
          unfold mainPoint addRhs mainEval
          simp only [e2, Option.bind_eq_bind, Option.bind_some, Option.pure_def]) hK hz
      refine ⟨chk ec, t, chk_ne e1, ?_⟩
      unfold newtonSpine refine_mainspec
      simp only [ne_eq, not_true_eq_false, if_false, if_neg hmax'', Nat.zero_mul, e2, Option.bind_eq_bind, Option.bind_some, Option.pure_def])
      (fun i t ht => by unfold newtonSpine; rw [if_pos ht])
    refine ⟨ec, K, some t, e1, ?_⟩
    unfold newtonMain
    simp only [e2, Option.bind_eq_bind, Option.bind_some, ne_eq, e1, not_false_eq_true, if_true, Option.pure_def]
  have hmain0 : ∃ ec K' m, newtonMain N q1 r1 eps K kappa o'' main = some (ec, K', m) := by
    by_cases hsome : main.isSome
    · by_cases hKp : 0 < K * o.pps
      · obtain ⟨ec, K', m, -, e⟩ := hmain hKp hsome
        exact ⟨ec, K', m, e⟩
      · obtain ⟨b, rfl⟩ := Option.isSome_iff_exists.mp hsome
        have hz : K * o''.pps = 0 := by rw [hpps'']; omega
        have hl : forLoop o''.pps (newtonSpine N q1 r1 eps K kappa o'') (SUCCESS, b) = some (SUCCESS, b) := by
          rcases Nat.mul_eq_zero.mp hz with hK | hP
          · subst hK
            obtain ⟨t, t1, t2⟩ := forLoop_inv (n := o''.pps) (body := newtonSpine N q1 r1 eps 0 kappa o'') (s := ((SUCCESS : ℤ), b))
              (fun _ t => t = (SUCCESS, b)) rfl (by
                rintro i t hi rfl
                refine ⟨_, ?_, rfl⟩
                unfold newtonSpine refine_mainspec
                simp only [ne_eq, not_true_eq_false, if_false, if_neg hmax'', forLoop_zero, Option.bind_eq_bind, Option.bind_some, Option.pure_def]
                rfl)
            rw [t1, t2]
          · rw [hP]; rfl
        obtain ⟨b', f1, -⟩ := nsepFilter_inplace hv'' (b := b) (n := K * o''.pps) (f := init) (fun i hi => absurd hi (by omega))
        unfold newtonMain
        simp only [hl, Option.bind_eq_bind, Option.bind_some, ne_eq, not_true_eq_false, if_false, f1, Option.pure_def]
        exact ⟨_, _, _, rfl⟩
    · rw [Option.not_isSome_iff_eq_none] at hsome
      subst hsome
      exact ⟨_, _, _, rfl⟩
  have haux : 0 < M → aux.isSome → ∃ ec M' m, ec ≠ SUCCESS ∧ newtonAux N q1 r1 eps M kappa o'' aux = some (ec, M', m) := by
    intro hM hsome
    obtain ⟨b, rfl⟩ := Option.isSome_iff_exists.mp hsome
    have hz := ha b rfl 0 hM
    obtain ⟨ec, t, e1, e2⟩ := refine_err (b := b) (off := 0) (K := M) (z := inita 0)
      (point := auxPoint (auxEval N q1 r1 eps kappa o''.nrm o''.disc) (nsepTol o'') o''.box o''.max_evals)
      (fun z => by
        obtain ⟨ec, e1, e2⟩ := hev z
        refine ⟨ec, z, e1, ?_⟩
        obtain ⟨n, hn⟩ := Nat.exists_eq_succ_of_ne_zero hmax''
        rw [hn]
        unfold auxPoint auxEval
        simp only [e2, Option.bind_eq_bind, Option.bind_some, Option.pure_def]) hM hz
    refine ⟨E_SUBROUTINE ec, M, some t, E_SUBROUTINE_ne e1, ?_⟩
    unfold newtonAux refine_auxspec
    simp only [if_neg hmax'', e2, Option.bind_eq_bind, Option.bind_some, ne_eq, e1, not_false_eq_true, if_true, Option.pure_def]
  have hnew : ∃ ec st, ec ≠ SUCCESS ∧ nsep_newton Dsub qp T0 T1 kappa ⟨K, main, M, aux, o'⟩ = some (ec, st) := by
    unfold nsep_newton
    dsimp only
    rw [if_neg (by rw [hup]; exact hp.up_ne), ← heps, hdisc, p1]
    rw [hdisc] at hup
    simp only [Option.bind_eq_bind, Option.bind_some, ne_eq, not_true_eq_false, if_false, hup, ← hN, hbx]
    by_cases hA : main.isSome ∧ 0 < K * o.pps
    · obtain ⟨ec, K', m, e1, e2⟩ := hmain hA.2 hA.1
      rw [e2]
      simp only [Option.bind_some, e1, not_false_eq_true, if_true, Option.pure_def]
      exact ⟨_, _, e1, rfl⟩
    · obtain ⟨hx, hM⟩ := hask.resolve_left hA
      obtain ⟨ec, K', m, e2⟩ := hmain0
      obtain ⟨ec', M', u, f1, f2⟩ := haux hM hx
      rw [e2]
      simp only [Option.bind_some]
      by_cases e1 : ec = SUCCESS
      · rw [if_neg (by simp [e1]), f2]
        exact ⟨_, _, f1, rfl⟩
      · rw [if_pos e1]
        exact ⟨_, _, e1, rfl⟩
  obtain ⟨ec, st, e1, e2⟩ := hnew
  refine ⟨chk ec, st, chk_ne e1, ?_⟩
  rw [e2]
  simp only [Option.bind_eq_bind, Option.bind_some, Option.pure_def, nsepFinish, ne_eq, chk_ne e1, not_false_eq_true, if_true]

/-- The assumptions of `C61_newton` can be met: two guesses for each of two values of the Floquet discriminant. -/
example : ∃ (o : NsepOpts) (q : Buf ℂ) (a : AknsDisc) (K M : ℕ) (main aux : Option (Buf ℂ)) (init inita : ℕ → ℂ),
    Spec.NsepArgs 4 q (fun _ => 1 + I) 0 1 1 o a ∧ o.loc = .NEWTON ∧ Spec.slow a ∧
    Spec.ValidBox (Spec.nsepEffBox (Spec.frameOpts (Spec.lamShift 1 (1 - 0)) o) a ((1 - 0) / (4 : ℕ))) ∧
    main ≠ none ∧ aux ≠ none ∧ K = 2 ∧
    (∀ b, main = some b → b.Holds 0 (K * o.pps) init) ∧ (∀ b, aux = some b → b.Holds 0 M inita) := by
  refine ⟨{ nsep_default_opts with loc := .NEWTON, disc := .BO }, Buf.ofList [1 + I, 1 + I, 1 + I, 1 + I], .BO, 2, 1,
    some (Buf.ofList [1, 1, 1, 1]), some (Buf.ofList [1]), fun _ => 1, fun _ => 1,
    ⟨rfl, ⟨2, by norm_num, by norm_num⟩, fun h => absurd h (by simp [Spec.isCF]), by decide, fun i hi => ?_, by norm_num,
      by norm_num⟩, rfl, Or.inl rfl, effBox_auto (by rw [frame_filt]; rfl) _ (by norm_num), by simp, by simp, rfl, fun b hb i hi => ?_, fun b hb i hi => ?_⟩
  · rcases i with _ | _ | _ | _ | i
    all_goals first | rfl | omega
  · cases hb
    have : i < 4 := hi
    rcases i with _ | _ | _ | _ | i
    all_goals first | rfl | omega
  · cases hb
    obtain rfl : i = 0 := by omega
    rfl

end FNFT

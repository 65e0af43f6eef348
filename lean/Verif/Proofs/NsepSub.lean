import Verif.Spec.NsepSub
import Verif.Proofs.NsepNewton4
/-!
# Proofs: subsample and refine in fnft_nsep.c, points
-/
namespace FNFT
open Complex

theorem abs_toCDbl (z : ℂ) : (toCDbl z).im.abs = .num ((|z.im| : ℝ) : EReal) := by
  simp only [toCDbl, Dbl.abs, abs_eq_max_neg]
  congr 1

theorem holdsList_map {α β : Type*} (f : α → β) {b : Buf α} {l : List α} (h : b.HoldsList l) : (b.map f).HoldsList (l.map f) := by
  intro i hi
  rw [Buf.rd_map, h i (by simpa using hi)]
  simp

open Classical in
theorem nsepNonreal_ok {skip : Bool} {tol : Dbl} (htol : skip = true → Dbl.zero.le tol) {b : Buf ℂ} {l : List ℂ} (hb : b.HoldsList l) :
    ∃ b', nsepNonreal skip tol l.length b = some (.ok ((Spec.Nonreal skip tol l).length, b')) ∧ b'.HoldsList (Spec.Nonreal skip tol l) ∧
      b'.len = b.len := by
  unfold nsepNonreal Spec.Nonreal
  cases skip
  · exact ⟨b, rfl, hb, rfl⟩
  · simp only [if_true]
    obtain ⟨v, h1, h2, h3, -⟩ := C04_filter_nonreal (l.map toCDbl) (b.map toCDbl) (holdsList_map toCDbl hb) tol (htol rfl)
    have hk : (l.map toCDbl).filter (fun v => decide (tol.lt v.im.abs)) =
        (l.filter fun z => decide (tol.lt (.num ((|z.im| : ℝ) : EReal)))).map toCDbl := by
      rw [List.filter_map]
      congr 1
    rw [hk] at h1 h2
    refine ⟨v.map ofCDbl, ?_, ?_, h3⟩
    · unfold nonrealC
      rw [List.length_map] at h1
      rw [h1]
      simp
    · have := holdsList_map ofCDbl h2
      rw [List.map_map] at this
      have e : ofCDbl ∘ toCDbl = id := funext of_toCDbl
      rwa [e, List.map_id] at this

/-- Both filters. -/
noncomputable def keepB (o : NsepOpts) (skip : Bool) (tol : Dbl) (l : List ℂ) : List ℂ := Spec.Nonreal skip tol (Spec.Kept o.filt o.box l)

theorem nsepFilters_ok {o : NsepOpts} (ho : o.filt = .NONE ∨ Spec.ValidBox o.box) {skip : Bool} {tol : Dbl}
    (htol : skip = true → Dbl.zero.le tol) {b : Buf ℂ} {l : List ℂ} (hb : b.HoldsList l) :
    ∃ b', nsepFilters o skip tol l.length b = some (.ok ((keepB o skip tol l).length, b')) ∧ b'.HoldsList (keepB o skip tol l) ∧
      b'.len = b.len := by
  obtain ⟨b1, h1, h2, h3⟩ := nsepFilter_ok ho hb
  obtain ⟨b2, g1, g2, g3⟩ := nsepNonreal_ok htol h2
  refine ⟨b2, ?_, g2, by rw [g3, h3]⟩
  unfold nsepFilters
  rw [h1]
  exact g1

/-- What the refinement gets. -/
structure SubArgs (roots : RootFinder) (R : ℕ → Polynomial ℂ → ℕ → ℂ) (c : SubCtx) (o : NsepOpts) (a : AknsDisc) (qf rf : ℕ → ℂ) : Prop where
  hroots : Spec.Finder roots R
  hd : nse_to_akns o.disc = .ok a
  hdeg : akns_degree a ≠ 0
  hbox : o.filt = .NONE ∨ Spec.ValidBox o.box
  htol : c.skip = true → Dbl.zero.le c.tol_im
  mono : MonoArgs c.Deff c.q c.r qf rf c.eps_t c.kappa (nsepSlow o.disc) (Spec.refineDisc a)

variable {roots : RootFinder} {R : ℕ → Polynomial ℂ → ℕ → ℂ} {c : SubCtx} {o : NsepOpts} {a : AknsDisc} {qf rf : ℕ → ℂ}

/-- Candidates from the root finder. -/
theorem subRoots_ok (h : SubArgs roots R c o a qf rf) {deg : ℕ} {p buf : Buf ℂ} {Q : Polynomial ℂ} (hQd : Q.natDegree ≤ deg)
    (hp : p.Holds 0 (deg + 1) fun k => Q.coeff (deg - k)) (hb : deg ≤ buf.len) (hz : ∀ k, k < deg → R deg Q k ≠ 0) :
    ∃ b b', roots deg p buf = some (SUCCESS, b) ∧ nse_z_to_lambda deg c.eps_sub b o.disc = some (SUCCESS, b') ∧ b'.len = buf.len ∧
      b'.HoldsList (Spec.candidates R a c.eps_sub deg Q) := by
  obtain ⟨b, h1, h2, h3⟩ := h.hroots deg Q p buf hQd hp hb
  obtain ⟨b', g1, g2, g3⟩ := nse_z_to_lambda_ok (eps := c.eps_sub) h.hd h.hdeg h3 hz
  exact ⟨b, b', h1, g1, by rw [g2, h2], list_of_holds g3⟩

theorem subPoints_ok (h : SubArgs roots R c o a qf rf) {deg : ℕ} {p buf : Buf ℂ} {Q : Polynomial ℂ} (hQd : Q.natDegree ≤ deg)
    (hp : p.Holds 0 (deg + 1) fun k => Q.coeff (deg - k)) (hb : deg ≤ buf.len) (hz : ∀ k, k < deg → R deg Q k ≠ 0) (rhs : ℝ) :
    ∃ code out, Spec.RefinedList (Spec.MainNewton (fun l => Spec.floquet (Spec.mono expS (Spec.refineDisc a) c.Deff c.eps_t qf rf l) - rhs)
        (fun l => Spec.floquet (monoD (Spec.refineDisc a) c.Deff c.eps_t qf rf l)) (Spec.newtonTol o) o.box o.max_evals)
        (keepB o c.skip c.tol_im) (keepB o c.skip c.tol_im (Spec.candidates R a c.eps_sub deg Q)) code out ∧
      (code ≠ SUCCESS → subPoints roots c deg p rhs o buf = some (.error (E_SUBROUTINE code))) ∧
      (code = SUCCESS → ∃ b, subPoints roots c deg p rhs o buf = some (.ok (out.length, b)) ∧ b.HoldsList out ∧ b.len = buf.len) := by
  obtain ⟨b1, b2, e1, e2, e3, e4⟩ := subRoots_ok h hQd hp hb hz
  obtain ⟨b3, f1, f2, f3⟩ := nsepFilters_ok h.hbox h.htol e4
  have hlen : (Spec.candidates R a c.eps_sub deg Q).length = deg := by unfold Spec.candidates; simp
  rw [hlen] at f1
  obtain ⟨init, hinit⟩ : ∃ init, init = keepB o c.skip c.tol_im (Spec.candidates R a c.eps_sub deg Q) := ⟨_, rfl⟩
  rw [← hinit] at f1 f2 ⊢
  obtain ⟨code, b4, f, g1, g2, g3, g4, -⟩ := refine_mainspec_ok h.mono o.nrm o.box o.max_evals (-rhs) (nsepTol o) (holds_of_list f2)
  have hf : (fun l => Spec.floquet (Spec.mono expS (Spec.refineDisc a) c.Deff c.eps_t qf rf l) + ((-rhs : ℝ) : ℂ)) =
      fun l => Spec.floquet (Spec.mono expS (Spec.refineDisc a) c.Deff c.eps_t qf rf l) - rhs := by
    funext l; push_cast; ring
  rw [hf, nsepTol_eq] at g2
  refine ⟨code, _, ⟨f, g2, rfl⟩, fun hc => ?_, fun hc => ?_⟩
  · unfold subPoints
    simp only [e1, e2, f1, g1, Option.bind_eq_bind, Option.bind_some, ne_eq, not_true_eq_false, if_false, hc, not_false_eq_true, if_true,
      Option.pure_def]
  · subst hc
    obtain ⟨b5, k1, k2, k3⟩ := nsepFilters_ok h.hbox h.htol (list_of_holds g3)
    rw [List.length_map, List.length_range] at k1
    refine ⟨b5, ?_, k2, by rw [k3, g4, f3, e3]⟩
    unfold subPoints
    simp only [e1, e2, f1, g1, Option.bind_eq_bind, Option.bind_some, ne_eq, not_true_eq_false, if_false]
    exact k1

/-- The method for one value of the Floquet discriminant. -/
noncomputable def subMethod (R : ℕ → Polynomial ℂ → ℕ → ℂ) (c : SubCtx) (o : NsepOpts) (a : AknsDisc) (qf rf : ℕ → ℂ) (deg : ℕ)
    (P : ℂ → Polynomial ℂ) (n : ℕ) : ℤ → List ℂ → Prop :=
  Spec.RefinedList (Spec.mainMethod (Spec.mono expS (Spec.refineDisc a) c.Deff c.eps_t qf rf) (monoD (Spec.refineDisc a) c.Deff c.eps_t qf rf) o o.box n)
    (keepB o c.skip c.tol_im)
    (keepB o c.skip c.tol_im (Spec.candidates R a c.eps_sub deg (P (-(Spec.spineVal o.range0 o.range1 o.pps n : ℝ)))))

theorem subMain_ok (h : SubArgs roots R c o a qf rf) {deg : ℕ} {W : ℤ} {tm buf : Buf ℂ} {y : ℕ → ℂ} (hy : tm.Holds 0 (deg + 1) y)
    (hb : deg ≤ buf.len) {P : ℂ → Polynomial ℂ}
    (hP : ∀ v, P v = Spec.poly deg fun i => (y i + (starRingEnd ℂ) (y (deg - i))) + if i = deg / 2 then v * 2 ^ (-W) else 0)
    (hz : ∀ n, n < o.pps → ∀ k, k < deg → R deg (P (-(Spec.spineVal o.range0 o.range1 o.pps n : ℝ))) k ≠ 0)
    {K0 : ℕ} {main : Buf ℂ} (hm : K0 ≤ main.len) :
    ∃ code outs, Spec.Spines (subMethod R c o a qf rf deg P) o.pps K0 code outs ∧
      (code ≠ SUCCESS → ∃ K m r, subMain roots c deg W tm o K0 (some main) buf = some (E_SUBROUTINE code, K, m, r)) ∧
      (code = SUCCESS → ∃ m r, subMain roots c deg W tm o K0 (some main) buf = some (SUCCESS, (outs.flatten.take K0).length, some m, r) ∧
        Spec.WroteAt 0 (outs.flatten.take K0) main m ∧ r.len = buf.len) := by
  obtain ⟨p0, e1, e2, e3⟩ := nsepPoly_ok hy
  have key := forLoop_inv (n := o.pps) (body := subSpine roots c deg W p0 o K0) (s := (⟨SUCCESS, false, 0, main, buf⟩ : SubSt))
    (fun n s => s.roots.len = buf.len ∧
      ((s.ret = SUCCESS ∧ s.full = false ∧ ∃ outs : List (List ℂ), outs.length = n ∧ (∀ n l, outs[n]? = some l → subMethod R c o a qf rf deg P n SUCCESS l) ∧
        outs.flatten.length ≤ K0 ∧ s.K = outs.flatten.length ∧ Spec.WroteAt 0 outs.flatten main s.main) ∨
      ∃ (code : ℤ) (outs : List (List ℂ)), (s.ret ≠ SUCCESS ∨ s.full = true) ∧ outs.length ≤ n ∧ (∀ n l, outs[n]? = some l → subMethod R c o a qf rf deg P n SUCCESS l) ∧
        outs.dropLast.flatten.length ≤ K0 ∧
        ((code = SUCCESS ∧ s.ret = SUCCESS ∧ K0 < outs.flatten.length ∧ s.K = K0 ∧ Spec.WroteAt 0 (outs.flatten.take K0) main s.main) ∨
          (code ≠ SUCCESS ∧ s.ret = E_SUBROUTINE code ∧ outs.length < n ∧ outs.flatten.length ≤ K0 ∧ ∃ l, subMethod R c o a qf rf deg P outs.length code l))))
    ⟨rfl, Or.inl ⟨rfl, rfl, [], rfl, fun n l hl => (by simp at hl), by simp, rfl, WroteAt.nil 0 main⟩⟩ (by
      rintro n s hn ⟨hl, hs⟩
      rcases hs with ⟨s1, s2, outs, s3, s4, s5, s6, s7⟩ | ⟨code, outs, s1, s2, s3, s4, s5⟩
      · obtain ⟨p1, f1, f2, f3⟩ := addCentre_ok e2 e3 (-(nsepRhs o n * (2 : ℂ) ^ (-W)))
        have hQ : p1.Holds 0 (deg + 1) fun k => (P (-(Spec.spineVal o.range0 o.range1 o.pps n : ℝ))).coeff (deg - k) := by
          intro i hi
          rw [f3 i hi, hP]
          dsimp only
          rw [Spec.poly_coeff]
          simp only [show deg - i ≤ deg by omega, if_true]
          rw [show deg - (deg - i) = i by omega, nsepRhs_eq]
          by_cases hi2 : i = deg / 2
          · simp only [if_pos hi2]; congr 1; ring
          · simp only [if_neg hi2]
        obtain ⟨code, out, g1, g2, g3⟩ := subPoints_ok h (by rw [hP]; exact poly_deg_le _ _) hQ (by rw [hl]; exact hb) (hz n hn) (nsepRhs o n)
        have g1' : subMethod R c o a qf rf deg P n code out := by
          rw [nsepRhs_eq] at g1
          exact g1
        unfold subSpine
        rw [if_neg (by simp [s1, s2])]
        simp only [f1, Option.bind_eq_bind, Option.bind_some]
        by_cases hc : code = SUCCESS
        · obtain ⟨b, k1, k2, k3⟩ := g3 hc
          subst hc
          rw [k1]
          simp only [Option.bind_some]
          have hall : ∀ m l, (outs ++ [out])[m]? = some l → subMethod R c o a qf rf deg P m SUCCESS l := by
            intro m l hml
            by_cases hm1 : m < outs.length
            · rw [List.getElem?_append_left hm1] at hml; exact s4 m l hml
            · rw [List.getElem?_append_right (by omega)] at hml
              by_cases hm2 : m = outs.length
              · subst hm2
                rw [Nat.sub_self] at hml
                simp only [List.getElem?_cons_zero, Option.some.injEq] at hml
                rw [← hml, s3]; exact g1'
              · rw [List.getElem?_eq_none (by simp; omega)] at hml
                cases hml
          have hflat : (outs ++ [out]).flatten = outs.flatten ++ out := by simp
          obtain ⟨Kn, hKn⟩ : ∃ Kn, Kn = if s.K + out.length > K0 then K0 - s.K else out.length := ⟨_, rfl⟩
          have hKn1 : Kn ≤ out.length := by rw [hKn]; split_ifs <;> omega
          have hKn2 : s.K + Kn ≤ K0 := by rw [hKn, s6]; split_ifs <;> omega
          obtain ⟨m, m1, m2⟩ := copyAt_ok (off := s.K) (dst := s.main) k2 hKn1 (by rw [s7.1]; omega)
          have hw : Spec.WroteAt 0 (outs.flatten ++ out.take Kn) main m := by
            rw [s6] at m2
            exact WroteAt.append s7 (by rw [Nat.zero_add]; exact m2)
          rw [← hKn, m1]
          simp only [Option.bind_some, Option.pure_def]
          refine ⟨_, rfl, by dsimp only; rw [k3, hl], ?_⟩
          dsimp only
          by_cases hfull : s.K + out.length > K0
          · right
            have hKn3 : Kn = K0 - s.K := by rw [hKn, if_pos hfull]
            refine ⟨SUCCESS, outs ++ [out], Or.inr (by simpa using hfull), by simp [s3], hall, by simpa using s5, Or.inl ⟨rfl, rfl, ?_, by omega, ?_⟩⟩
            · rw [hflat, List.length_append, ← s6]; exact hfull
            · rw [hflat, List.take_append, List.take_of_length_le s5, ← s6, ← hKn3]; exact hw
          · left
            have hKn3 : Kn = out.length := by rw [hKn, if_neg hfull]
            refine ⟨rfl, by simpa using hfull, outs ++ [out], by simp [s3], hall, ?_, ?_, ?_⟩
            · rw [hflat, List.length_append, ← s6]; omega
            · rw [hflat, List.length_append, ← s6, hKn3]
            · rw [hflat]
              rw [hKn3, List.take_of_length_le le_rfl] at hw; exact hw
        · rw [g2 hc]
          refine ⟨_, rfl, hl, Or.inr ⟨code, outs, Or.inl (E_SUBROUTINE_ne hc), by omega, s4, ?_, Or.inr ⟨hc, rfl, by omega, s5, out, by rw [s3]; exact g1'⟩⟩⟩
          refine le_trans ?_ s5
          exact List.Sublist.length_le ((List.dropLast_sublist outs).flatten)
      · unfold subSpine
        rw [if_pos s1]
        refine ⟨s, rfl, hl, Or.inr ⟨code, outs, s1, by omega, s3, s4, ?_⟩⟩
        rcases s5 with s5 | ⟨a1, a2, a3, a4⟩
        · exact Or.inl s5
        · exact Or.inr ⟨a1, a2, by omega, a4⟩)
  obtain ⟨s, k1, k2, k3⟩ := key
  have hrun : subMain roots c deg W tm o K0 (some main) buf = some (s.ret, s.K, some s.main, s.roots) := by
    unfold subMain
    simp only [e1, k1, Option.bind_eq_bind, Option.bind_some, Option.pure_def]
  rw [hrun]
  rcases k3 with ⟨s1, s2, outs, s3, s4, s5, s6, s7⟩ | ⟨code, outs, s1, s2, s3, s4, s5⟩
  · refine ⟨SUCCESS, outs, ⟨by omega, s4, ?_, Or.inl ⟨rfl, Or.inl s3⟩⟩, fun hc => absurd rfl hc, fun _ => ⟨s.main, s.roots, ?_, ?_, k2⟩⟩
    · refine le_trans ?_ s5
      exact List.Sublist.length_le ((List.dropLast_sublist outs).flatten)
    · rw [s1, s6, List.take_of_length_le s5]
    · rw [List.take_of_length_le s5]; exact s7
  · rcases s5 with ⟨a1, a2, a3, a4, a5⟩ | ⟨a1, a2, a3, a4, a5⟩
    · refine ⟨code, outs, ⟨s2, s3, s4, Or.inl ⟨a1, Or.inr a3⟩⟩, fun hc => absurd a1 hc, fun _ => ⟨s.main, s.roots, ?_, a5, k2⟩⟩
      rw [a2, a4, List.length_take, Nat.min_eq_left a3.le]
    · exact ⟨code, outs, ⟨s2, s3, s4, Or.inr ⟨a1, a3, a4, a5⟩⟩, fun _ => ⟨_, _, _, by rw [a2]⟩, fun hc => absurd hc a1⟩

end FNFT

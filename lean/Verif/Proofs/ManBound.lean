import Verif.Proofs.ManBase
import Verif.Proofs.NsevMixed
/-!
# Proofs: bound states in `fnft_manakovv`
-/
namespace FNFT
open Complex

/-- `R code K bs` holds for the outcome: either the root finder has failed, and the call returns its code, without bound states; or it has delivered
values `z_k` with the property `P`, and, unless one of them is zero (then `N` holds), the corresponding `λ_k` are filtered, and the first of the remaining
ones are in the array. -/
def Spec.ManRoots (roots : RootFinder) (d : ManDisc) (filt : ManFilt) (P : ℕ → (ℕ → ℂ) → (ℕ → ℂ) → Prop) (h : ℝ) (deg : ℕ) (y : ℕ → ℂ) (K0 : ℕ) (bs : Buf ℂ)
    (N : Prop) (R : ℤ → ℕ → Buf ℂ → Prop) : Prop :=
  (∃ code bs', Spec.RootsFail roots deg y code ∧ bs'.len = bs.len ∧ R (E_SUBROUTINE code) K0 bs') ∨
    ∃ z, P deg y z ∧ ((∀ k, k < deg → z k ≠ 0) → ∃ out K' bs',
      Spec.ManFiltered filt deg (fun k => log (z k) / (I * h * Spec.manRate d)) out ∧ Spec.BsWritten out K0 K' bs bs' ∧ R SUCCESS K' bs') ∧ ((∃ k, k < deg ∧ z k = 0) → N)

theorem Spec.ManRoots.mono {roots : RootFinder} {d : ManDisc} {filt : ManFilt} {P : ℕ → (ℕ → ℂ) → (ℕ → ℂ) → Prop} {h : ℝ} {deg : ℕ} {y : ℕ → ℂ} {K0 : ℕ} {bs : Buf ℂ}
    {N N' : Prop} {R R' : ℤ → ℕ → Buf ℂ → Prop} (hR : Spec.ManRoots roots d filt P h deg y K0 bs N R) (hn : N → N')
    (hm : ∀ c K b, chk c = c → R c K b → b.len = bs.len → R' c K b) : Spec.ManRoots roots d filt P h deg y K0 bs N' R' := by
  rcases hR with ⟨code, b, h1, h2, h3⟩ | ⟨z, hz, hf, hf'⟩
  · exact Or.inl ⟨code, b, h1, h2, hm _ _ _ (chk_sub _) h3 h2⟩
  · refine Or.inr ⟨z, hz, fun h0 => ?_, fun h0 => hn (hf' h0)⟩
    obtain ⟨out, K', b, g1, g2, g3⟩ := hf h0
    exact ⟨out, K', b, g1, g2, hm _ _ _ rfl g3 g2.2.2⟩

variable {Dg : ℕ} {q1 q2 : Buf ℂ} {p1 p2 : ℕ → ℂ} {T0 T1 eps : ℝ} {κ : ℤ} {d : ManDisc}

theorem man_apoly (h : ManBaseArgs Dg q1 q2 p1 p2 T0 T1 eps κ d) {U : ℂ → ℕ → Spec.M3} {deg : ℕ} {W : ℤ} {b : Buf ℂ} {y : ℕ → ℂ}
    (ht : ManTM d eps Dg U deg W b y) : Spec.ManAPoly d Dg T0 T1 eps U deg y := by
  refine ⟨W, fun l => ?_⟩
  rw [man_coefA_eq, ← ht.val l 0, manZ_rate ht.deg0, manPc, if_neg ht.deg0]
  have e2 : (Spec.pmat 3 deg (deg + 1) 0 y 0 0).eval (exp (I * l * eps * Spec.manRate d)) =
      ∑ k ∈ Finset.range (deg + 1), y k * (exp (I * l * eps * Spec.manRate d)) ^ (deg - k) := by
    simp [Spec.pmat, Spec.poly, Polynomial.eval_finsetSum]
  rw [e2]
  have hT : Spec.manTR d T1 eps - Spec.manTL d T0 eps = eps * Dg := by
    have : (Dg : ℝ) - 1 ≠ 0 := by
      have : (2 : ℝ) ≤ Dg := by exact_mod_cast h.hDg
      linarith
    have e : T1 - T0 + eps = eps * Dg := by
      rw [h.heps]
      field_simp
      ring
    rw [← e]
    unfold Spec.manTR Spec.manTL
    split_ifs <;> ring
  rw [hT]
  have e3 : exp (I * l * eps * Dg * (1 - Spec.manPhase d)) =
      exp (I * l * (-eps * Dg * Spec.manPhase d : ℝ)) * exp (I * l * (eps * Dg : ℝ)) := by
    rw [← exp_add]
    congr 1
    push_cast; ring
  rw [e3]
  ring

/-- Bound states in the base routine. -/
theorem man_base_bs' {o : ManvOpts} (h : ManBaseArgs Dg q1 q2 p1 p2 T0 T1 eps 1 o.disc) (hf : Spec.manSplitting o.disc ≠ []) :
    ∃ deg W tm U y, ManTD o.disc eps Dg 1 p1 p2 U deg W tm ∧ deg = Dg * man_upsampling_factor o.disc * man_degree o.disc ∧
      (∀ (roots : RootFinder) (M : ℕ) (XI : Option (ℝ × ℝ)) (c : Buf ℂ) (K : Option ℕ), (∃ X, XI = some X ∧ X.1 < X.2) →
        man_base roots (Dg * man_upsampling_factor o.disc) q1 q2 T0 T1 M XI 1 o ⟨some c, K, none⟩ = (do
          let C ← manBaseCont (Dg * man_upsampling_factor o.disc) q1 q2 T0 T1 M XI 1 o deg W tm ⟨some c, K, none⟩
          if C.1 ≠ SUCCESS then return C
          manBaseDisc roots eps 1 o deg tm C.2)) ∧
      Spec.ManAPoly o.disc Dg T0 T1 eps U deg y ∧
      ∀ (roots : RootFinder) (P : ℕ → (ℕ → ℂ) → (ℕ → ℂ) → Prop), Spec.RootsOK roots P → ∀ (M : ℕ) (XI : Option (ℝ × ℝ)) (K0 : ℕ) (bs : Buf ℂ),
        K0 ≤ bs.len → Spec.ManRoots roots o.disc o.filt P eps deg y K0 bs
          (man_base roots (Dg * man_upsampling_factor o.disc) q1 q2 T0 T1 M XI 1 o ⟨none, some K0, some bs⟩ = none) (fun c K b =>
          man_base roots (Dg * man_upsampling_factor o.disc) q1 q2 T0 T1 M XI 1 o ⟨none, some K0, some bs⟩ =
            some (c, ⟨none, some K, some b⟩)) := by
  obtain ⟨deg, W, tm, U, h5, h6⟩ := man_base_run h o.nrm
  have h5' := h5
  rcases h5 with ⟨h5, ⟨hs, -⟩ | ⟨b, y, rfl, hy⟩⟩
  · exfalso
    rcases hs with hs | hs <;> rw [hs] at hf <;> exact hf rfl
  refine ⟨deg, W, some b, U, y, h5', hy.degEq, fun roots M XI c K hX => h6 roots M XI o _ rfl rfl (fun _ => hX) (fun hc => by cases hc),
    man_apoly h hy, fun roots P hroots M XI K0 bs hb => ?_⟩
  have f1 := h6 roots M XI o ⟨none, some K0, some bs⟩ rfl rfl (fun hc => by cases hc) (fun _ => by simp)
  rcases man_boundstates_ok hy.deg0 rfl hroots hy.holds eps hb with ⟨code, bs', g1, g2, g3⟩ | ⟨z, g1, g2, g2'⟩
  · refine Or.inl ⟨code, bs', g1, g3, ?_⟩
    rw [f1, manBaseCont_none]
    simp only [Option.bind_eq_bind, Option.bind_some, ne_eq, not_true_eq_false, if_false]
    unfold manBaseDisc
    simp only [if_true, Option.bind_eq_bind, Option.bind_some, g2, Option.pure_def, chk_sub]
  · refine Or.inr ⟨z, g1, fun h0 => ?_, fun h0 => ?_⟩
    · obtain ⟨out, K', bs', k1, k2, k3⟩ := g2 h0
      refine ⟨out, K', bs', k2, k3, ?_⟩
      rw [f1, manBaseCont_none]
      simp only [Option.bind_eq_bind, Option.bind_some, ne_eq, not_true_eq_false, if_false]
      unfold manBaseDisc
      simp only [if_true, Option.bind_eq_bind, Option.bind_some, k1, Option.pure_def]
      rfl
    · rw [f1, manBaseCont_none]
      simp only [Option.bind_eq_bind, Option.bind_some, ne_eq, not_true_eq_false, if_false]
      unfold manBaseDisc
      simp only [if_true, Option.bind_eq_bind, Option.bind_some, g2' h0, Option.bind_none]

variable {D : ℕ} {x1 x2 : ℕ → ℂ} {o : ManvOpts}

/-- The subsampled signal. -/
theorem manv_sub (h : Spec.ManvArgs D q1 q2 x1 x2 T0 T1 κ o) (Dsub0 : ℕ) : ∃ Ds s, Spec.SubGrid D Dsub0 Ds s ∧
    ((man_upsampling_factor o.disc = 2 → 3 ≤ Ds) → ∃ b1 b2 p1 p2,
      man_preprocess_signal D (some q1) (some q2) ((T1 - T0) / (D - 1)) Dsub0 o.disc =
        some ⟨SUCCESS, Ds, some (b1, b2), some (0, (Ds - 1) * s)⟩ ∧
      Spec.ManProcessed o.disc Ds (fun j => x1 (s * j)) p1 ∧ Spec.ManProcessed o.disc Ds (fun j => x2 (s * j)) p2 ∧
      ∀ T0' T1', T0' < T1' → ManBaseArgs Ds b1 b2 p1 p2 T0' T1' ((T1' - T0') / (Ds - 1)) κ o.disc) := by
  have hD := h.hD
  have heps : 0 < (T1 - T0) / ((D : ℝ) - 1) := by
    have : (2 : ℝ) ≤ D := by exact_mod_cast hD
    exact div_pos (by linarith [h.hT]) (by linarith)
  have hu := man_accepted_up h.hd
  obtain ⟨Ds, s, g1, g2⟩ := man_pre_ok hD h.hq1 h.hq2 heps Dsub0 hu
  refine ⟨Ds, s, g1, fun hup => ?_⟩
  have hs := h.hsize
  have hDs : Ds ≤ D := g1.2.2.1
  obtain ⟨b1, b2, p1, p2, k1, -, -, k4, k5, k6, k7⟩ := g2 (fun hu2 => ⟨hup hu2, by rw [hu2] at hs; norm_num; omega⟩)
  exact ⟨b1, b2, p1, p2, k1, k6, k7, fun T0' T1' hT =>
    ⟨h.hd, g1.2.1, le_trans (Nat.mul_le_mul_right _ hDs) hs, k4, k5, hT, rfl, h.hκ⟩⟩

theorem manv_bound (h : Spec.ManvArgs D q1 q2 x1 x2 T0 T1 1 o) (hf : Spec.manSplitting o.disc ≠ []) (hs : o.Dsub ≤ 2 * D) :
    ∃ Ds s, Spec.SubGrid D o.Dsub Ds s ∧
      ((man_upsampling_factor o.disc = 2 → 3 ≤ Ds) → ∃ p1 p2 U y,
        Spec.ManProcessed o.disc Ds (fun j => x1 (s * j)) p1 ∧ Spec.ManProcessed o.disc Ds (fun j => x2 (s * j)) p2 ∧
        Spec.ManSteps o.disc 1 ((T1 - T0) / (Ds - 1)) (Ds * man_upsampling_factor o.disc) p1 p2 U ∧
        Spec.ManAPoly o.disc Ds T0 T1 ((T1 - T0) / (Ds - 1)) U (Ds * man_upsampling_factor o.disc * man_degree o.disc) y ∧
        ∀ {roots : RootFinder} {P : ℕ → (ℕ → ℂ) → (ℕ → ℂ) → Prop}, Spec.RootsOK roots P → ∀ (M : ℕ) (XI : Option (ℝ × ℝ)) {K0 : ℕ} {bs : Buf ℂ}
          (c : Option (Buf ℂ)), K0 ≤ bs.len → Spec.ManRoots roots o.disc o.filt P ((T1 - T0) / (Ds - 1))
            (Ds * man_upsampling_factor o.disc * man_degree o.disc) y K0 bs
            (manvBound roots D q1 q2 (T0, T1) ((T1 - T0) / (D - 1)) M XI 1 ⟨⟨c, some K0, some bs⟩, o⟩ = none) (fun co K b =>
              manvBound roots D q1 q2 (T0, T1) ((T1 - T0) / (D - 1)) M XI 1 ⟨⟨c, some K0, some bs⟩, o⟩ =
                some (co, ⟨⟨c, some K, some b⟩, o⟩))) := by
  obtain ⟨n, hn, hn2⟩ := dsub_ok h.hD hs
  obtain ⟨Ds, s, g1, g2⟩ := manv_sub h n
  refine ⟨Ds, s, hn2 _ _ g1, fun hup => ?_⟩
  obtain ⟨b1, b2, p1, p2, k1, k2, k3, k4⟩ := g2 hup
  obtain ⟨_, W, tm, U, y, e1, rfl, -, e2, e3⟩ := man_base_bs' (k4 T0 T1 h.hT) hf
  refine ⟨p1, p2, U, y, k2, k3, e1.1, e2, fun hroots M XI K0 bs c hb => ?_⟩
  refine (e3 _ _ hroots M XI _ _ hb).mono (fun hR => ?_) fun co K b hc hR _ => ?_
  · unfold manvBound
    simp only [Option.isSome_some, and_self, if_true, Option.bind_eq_bind, hn, Option.bind_some, k1, hR, Option.bind_none]
  unfold manvBound
  simp only [Option.isSome_some, and_self, if_true, Option.bind_eq_bind, hn, Option.bind_some, k1, hR, hc, Option.pure_def]

end FNFT

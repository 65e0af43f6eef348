import Verif.Proofs.Selected
import Verif.Proofs.ManBound
import Verif.Props.Manakovv
import Verif.Props.NsevBound
/-!
# C58: bound states computed by `fnft_manakovv`
-/
namespace FNFT
open Complex

variable {D : ℕ} {q1 q2 : Buf ℂ} {x1 x2 : ℕ → ℂ} {T0 T1 : ℝ} {o : ManvOpts}

theorem manv_reserve (hrich : o.rich ≠ 1) (s : ManvSt) : manvReserve ⟨s, o⟩ = some ⟨s, o⟩ := by
  unfold manvReserve
  rw [if_neg (fun hc => hrich hc.1)]

theorem manv_norich (hrich : o.rich ≠ 1) (roots : RootFinder) (q1 q2 : Buf ℂ) (T : ℝ × ℝ) (e : ℝ) (M : ℕ) (XI : Option (ℝ × ℝ)) (κ : ℤ) (ds : DsType)
    (s : ManvSt) : manvRichIf roots D q1 q2 T e M XI κ ds ⟨s, o⟩ = some (SUCCESS, ⟨s, o⟩) := by
  unfold manvRichIf
  rw [if_neg hrich]

/-- C58. Bound states (focusing case, only the discrete spectrum is requested). The coefficients `y` are those of `a(λ)` of the chosen discretization applied
to a subsampled signal, as polynomial in `z = exp(iλ h r)`; here `h` is the distance of `Ds` equidistant points in the interval of the full signal. The values that the root finder
delivers are mapped to the `λ` plane, filtered and merged, and the first of them are stored; all options are preserved. -/
theorem C58_bound_states (h : Spec.ManvArgs D q1 q2 x1 x2 T0 T1 1 o) (hf : Spec.manSplitting o.disc ≠ []) (hs : o.Dsub ≤ 2 * D) (hrich : o.rich ≠ 1) :
    ∃ Ds s, Spec.SubGrid D o.Dsub Ds s ∧
      ((man_upsampling_factor o.disc = 2 → 3 ≤ Ds) →
        let h' := (T1 - T0) / ((Ds : ℝ) - 1)
        let deg := Ds * man_upsampling_factor o.disc * man_degree o.disc
        ∃ p1 p2 U y, Spec.ManProcessed o.disc Ds (fun j => x1 (s * j)) p1 ∧ Spec.ManProcessed o.disc Ds (fun j => x2 (s * j)) p2 ∧
          Spec.ManSteps o.disc 1 h' (Ds * man_upsampling_factor o.disc) p1 p2 U ∧ Spec.ManAPoly o.disc Ds T0 T1 h' U deg y ∧
          ∀ (roots : RootFinder) (P : ℕ → (ℕ → ℂ) → (ℕ → ℂ) → Prop), Spec.RootsOK roots P →
            ∀ (M : ℕ) (XI : Option (ℝ × ℝ)) (K0 : ℕ) (bs : Buf ℂ), K0 ≤ bs.len →
              Spec.ManRoots roots o.disc o.filt P h' deg y K0 bs
                (fnft_manakovv roots D (some q1) (some q2) (some (T0, T1)) M XI 1 o ⟨none, some K0, some bs⟩ = none) (fun code K b =>
                fnft_manakovv roots D (some q1) (some q2) (some (T0, T1)) M XI 1 o ⟨none, some K0, some bs⟩ =
                  some (code, ⟨none, some K, some b⟩, o))) := by
  obtain ⟨u1, u2, -, -, -, -, -, h4⟩ := manv_run h
  obtain ⟨Ds, s, g1, g2⟩ := manv_bound h hf hs
  refine ⟨Ds, s, g1, fun hup => ?_⟩
  intro h' deg
  obtain ⟨p1, p2, U, y, e1, e2, e3, e4, e5⟩ := g2 hup
  refine ⟨p1, p2, U, y, e1, e2, e3, e4, fun roots P hroots M XI K0 bs hb => ?_⟩
  refine (e5 hroots M XI none hb).mono (fun hR => ?_) fun co K b hc hR _ => ?_
  · rw [h4 roots M XI ⟨none, some K0, some bs⟩ ⟨fun hc => (by cases hc), fun _ => by simp, fun _ _ => Or.inl hf⟩, manv_reserve hrich]
    simp only [Option.bind_eq_bind, Option.bind_some]
    unfold manvCont
    simp only [Option.bind_some, ne_eq, not_true_eq_false, if_false, hR, Option.bind_none]
  rw [h4 roots M XI ⟨none, some K0, some bs⟩ ⟨fun hc => (by cases hc), fun _ => by simp, fun _ _ => Or.inl hf⟩, manv_reserve hrich]
  simp only [Option.bind_eq_bind, Option.bind_some]
  unfold manvCont
  simp only [Option.bind_some, ne_eq, not_true_eq_false, if_false, hR]
  split_ifs with h0
  · rw [manv_norich hrich, h0]; rfl
  · rfl

/-- C58, both spectra requested. There are two calls for the bound states, and the second one is as in `C58_bound_states`. But the first one, for the full
signal, has replaced the capacity `*K_ptr` by the number of bound states that it has found: if the full signal leads to fewer bound states, then only as many are reported. -/
theorem C58_both (h : Spec.ManvArgs D q1 q2 x1 x2 T0 T1 1 o) (hf : Spec.manSplitting o.disc ≠ []) (hs : o.Dsub ≤ 2 * D) (hrich : o.rich ≠ 1)
    {M : ℕ} {XI0 XI1 : ℝ} {c : Buf ℂ} (hc : Spec.ManContReq D M XI0 XI1 o c) :
    let eps := (T1 - T0) / ((D : ℝ) - 1)
    let N := D * man_upsampling_factor o.disc
    ∃ r1 r2 V v, Spec.ManProcessed o.disc D x1 r1 ∧ Spec.ManProcessed o.disc D x2 r2 ∧ Spec.ManSteps o.disc 1 eps N r1 r2 V ∧
      Spec.ManAPoly o.disc D T0 T1 eps V (N * man_degree o.disc) v ∧
      let xi := fun i => ((Spec.grid XI0 XI1 M i : ℝ) : ℂ)
      let a := fun i => Spec.manCoefA o.disc (Spec.chain (V (xi i)) N) T0 T1 eps (xi i)
      let b1 := fun i => Spec.manCoefB o.disc (Spec.chain (V (xi i)) N) T0 T1 eps 1 (xi i)
      let b2 := fun i => Spec.manCoefB o.disc (Spec.chain (V (xi i)) N) T0 T1 eps 2 (xi i)
    ∃ Ds s, Spec.SubGrid D o.Dsub Ds s ∧
      ((man_upsampling_factor o.disc = 2 → 3 ≤ Ds) →
        let h' := (T1 - T0) / ((Ds : ℝ) - 1)
        let deg := Ds * man_upsampling_factor o.disc * man_degree o.disc
        ∃ p1 p2 U y, Spec.ManProcessed o.disc Ds (fun j => x1 (s * j)) p1 ∧ Spec.ManProcessed o.disc Ds (fun j => x2 (s * j)) p2 ∧
          Spec.ManSteps o.disc 1 h' (Ds * man_upsampling_factor o.disc) p1 p2 U ∧ Spec.ManAPoly o.disc Ds T0 T1 h' U deg y ∧
          ∀ (roots : RootFinder) (P : ℕ → (ℕ → ℂ) → (ℕ → ℂ) → Prop), Spec.RootsOK roots P →
            ∀ (K0 : ℕ) (bs : Buf ℂ), K0 ≤ bs.len →
              Spec.ManRoots roots o.disc o.filt P eps (N * man_degree o.disc) v K0 bs
                (fnft_manakovv roots D (some q1) (some q2) (some (T0, T1)) M (some (XI0, XI1)) 1 o ⟨some c, some K0, some bs⟩ = none) (fun code1 K1 bs1 =>
                (code1 ≠ SUCCESS → fnft_manakovv roots D (some q1) (some q2) (some (T0, T1)) M (some (XI0, XI1)) 1 o ⟨some c, some K0, some bs⟩ =
                  some (code1, ⟨some c, some K1, some bs1⟩, o)) ∧
                (code1 = SUCCESS → (o.cs = .AB ∨ ∀ i, i < M → a i ≠ 0) → ∃ c', Spec.ManContWritten o.cs M a b1 b2 c c' ∧ Spec.ManRoots roots o.disc o.filt P h' deg y K1 bs1
                  (fnft_manakovv roots D (some q1) (some q2) (some (T0, T1)) M (some (XI0, XI1)) 1 o ⟨some c, some K0, some bs⟩ = none) (fun code K b =>
                  fnft_manakovv roots D (some q1) (some q2) (some (T0, T1)) M (some (XI0, XI1)) 1 o ⟨some c, some K0, some bs⟩ =
                    some (code, ⟨some c', some K, some b⟩, o))))) := by
  intro eps N
  obtain ⟨u1, u2, r1, r2, k1, k2, k3, h4⟩ := manv_run h
  obtain ⟨_, W, tm, V, v, t1, rfl, t2, k5, k6⟩ := man_base_bs' k3 hf
  refine ⟨r1, r2, V, v, k1, k2, t1.1, k5, ?_⟩
  intro xi a b1 b2
  obtain ⟨Ds, s, g1, g2⟩ := manv_bound h hf hs
  refine ⟨Ds, s, g1, fun hup => ?_⟩
  intro h' deg
  obtain ⟨p1, p2, U, y, e1, e2, e3, e4, e5⟩ := g2 hup
  refine ⟨p1, p2, U, y, e1, e2, e3, e4, fun roots P hroots K0 bs hb => ?_⟩
  have hr : ManReq 1 o (some (XI0, XI1)) ⟨some c, some K0, some bs⟩ := ⟨fun _ => ⟨_, rfl, hc.hXI⟩, fun _ => by simp, fun _ _ => Or.inl hf⟩
  have hns : Spec.ManNonsing o.disc 1 N M XI0 XI1 r1 r2 := fun _ h => absurd h (by decide)
  rcases k6 _ _ hroots M (some (XI0, XI1)) _ _ hb with ⟨code, bs', f1, f2, f3⟩ | ⟨z, f1, f2, f2'⟩
  · refine Or.inl ⟨code, bs', f1, f2, fun h0 => ?_, fun h0 => absurd h0 (E_SUBROUTINE_ne f1.1)⟩
    rw [h4 roots M _ _ hr, manv_reserve hrich]
    simp only [Option.bind_eq_bind, Option.bind_some]
    unfold manvCont
    simp only [f3, Option.bind_eq_bind, Option.bind_some]
    rw [if_pos h0]
    simp only [Option.pure_def, Option.bind_some, chk_sub]
    rw [if_pos h0]
  · refine Or.inr ⟨z, f1, fun h0 => ?_, fun h0 => by
      rw [h4 roots M _ _ hr, manv_reserve hrich]
      simp only [Option.bind_eq_bind, Option.bind_some]
      unfold manvCont
      simp only [f2' h0, Option.bind_eq_bind, Option.bind_none]⟩
    obtain ⟨out, K1, bs1, f3, f4, f5⟩ := f2 h0
    refine ⟨out, K1, bs1, f3, f4, fun hc => absurd rfl hc, fun _ h0 => ?_⟩
    obtain ⟨e6, -⟩ := manBaseCont_ok k3 t1 hc hns (some K1) none
    obtain ⟨c', e7, e8⟩ := e6 h0
    refine ⟨c', e8, ?_⟩
    refine (e5 hroots M (some (XI0, XI1)) (some c') (K0 := K1) (bs := bs1) ?_).mono (fun hR => ?_) fun co K b hc' hR _ => ?_
    · rw [f4.2.2, f4.1]; exact (min_le_left _ _).trans hb
    · have f6 := t2 roots M (some (XI0, XI1)) c (some K1) ⟨_, rfl, hc.hXI⟩
      rw [e7] at f6
      simp only [Option.bind_eq_bind, Option.bind_some, ne_eq, not_true_eq_false, if_false] at f6
      rw [manBaseDisc_none (Or.inl rfl)] at f6
      rw [h4 roots M _ _ hr, manv_reserve hrich]
      simp only [Option.bind_eq_bind, Option.bind_some]
      unfold manvCont
      simp only [f5, f6, Option.bind_eq_bind, Option.bind_some, ne_eq, not_true_eq_false, if_false, Option.pure_def]
      rw [if_neg (by decide)]
      rw [hR, Option.bind_none]
    · have f6 := t2 roots M (some (XI0, XI1)) c (some K1) ⟨_, rfl, hc.hXI⟩
      rw [e7] at f6
      simp only [Option.bind_eq_bind, Option.bind_some, ne_eq, not_true_eq_false, if_false] at f6
      rw [manBaseDisc_none (Or.inl rfl)] at f6
      rw [h4 roots M _ _ hr, manv_reserve hrich]
      simp only [Option.bind_eq_bind, Option.bind_some]
      unfold manvCont
      simp only [f5, f6, Option.bind_eq_bind, Option.bind_some, ne_eq, not_true_eq_false, if_false, Option.pure_def]
      rw [if_neg (by decide)]
      rw [hR]
      simp only [Option.bind_some]
      split_ifs with h0
      · rw [manv_norich hrich, h0]; rfl
      · rfl

/-- C58, exact roots. If the root finder delivers the exact roots, all reported bound states are zeros of `a` (in the closed upper half plane if they are filtered). If the leading coefficient is not zero, then every zero of `a`
in the strip `|Re λ| h r < π` (and in the closed upper half plane) is reported, or (if values are filtered) a reported value is closer than `deg √(2^-52)`, `deg` being the
degree of the polynomial: values that are closer than `√(2^-52)` to others are merged, and the removed values can form a chain. -/
theorem C58_exact_roots {d : ManDisc} (hd : man_degree d ≠ 0) {h : ℝ} (hh : 0 < h) {Dg : ℕ} {U : ℂ → ℕ → Spec.M3} {deg : ℕ} {y z : ℕ → ℂ}
    (hA : Spec.ManAPoly d Dg T0 T1 h U deg y) (hz : Spec.ExactRoots deg y z) (h0 : ∀ k, k < deg → z k ≠ 0) {filt : ManFilt} {out : List ℂ}
    (hout : Spec.ManFiltered filt deg (fun k => log (z k) / (I * h * Spec.manRate d)) out) :
    let A := fun l => Spec.manCoefA d (Spec.chain (U l) (Dg * man_upsampling_factor d)) T0 T1 h l
    (∀ l ∈ out, A l = 0 ∧ (filt ≠ .NONE → 0 ≤ l.im)) ∧
    (y 0 ≠ 0 → ∀ l, A l = 0 → |l.re * h * Spec.manRate d| < Real.pi → (filt ≠ .NONE → 0 ≤ l.im) →
      ∃ l' ∈ out, l' = l ∨ filt ≠ .NONE ∧ ‖l' - l‖ < deg * Real.sqrt ((2 : ℝ)⁻¹ ^ 52)) := by
  intro A
  obtain ⟨W, hA⟩ := hA
  have hr := man_rate_pos hd
  have hrc : (Spec.manRate d : ℂ) ≠ 0 := by exact_mod_cast hr.ne'
  have hhc : (h : ℂ) ≠ 0 := by exact_mod_cast hh.ne'
  have hpoly : ∀ l, (A l = 0 ↔ y 0 * ∏ k ∈ Finset.range deg, (exp (I * l * h * Spec.manRate d) - z k) = 0) := by
    intro l
    show Spec.manCoefA d (Spec.chain (U l) (Dg * man_upsampling_factor d)) T0 T1 h l = 0 ↔ _
    rw [hA, hz, mul_eq_zero]
    simp [exp_ne_zero, zpow_ne_zero]
  obtain ⟨cand, hcand⟩ : ∃ cand : ℕ → ℂ, cand = fun k => log (z k) / (I * h * Spec.manRate d) := ⟨_, rfl⟩
  rw [← hcand] at hout
  have k1' : ∀ k, k < deg → A (cand k) = 0 := by
    intro k hk
    rw [hpoly]
    have : I * cand k * h * Spec.manRate d = log (z k) := by
      rw [hcand]; field_simp
    rw [this, exp_log (h0 k hk)]
    exact mul_eq_zero_of_right _ (Finset.prod_eq_zero (Finset.mem_range.mpr hk) (sub_self _))
  have k2 : y 0 ≠ 0 → ∀ l, A l = 0 → |l.re * h * Spec.manRate d| < Real.pi → ∃ k, k < deg ∧ l = cand k := by
    intro hy l hl him
    rw [hpoly] at hl
    obtain ⟨k, hk, hk0⟩ := Finset.prod_eq_zero_iff.mp ((mul_eq_zero.mp hl).resolve_left hy)
    refine ⟨k, Finset.mem_range.mp hk, ?_⟩
    rw [hcand]
    dsimp only
    rw [← sub_eq_zero.mp hk0]
    have him' : (I * l * h * Spec.manRate d).im = l.re * h * Spec.manRate d := by
      have : I * l * h * Spec.manRate d = ((h * Spec.manRate d : ℝ) : ℂ) * (I * l) := by
        push_cast; ring
      rw [this, im_ofReal_mul, I_mul_im]; ring
    have := abs_lt.mp him
    rw [log_exp (by rw [him']; linarith) (by rw [him']; linarith)]
    field_simp
  have hbox : ∀ l : ℂ, Spec.InBoxC ![.num ⊥, .num ⊤, .num 0, .num ⊤] l ↔ 0 ≤ l.im := by
    intro l
    simp only [Spec.InBoxC, Dbl.le, Matrix.cons_val]
    simp
  by_cases hN : filt = .NONE
  · have ho := hout.1 hN
    refine ⟨fun l hl => ?_, fun hy l hl him _ => ⟨l, ?_, Or.inl rfl⟩⟩
    · rw [ho, List.mem_map] at hl
      obtain ⟨k, hk, rfl⟩ := hl
      exact ⟨k1' k (List.mem_range.mp hk), fun hc => absurd hN hc⟩
    · obtain ⟨k, hk, e⟩ := k2 hy l hl him
      rw [ho, List.mem_map]
      exact ⟨k, List.mem_range.mpr hk, e.symm⟩
  · obtain ⟨S, s1, s2, s3, s4, s5⟩ := hout.2 hN
    refine ⟨fun l hl => ?_, fun hy l hl him hb => ?_⟩
    · rw [s5, List.mem_map] at hl
      obtain ⟨k, hk, rfl⟩ := hl
      exact ⟨k1' k (s2 k hk).1, fun _ => (hbox _).mp (s2 k hk).2⟩
    · obtain ⟨k, hk, e⟩ := k2 hy l hl him
      obtain ⟨l', e1, e2⟩ := selected_near (by positivity) (hout.2 hN) hk ((hbox _).mpr (by rw [← e]; exact hb hN))
      rw [← e] at e2
      exact ⟨l', e1, e2.imp_right fun h => ⟨hN, h⟩⟩

/-- C58, slow methods. With the option `NEWTON` a request for bound states is not rejected at the beginning, but it always fails; nothing is written. -/
theorem C58_slow (h : Spec.ManvArgs D q1 q2 x1 x2 T0 T1 1 o) (hd : o.disc = .BO ∨ o.disc = .CF4_2) (hloc : o.loc = .NEWTON)
    (hrich : o.rich ≠ 1) (roots : RootFinder) (M : ℕ) (XI : Option (ℝ × ℝ)) (K0 : ℕ) (bs : Buf ℂ) (c : Option (Buf ℂ))
    (hc : c.isSome → ∃ X, XI = some X ∧ X.1 < X.2) (hs : c.isSome ∨ o.Dsub ≤ 2 * D ∧ (o.disc = .BO ∨ o.Dsub = D)) :
    fnft_manakovv roots D (some q1) (some q2) (some (T0, T1)) M XI 1 o ⟨c, some K0, some bs⟩ =
      some (E_SUBROUTINE EC_INVALID_ARGUMENT, ⟨c, some K0, some bs⟩, o) := by
  obtain ⟨u1, u2, r1, r2, k1, k2, k3, h4⟩ := manv_run h
  have hbase : ∀ {Dg : ℕ} {u1 u2 : Buf ℂ} {p1 p2 : ℕ → ℂ} {T0 T1 eps : ℝ}, ManBaseArgs Dg u1 u2 p1 p2 T0 T1 eps 1 o.disc →
      man_base roots (Dg * man_upsampling_factor o.disc) u1 u2 T0 T1 M XI 1 o ⟨none, some K0, some bs⟩ =
        some (E_SUBROUTINE EC_INVALID_ARGUMENT, ⟨none, some K0, some bs⟩) := by
    intro Dg u1 u2 p1 p2 T0 T1 eps k3
    obtain ⟨deg', W, tm, V', ⟨-, t1⟩, t2⟩ := man_base_run k3 o.nrm
    rw [t2 roots M XI o ⟨none, some K0, some bs⟩ rfl rfl (fun hc => by cases hc) (fun _ => by simp), manBaseCont_none]
    simp only [Option.bind_eq_bind, Option.bind_some, ne_eq, not_true_eq_false, if_false]
    rcases t1 with ⟨-, -, -, rfl⟩ | ⟨b, y, -, hy⟩
    · unfold manBaseDisc man_compute_boundstates
      simp [chk_sub]
    · exfalso
      have := hy.fast
      rcases hd with hd | hd <;> rw [hd] at this <;> exact this rfl
  have hne : E_SUBROUTINE EC_INVALID_ARGUMENT ≠ SUCCESS := by decide
  rw [h4 roots M XI _ ⟨hc, fun _ => by simp, fun _ _ => Or.inr hloc⟩, manv_reserve hrich]
  simp only [Option.bind_eq_bind, Option.bind_some]
  cases c with
  | some c =>
    unfold manvCont
    simp only [Option.bind_eq_bind, hbase k3, Option.bind_some]
    rw [if_pos hne]
    simp only [Option.pure_def, Option.bind_some, chk_sub]
    rw [if_pos hne]
  | none =>
    unfold manvCont
    simp only [Option.bind_some, ne_eq, not_true_eq_false, if_false]
    obtain ⟨hs1, hs2⟩ := hs.resolve_left (by simp)
    obtain ⟨n, hn, hn2⟩ := dsub_ok h.hD hs1
    obtain ⟨Ds, s, g1, g2⟩ := manv_sub h n
    have hup : man_upsampling_factor o.disc = 2 → 3 ≤ Ds := by
      intro hup
      rcases hs2 with hs2 | hs2
      · rw [hs2] at hup; cases hup
      · have := (hn2 _ _ g1).2.2.2.2.2 (by omega)
        have := h.hup hup
        omega
    obtain ⟨b1, b2, p1, p2, f1, -, -, f4⟩ := g2 hup
    unfold manvBound
    simp only [Option.isSome_some, and_self, if_true, Option.bind_eq_bind, hn, Option.bind_some, f1, hbase (f4 T0 T1 h.hT), Option.pure_def, chk_sub]
    rw [if_pos hne]

/-- The hypotheses of C58 are met: default options with five samples and an exact root finder; a slow method. -/
example : (Spec.ManvArgs 5 (Buf.ofFn 5 fun _ => 1) (Buf.ofFn 5 fun _ => I) (fun _ => 1) (fun _ => I) (-1) 1 1
      { manakovv_default_opts with cs := .AB } ∧ Spec.manSplitting manakovv_default_opts.disc ≠ [] ∧ manakovv_default_opts.Dsub ≤ 2 * 5 ∧
      manakovv_default_opts.rich ≠ 1 ∧ Spec.ManContReq 5 3 (-1) 1 { manakovv_default_opts with cs := .AB } (Buf.malloc 9) ∧
      ∃ roots, Spec.RootsOK roots Spec.ExactRoots) ∧
    Spec.ManvArgs 5 (Buf.ofFn 5 fun _ => 1) (Buf.ofFn 5 fun _ => I) (fun _ => 1) (fun _ => I) (-1) 1 1
      { manakovv_default_opts with disc := .CF4_2, loc := .NEWTON, Dsub := 5 } := by
  refine ⟨⟨⟨by norm_num, by simp [man_upsampling_factor, manakovv_default_opts], fun _ => by norm_num, Buf.holds_ofFn _ _, Buf.holds_ofFn _ _, by norm_num, by norm_num,
    by right; right; simp [Spec.manSplitting, manakovv_default_opts]⟩, by simp [Spec.manSplitting, manakovv_default_opts], by decide, by decide, 
    ⟨by norm_num, by norm_num, by simp [man_upsampling_factor, man_degree, manakovv_default_opts],
    fun n => by simp, by simp [Spec.manCsLen]⟩, ?_⟩, ⟨by norm_num, by simp [man_upsampling_factor], fun _ => by norm_num, Buf.holds_ofFn _ _, Buf.holds_ofFn _ _, by norm_num, by norm_num,
    by right; left; rfl⟩⟩
  obtain ⟨r, h, -⟩ := exactRoots_finder
  exact ⟨r, h⟩

end FNFT

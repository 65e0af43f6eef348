import Verif.Proofs.ManCont
import Verif.Proofs.NsevMixed
/-!
# Proofs: `fnft_manakovv_base` and `fnft_manakovv`
-/
namespace FNFT
open Complex

/-! ## Conversion of roots -/

theorem manZ_rate {d : ManDisc} (hd : man_degree d ≠ 0) (eps : ℝ) (x : ℂ) :
    Spec.manZ d eps (x / man_upsampling_factor d) = exp (I * x * eps * Spec.manRate d) := by
  rw [manZ_up hd, Spec.manRate]
  split_ifs <;> congr 1 <;> push_cast <;> ring

theorem man_rate_pos {d : ManDisc} (hd : man_degree d ≠ 0) : 0 < Spec.manRate d := by
  have := man_up_ne hd
  unfold Spec.manRate
  split_ifs
  · norm_num
  · have h1 : 0 < man_degree d := Nat.pos_of_ne_zero hd
    have h2 : 0 < man_upsampling_factor d := Nat.pos_of_ne_zero this
    positivity

theorem man_z_to_lambda_ok {d : ManDisc} (hd : man_degree d ≠ 0) {n : ℕ} (eps : ℝ) {vals : Buf ℂ} {v : ℕ → ℂ}
    (hv : vals.Holds 0 n v) (h0 : ∀ i, i < n → v i ≠ 0) :
    ∃ b, man_z_to_lambda n eps vals d = some (SUCCESS, b) ∧ b.len = vals.len ∧
      b.Holds 0 n (fun i => log (v i) / (I * eps * Spec.manRate d)) ∧ ∀ i, n ≤ i → b.rd i = vals.rd i := by
  have hu := man_up_ne hd
  have h1 : (man_degree d : ℂ) ≠ 0 := by exact_mod_cast hd
  have h2 : (man_upsampling_factor d : ℂ) ≠ 0 := by exact_mod_cast hu
  by_cases h : d = .FTES4_suzuki
  · obtain ⟨b, g1, g2, g3, g4⟩ := map_loop_ne (fun x => log x * 3 / (I * eps)) n vals v hv h0
    refine ⟨b, ?_, g3, fun i hi => ?_, g4⟩
    · unfold man_z_to_lambda; rw [if_pos h, g1]; rfl
    · rw [g2 i hi]; dsimp only; rw [Spec.manRate, if_pos h]
      congr 1
      push_cast
      rw [one_div, ← div_eq_mul_inv, div_div_eq_mul_div]
  · obtain ⟨b, g1, g2, g3, g4⟩ := map_loop_ne (fun x => log x * ((man_degree d * man_upsampling_factor d : ℝ) : ℂ) / (2 * I * eps)) n vals v hv h0
    refine ⟨b, ?_, g3, fun i hi => ?_, g4⟩
    · unfold man_z_to_lambda; rw [if_neg h, if_neg hu, if_neg hd]; dsimp only; rw [g1]; rfl
    · rw [g2 i hi]; dsimp only; rw [Spec.manRate, if_neg h]
      congr 1
      push_cast
      rw [mul_div_assoc', div_div_eq_mul_div]
      ring_nf

/-- The logarithm of zero is not a number. -/
theorem man_log_loop_none (f : ℂ → ℂ) {n : ℕ} {vals : Buf ℂ} {v : ℕ → ℂ} (hv : vals.Holds 0 n v) (h0 : ∃ k, k < n ∧ v k = 0) :
    forLoop n (fun i (b : Buf ℂ) => b.rd i >>= fun x => if x = 0 then none else b.wr i (f x)) vals = none := by
  by_contra hc
  obtain ⟨b, hb⟩ := Option.ne_none_iff_exists'.mp hc
  have key := loop_prefix (fun j (st : Buf ℂ) => (∀ i, j ≤ i → i < n → st.rd i = some (v i)) ∧ ∀ i, i < j → v i ≠ 0) hb
    ⟨fun i _ hi => by have := hv i hi; rwa [Nat.zero_add] at this, fun i hi => absurd hi (by omega)⟩ ?_
  · obtain ⟨k, hk, hk0⟩ := h0
    exact key.2 k hk hk0
  · rintro i t t' hi ⟨h1, h2⟩ hb'
    rw [h1 i le_rfl hi, Option.bind_eq_bind, Option.bind_some] at hb'
    have hlt := Buf.rd_lt (h1 i le_rfl hi)
    by_cases hz : v i = 0
    · rw [if_pos hz] at hb'; cases hb'
    · rw [if_neg hz] at hb'
      obtain ⟨b', w1, w2, w3, w4⟩ := Buf.wr_spec (f (v i)) hlt
      rw [w1] at hb'
      cases hb'
      refine ⟨fun j hj hjn => by rw [w4 j (by omega)]; exact h1 j (by omega) hjn, fun j hj => ?_⟩
      · rcases Nat.lt_succ_iff_lt_or_eq.mp hj with hj | rfl
        · exact h2 j hj
        · exact hz

theorem man_z_to_lambda_none {d : ManDisc} (hd : man_degree d ≠ 0) {n : ℕ} (eps : ℝ) {vals : Buf ℂ} {v : ℕ → ℂ}
    (hv : vals.Holds 0 n v) (h0 : ∃ k, k < n ∧ v k = 0) : man_z_to_lambda n eps vals d = none := by
  have hu := man_up_ne hd
  unfold man_z_to_lambda
  split_ifs with h
  · have := man_log_loop_none (fun x => log x * 3 / (I * eps)) hv h0
    simp only [Option.bind_eq_bind] at this ⊢
    rw [this]; rfl
  · have := man_log_loop_none (fun x => log x * ((man_degree d * man_upsampling_factor d : ℝ) : ℂ) / (2 * I * eps)) hv h0
    simp only [Option.bind_eq_bind] at this ⊢
    rw [this]; rfl

/-! ## Filtering -/

/-- The box as record of options for `fnft_nsev`. -/
noncomputable def nsOpt (f : ManFilt) : NsevOpts := { nsev_default_opts with filt := if f = .NONE then .NONE else .BASIC }

theorem nsOpt_none (f : ManFilt) : (nsOpt f).filt = .NONE ↔ f = .NONE := by
  unfold nsOpt
  dsimp only
  split_ifs with h <;> simp [h]

theorem manBsFilter_eq (f : ManFilt) (K : ℕ) (b : Buf ℂ) : manBsFilter f K b = bsFilter (nsOpt f) manBox K b := by
  unfold manBsFilter bsFilter
  by_cases h : f = .NONE
  · rw [if_pos h, if_pos ((nsOpt_none f).mpr h)]
  · rw [if_neg h, if_neg (fun hc => h ((nsOpt_none f).mp hc))]

theorem manBox_valid : Spec.ValidBox manBox := by
  unfold Spec.ValidBox manBox
  simp [Dbl.le]

/-! ## Bound states -/

theorem man_boundstates_ok {d : ManDisc} (hdeg : man_degree d ≠ 0) {o : ManvOpts} (ho : o.disc = d) {roots : RootFinder}
    {P : ℕ → (ℕ → ℂ) → (ℕ → ℂ) → Prop} (hroots : Spec.RootsOK roots P)
    {deg : ℕ} {tm : Buf ℂ} {y : ℕ → ℂ} (htm : tm.Holds 0 (9 * (deg + 1)) y) (eps : ℝ) {K0 : ℕ} {bs : Buf ℂ} (hb : K0 ≤ bs.len) :
    (∃ code bs', Spec.RootsFail roots deg y code ∧ man_compute_boundstates roots deg (some tm) eps K0 bs o =
        some (E_SUBROUTINE code, K0, bs') ∧ bs'.len = bs.len) ∨
    ∃ z : ℕ → ℂ, P deg y z ∧ ((∀ k, k < deg → z k ≠ 0) →
      ∃ out K' bs', man_compute_boundstates roots deg (some tm) eps K0 bs o = some (SUCCESS, K', bs') ∧
        Spec.ManFiltered o.filt deg (fun k => log (z k) / (I * eps * Spec.manRate d)) out ∧
        Spec.BsWritten out K0 K' bs bs') ∧
      ((∃ k, k < deg ∧ z k = 0) → man_compute_boundstates roots deg (some tm) eps K0 bs o = none) := by
  subst ho
  have hy : tm.Holds 0 (deg + 1) y := fun i hi => htm i (by omega)
  have htl : 9 * (deg + 1) ≤ tm.len := by
    have := Buf.rd_lt (htm (9 * (deg + 1) - 1) (by omega))
    omega
  have hfil : ∀ n cand out, Spec.Filtered (nsOpt o.filt) manBox n cand out → Spec.ManFiltered o.filt n cand out := by
    rintro n cand out ⟨f1, f2⟩
    exact ⟨fun h => f1 ((nsOpt_none _).mpr h), fun h => f2 (fun hc => h ((nsOpt_none _).mp hc))⟩
  unfold man_compute_boundstates
  dsimp only
  by_cases hK : K0 ≥ deg
  · rw [if_pos hK]
    obtain ⟨code, buf', e1, e2, e3⟩ := hroots deg tm y bs hy (by omega)
    by_cases hc : code = SUCCESS
    · obtain ⟨z, z1, z2⟩ := e3 hc
      refine Or.inr ⟨z, z2, fun h0 => ?_, fun h0 => ?_⟩
      · obtain ⟨b2, f1, f2, f3, -⟩ := man_z_to_lambda_ok hdeg eps z1 h0
        obtain ⟨ol, K', b3, g1, g2, g3⟩ := bsFinish_ok (o := nsOpt o.filt) (box := manBox) (K0 := K0)
          (L := ⟨SUCCESS, deg, b2, none⟩) (fun _ => manBox_valid) (fun _ => ⟨hK, f3⟩) (fun b hb => by cases hb)
        have hl : b2.len = bs.len := f2.trans e2
        refine ⟨ol, K', b3, ?_, hfil _ _ _ g2, g3.1, g3.2.1, g3.2.2.trans hl⟩
        unfold manBsDirect manBsFast
        rw [e1]
        simp only [Option.bind_eq_bind, Option.bind_some, hc, ne_eq, not_true_eq_false, if_false, f1, if_true, Option.pure_def,
          manBsFilter_eq]
        exact g1
      · unfold manBsDirect manBsFast
        rw [e1]
        simp only [Option.bind_eq_bind, Option.bind_some, hc, ne_eq, not_true_eq_false, if_false, man_z_to_lambda_none hdeg eps z1 h0, Option.bind_none]
    · refine Or.inl ⟨code, buf', ⟨hc, _, _, _, hy, by omega, e1⟩, ?_, e2⟩
      unfold manBsDirect manBsFast
      rw [e1]
      simp only [Option.bind_eq_bind, Option.bind_some, hc, ne_eq, not_false_eq_true, if_true, Option.pure_def]
      rw [if_pos (E_SUBROUTINE_ne hc)]
  · rw [if_neg hK]
    obtain ⟨code, buf', e1, e2, e3⟩ := hroots deg tm y (tm.view (deg + 1)) hy (by rw [view_len]; omega)
    by_cases hc : code = SUCCESS
    · obtain ⟨z, z1, z2⟩ := e3 hc
      refine Or.inr ⟨z, z2, fun h0 => ?_, fun h0 => ?_⟩
      · obtain ⟨b2, f1, f2, f3, -⟩ := man_z_to_lambda_ok hdeg eps z1 h0
        obtain ⟨ol, K', b3, g1, g2, g3⟩ := bsFinish_ok (o := nsOpt o.filt) (box := manBox) (K0 := K0)
          (L := ⟨SUCCESS, deg, bs, some b2⟩) (fun _ => manBox_valid) (fun hb => by cases hb) (fun b hb' => by cases hb'; exact ⟨f3, hb⟩)
        refine ⟨ol, K', b3, ?_, hfil _ _ _ g2, g3⟩
        unfold manBsBuffer manBsFast
        rw [e1]
        simp only [Option.bind_eq_bind, Option.bind_some, hc, ne_eq, not_true_eq_false, if_false, f1, if_true, Option.pure_def,
          manBsFilter_eq]
        exact g1
      · unfold manBsBuffer manBsFast
        rw [e1]
        simp only [Option.bind_eq_bind, Option.bind_some, hc, ne_eq, not_true_eq_false, if_false, man_z_to_lambda_none hdeg eps z1 h0, Option.bind_none]
    · refine Or.inl ⟨code, bs, ⟨hc, _, _, _, hy, by rw [view_len]; omega, e1⟩, ?_, rfl⟩
      unfold manBsBuffer manBsFast
      rw [e1]
      simp only [Option.bind_eq_bind, Option.bind_some, hc, ne_eq, not_false_eq_true, if_true, Option.pure_def]
      rw [if_pos (E_SUBROUTINE_ne hc)]

/-! ## The base routine -/

/-- Arguments of `fnft_manakovv_base`. -/
structure ManBaseArgs (Dg : ℕ) (q1 q2 : Buf ℂ) (p1 p2 : ℕ → ℂ) (T0 T1 eps : ℝ) (κ : ℤ) (d : ManDisc) : Prop where
  hd : Spec.manAccepted d
  hDg : 2 ≤ Dg
  hsize : Dg * man_upsampling_factor d ≤ 2147483647
  hq1 : q1.Holds 0 (Dg * man_upsampling_factor d) p1
  hq2 : q2.Holds 0 (Dg * man_upsampling_factor d) p2
  hT : T0 < T1
  heps : eps = (T1 - T0) / (Dg - 1)
  hκ : |κ| = 1

variable {Dg : ℕ} {q1 q2 : Buf ℂ} {p1 p2 : ℕ → ℂ} {T0 T1 eps : ℝ} {κ : ℤ} {d : ManDisc}

theorem ManBaseArgs.eps_pos (h : ManBaseArgs Dg q1 q2 p1 p2 T0 T1 eps κ d) : 0 < eps := by
  rw [h.heps]
  have : (2 : ℝ) ≤ Dg := by exact_mod_cast h.hDg
  exact div_pos (by linarith [h.hT]) (by linarith)

theorem man_base_run (h : ManBaseArgs Dg q1 q2 p1 p2 T0 T1 eps κ d) (nrm : Bool) :
    ∃ deg W tm U, ManTD d eps Dg κ p1 p2 U deg W tm ∧ ∀ (roots : RootFinder) (M : ℕ) (XI : Option (ℝ × ℝ)) (o : ManvOpts) (s : ManvSt),
      o.disc = d → o.nrm = nrm → (s.contspec.isSome → ∃ X, XI = some X ∧ X.1 < X.2) → (s.bs.isSome → s.K ≠ none) →
      man_base roots (Dg * man_upsampling_factor d) q1 q2 T0 T1 M XI κ o s = (do
        let C ← manBaseCont (Dg * man_upsampling_factor d) q1 q2 T0 T1 M XI κ o deg W tm s
        if C.1 ≠ SUCCESS then return C
        manBaseDisc roots eps κ o deg tm C.2) := by
  obtain ⟨deg, W, tm, U, e1, e2⟩ := man_transfer_ok h.hd h.hDg h.hsize h.hq1 h.hq2 h.eps_pos h.hκ nrm
  refine ⟨deg, W, tm, U, e2, fun roots M XI o s ho hn hXI hK => ?_⟩
  subst ho hn
  have hu := man_accepted_up h.hd
  have hN2 : 2 ≤ Dg * man_upsampling_factor o.disc := le_trans h.hDg (Nat.le_mul_of_pos_right _ (by omega))
  unfold man_base
  rw [if_neg (by omega), if_neg (by simpa using h.hT), if_neg (fun hc => hc.2 (hXI hc.1)), if_neg (by simp [h.hκ]),
    if_neg (fun hc => hK hc.1 hc.2)]
  dsimp only
  rw [if_neg hu, Nat.mul_div_cancel _ (Nat.pos_of_ne_zero hu), if_neg (by have := h.hDg; omega), ← h.heps, e1]
  rfl

theorem man_grid_ns {d : ManDisc} {N M : ℕ} {XI0 XI1 : ℝ} (hκ : |κ| = 1) (h : Spec.ManNonsing d κ N M XI0 XI1 p1 p2) :
    (d = .BO ∨ d = .CF4_2) → ∀ i, i < M → ∀ n, n < N → Spec.manTrunc (p1 n) (p2 n) = (0, 0) ∨
      ((Spec.grid XI0 XI1 M i : ℂ) / man_upsampling_factor d) ^ 2 ≠ -κ * ((‖p1 n‖ ^ 2 + ‖p2 n‖ ^ 2 : ℝ) : ℂ) := by
  intro hd i hi n hn
  have hκ' : κ = 1 ∨ κ = -1 := by
    rcases abs_cases κ with ⟨e, -⟩ | ⟨e, -⟩ <;> omega
  rcases hκ' with rfl | rfl
  · by_cases hz : p1 n = 0 ∧ p2 n = 0
    · left
      rw [hz.1, hz.2, Spec.manTrunc]
      split_ifs <;> rfl
    · right
      intro he
      have he' : (Spec.grid XI0 XI1 M i / man_upsampling_factor d) ^ 2 = -(‖p1 n‖ ^ 2 + ‖p2 n‖ ^ 2) := by
        have : (((Spec.grid XI0 XI1 M i / man_upsampling_factor d) ^ 2 : ℝ) : ℂ) = ((-(‖p1 n‖ ^ 2 + ‖p2 n‖ ^ 2) : ℝ) : ℂ) := by
          push_cast
          push_cast at he
          rw [he]; ring
        exact_mod_cast this
      have h1 : 0 < ‖p1 n‖ ^ 2 + ‖p2 n‖ ^ 2 := by
        by_cases hz1 : p1 n = 0
        · have : p2 n ≠ 0 := fun hc => hz ⟨hz1, hc⟩
          have := norm_pos_iff.mpr this
          positivity
        · have := norm_pos_iff.mpr hz1
          positivity
      have h2 := sq_nonneg (Spec.grid XI0 XI1 M i / man_upsampling_factor d)
      linarith
  · rcases h hd rfl i hi n hn with h1 | h1
    · exact Or.inl h1
    · right
      intro he
      apply h1
      have : (((Spec.grid XI0 XI1 M i / man_upsampling_factor d) ^ 2 : ℝ) : ℂ) = ((‖p1 n‖ ^ 2 + ‖p2 n‖ ^ 2 : ℝ) : ℂ) := by
        push_cast
        push_cast at he
        rw [he]; ring
      exact_mod_cast this

/-- Values of `a`, `b1`, `b2` on the grid. -/
noncomputable def manAv (d : ManDisc) (U : ℂ → ℕ → Spec.M3) (N : ℕ) (T0 T1 eps XI0 XI1 : ℝ) (M i : ℕ) : ℂ :=
  Spec.manCoefA d (Spec.chain (U (Spec.grid XI0 XI1 M i)) N) T0 T1 eps (Spec.grid XI0 XI1 M i)
noncomputable def manBv (d : ManDisc) (U : ℂ → ℕ → Spec.M3) (N : ℕ) (T0 T1 eps XI0 XI1 : ℝ) (j : Fin 3) (M i : ℕ) : ℂ :=
  Spec.manCoefB d (Spec.chain (U (Spec.grid XI0 XI1 M i)) N) T0 T1 eps j (Spec.grid XI0 XI1 M i)

theorem manBaseCont_ok {o : ManvOpts} (h : ManBaseArgs Dg q1 q2 p1 p2 T0 T1 eps κ o.disc) {U : ℂ → ℕ → Spec.M3} {deg : ℕ} {W : ℤ}
    {tm : Option (Buf ℂ)} (ht : ManTD o.disc eps Dg κ p1 p2 U deg W tm) {M : ℕ} {XI0 XI1 : ℝ} {c : Buf ℂ}
    (hc : Spec.ManContReq Dg M XI0 XI1 o c)
    (hns : Spec.ManNonsing o.disc κ (Dg * man_upsampling_factor o.disc) M XI0 XI1 p1 p2) (K : Option ℕ) (bs : Option (Buf ℂ)) :
    let N := Dg * man_upsampling_factor o.disc
    ((o.cs = .AB ∨ ∀ i, i < M → manAv o.disc U N T0 T1 eps XI0 XI1 M i ≠ 0) →
      ∃ c', manBaseCont N q1 q2 T0 T1 M (some (XI0, XI1)) κ o deg W tm ⟨some c, K, bs⟩ = some (SUCCESS, ⟨some c', K, bs⟩) ∧
        Spec.ManContWritten o.cs M (manAv o.disc U N T0 T1 eps XI0 XI1 M) (manBv o.disc U N T0 T1 eps XI0 XI1 1 M)
          (manBv o.disc U N T0 T1 eps XI0 XI1 2 M) c c') ∧
    (o.cs ≠ .AB → (∃ i, i < M ∧ manAv o.disc U N T0 T1 eps XI0 XI1 M i = 0) →
      ∃ c', manBaseCont N q1 q2 T0 T1 M (some (XI0, XI1)) κ o deg W tm ⟨some c, K, bs⟩ =
          some (E_SUBROUTINE EC_DIV_BY_ZERO, ⟨some c', K, bs⟩) ∧ c'.len = c.len ∧ ∀ j, 2 * M ≤ j → c'.rd j = c.rd j) := by
  intro N
  obtain ⟨e1, e2⟩ := man_contspec_ok h.hd h.hDg h.hq1 h.hq2 h.hT hc.hM hc.hsz XI0 XI1 h.heps ht (man_grid_ns h.hκ hns) hc.hcs hc.hlen
    (manAv o.disc U N T0 T1 eps XI0 XI1 M) (manBv o.disc U N T0 T1 eps XI0 XI1 1 M) (manBv o.disc U N T0 T1 eps XI0 XI1 2 M)
    (fun _ => rfl) (fun _ => rfl) (fun _ => rfl)
  have hM : M ≠ 0 := by have := hc.hM; omega
  constructor
  · intro h0
    obtain ⟨b, f1, f2⟩ := e1 h0
    refine ⟨b, ?_, f2⟩
    unfold manBaseCont
    dsimp only
    rw [if_neg hM]
    simp only [Option.bind_eq_bind, Option.bind_some]
    rw [f1]; rfl
  · intro h0 h0'
    obtain ⟨b, f1, f2⟩ := e2 h0 h0'
    refine ⟨b, ?_, f2⟩
    unfold manBaseCont
    dsimp only
    rw [if_neg hM]
    simp only [Option.bind_eq_bind, Option.bind_some]
    rw [f1]; rfl

theorem manBaseCont_none {N M : ℕ} {XI : Option (ℝ × ℝ)} {o : ManvOpts} {deg : ℕ} {W : ℤ} {tm : Option (Buf ℂ)} (K : Option ℕ) (bs : Option (Buf ℂ)) :
    manBaseCont N q1 q2 T0 T1 M XI κ o deg W tm ⟨none, K, bs⟩ = some (SUCCESS, ⟨none, K, bs⟩) := rfl

theorem manBaseDisc_none {roots : RootFinder} {o : ManvOpts} {deg : ℕ} {tm : Option (Buf ℂ)} {s : ManvSt} (h : s.bs = none ∨ κ ≠ 1) :
    manBaseDisc roots eps κ o deg tm s = some (SUCCESS, s) := by
  unfold manBaseDisc
  rcases h with h | h
  · rw [h]
  · split
    · rfl
    · rw [if_neg h]

theorem manBaseDisc_contspec {roots : RootFinder} {o : ManvOpts} {deg : ℕ} {tm : Option (Buf ℂ)} {s : ManvSt} {R : ℤ × ManvSt}
    (h : manBaseDisc roots eps κ o deg tm s = some R) : R.2.contspec = s.contspec := by
  unfold manBaseDisc at h
  split at h
  · cases h; rfl
  · split_ifs at h
    · rw [Option.bind_eq_bind, Option.bind_eq_some_iff] at h
      obtain ⟨K0, -, h⟩ := h
      rw [Option.bind_eq_bind, Option.bind_eq_some_iff] at h
      obtain ⟨R', -, h⟩ := h
      cases h; rfl
    · cases h; rfl

/-! ## The main routine -/

variable {D : ℕ} {x1 x2 : ℕ → ℂ} {o : ManvOpts}

/-- Requests for bound states (`kappa = 1`) need `K_ptr` and a discretization with polynomials (or the option `NEWTON`, which is ignored). -/
structure ManReq (κ : ℤ) (o : ManvOpts) (XI : Option (ℝ × ℝ)) (s : ManvSt) : Prop where
  hXI : s.contspec.isSome → ∃ X, XI = some X ∧ X.1 < X.2
  hK : s.bs.isSome → s.K ≠ none
  hloc : κ = 1 → s.bs.isSome → Spec.manSplitting o.disc ≠ [] ∨ o.loc = .NEWTON

theorem manvFast_iff {d : ManDisc} : manvFast d = true ↔ Spec.manSplitting d ≠ [] := by
  cases d <;> simp [manvFast, Spec.manSplitting]

theorem man_pre_full (h : Spec.ManvArgs D q1 q2 x1 x2 T0 T1 κ o) :
    ∃ b1 b2 p1 p2 fl, man_preprocess_signal D (some q1) (some q2) ((T1 - T0) / (D - 1)) D o.disc =
        some ⟨SUCCESS, D, some (b1, b2), fl⟩ ∧
      Spec.ManProcessed o.disc D x1 p1 ∧ Spec.ManProcessed o.disc D x2 p2 ∧
      ManBaseArgs D b1 b2 p1 p2 T0 T1 ((T1 - T0) / (D - 1)) κ o.disc := by
  have hD := h.hD
  have heps : 0 < (T1 - T0) / ((D : ℝ) - 1) := by
    have : (2 : ℝ) ≤ D := by exact_mod_cast hD
    exact div_pos (by linarith [h.hT]) (by linarith)
  have hu := man_accepted_up h.hd
  obtain ⟨Ds, s, g1, g2⟩ := man_pre_ok hD h.hq1 h.hq2 heps D hu
  obtain ⟨rfl, rfl⟩ := g1.2.2.2.2.2 le_rfl
  have hs := h.hsize
  obtain ⟨b1, b2, p1, p2, k1, -, -, k4, k5, k6, k7⟩ := g2 (fun hup => ⟨h.hup hup, by rw [hup] at hs; norm_num; omega⟩)
  simp only [one_mul] at k6 k7
  exact ⟨b1, b2, p1, p2, _, k1, k6, k7, h.hd, hD, hs, k4, k5, h.hT, rfl, h.hκ⟩

theorem manv_not_reject (h : Spec.ManvArgs D q1 q2 x1 x2 T0 T1 κ o) {XI : Option (ℝ × ℝ)} {s : ManvSt} (hr : ManReq κ o XI s) :
    ¬ manvReject D (some q1) (some q2) (some (T0, T1)) XI κ o s := by
  rintro (c | c | c | c | c | c | c | c | c)
  · have := h.hD; omega
  · cases c
  · cases c
  · exact c ⟨_, rfl, h.hT⟩
  · exact c.2 (hr.hXI c.1)
  · exact c h.hκ
  · exact hr.hK c.1 c.2
  · rcases h.hd with h1 | h1 | h1
    · exact c.2.1 h1
    · exact c.2.2 h1
    · rw [← manvFast_iff, c.1] at h1; cases h1
  · rcases hr.hloc c.2.2.1 c.2.2.2 with h1 | h1
    · rw [← manvFast_iff, c.1] at h1; cases h1
    · exact c.2.1 h1

theorem manv_run (h : Spec.ManvArgs D q1 q2 x1 x2 T0 T1 κ o) :
    ∃ b1 b2 p1 p2, Spec.ManProcessed o.disc D x1 p1 ∧ Spec.ManProcessed o.disc D x2 p2 ∧
      ManBaseArgs D b1 b2 p1 p2 T0 T1 ((T1 - T0) / (D - 1)) κ o.disc ∧
      ∀ (roots : RootFinder) (M : ℕ) (XI : Option (ℝ × ℝ)) (s : ManvSt), ManReq κ o XI s →
        fnft_manakovv roots D (some q1) (some q2) (some (T0, T1)) M XI κ o s = (do
          let m ← manvReserve ⟨s, o⟩
          let C ← manvCont roots (D * man_upsampling_factor o.disc) b1 b2 (T0, T1) M XI κ m
          if C.1 ≠ SUCCESS then return (C.1, C.2.st, C.2.opts)
          let F ← manvBound roots D q1 q2 (T0, T1) ((T1 - T0) / (D - 1)) M XI κ C.2
          if F.1 ≠ SUCCESS then return (F.1, F.2.st, F.2.opts)
          let R ← manvRichIf roots D q1 q2 (T0, T1) ((T1 - T0) / (D - 1)) M XI κ o.ds F.2
          return (R.1, R.2.st, R.2.opts)) := by
  obtain ⟨b1, b2, p1, p2, fl, g1, g2, g3, g4⟩ := man_pre_full h
  refine ⟨b1, b2, p1, p2, g2, g3, g4, fun roots M XI s hr => ?_⟩
  have hu := man_accepted_up h.hd
  unfold fnft_manakovv
  rw [if_neg (manv_not_reject h hr), if_neg hu]
  simp only [Option.bind_eq_bind, Option.bind_some, g1]

end FNFT

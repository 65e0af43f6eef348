import Verif.Proofs.ManPre
import Verif.Proofs.NsevCont
import Verif.Props.ManFscatter
import Verif.Props.ManScatter
/-!
# The continuous spectrum of `fnft_manakovv`
-/
namespace FNFT
open Complex

/-! ## The spectral variable -/

theorem manZ_up {d : ManDisc} (hd : man_degree d ≠ 0) (eps : ℝ) (x : ℂ) :
    Spec.manZ d eps (x / man_upsampling_factor d) = if d = .FTES4_suzuki then exp (I * x * eps / 3)
      else exp (2 * I * x * eps / ((man_degree d * man_upsampling_factor d : ℝ) : ℂ)) := by
  rw [Spec.manZ]
  split_ifs with h
  · subst h; simp [man_upsampling_factor]
  · congr 1
    have hu : (man_upsampling_factor d : ℂ) ≠ 0 := by
      cases d <;> simp [man_degree, man_upsampling_factor] at hd ⊢
    have hd' : (man_degree d : ℂ) ≠ 0 := by exact_mod_cast hd
    push_cast
    field_simp

theorem man_up_ne {d : ManDisc} (hd : man_degree d ≠ 0) : man_upsampling_factor d ≠ 0 := by
  cases d <;> simp [man_degree, man_upsampling_factor] at hd ⊢

theorem man_lambda_to_z_ok {d : ManDisc} (hd : man_degree d ≠ 0) {n : ℕ} (eps : ℝ) {vals : Buf ℂ} {v : ℕ → ℂ}
    (hv : vals.Holds 0 n v) :
    ∃ b, man_lambda_to_z n eps vals d = some (SUCCESS, b) ∧ b.len = vals.len ∧
      b.Holds 0 n (fun i => Spec.manZ d eps (v i / man_upsampling_factor d)) ∧ ∀ i, n ≤ i → b.rd i = vals.rd i := by
  have hu := man_up_ne hd
  by_cases h : d = .FTES4_suzuki
  · obtain ⟨b, h1, h2, h3, h4⟩ := map_loop (fun x => exp (I * x * eps / 3)) n vals v hv
    refine ⟨b, ?_, h3, fun i hi => ?_, h4⟩
    · unfold man_lambda_to_z; rw [if_pos h, h1]; rfl
    · rw [h2 i hi]; dsimp only; rw [manZ_up hd, if_pos h]
  · obtain ⟨b, h1, h2, h3, h4⟩ := map_loop (fun x => exp (2 * I * x * eps / ((man_degree d * man_upsampling_factor d : ℝ) : ℂ))) n vals v hv
    refine ⟨b, ?_, h3, fun i hi => ?_, h4⟩
    · unfold man_lambda_to_z; rw [if_neg h, if_neg hu, if_neg hd]; dsimp only; rw [h1]; rfl
    · rw [h2 i hi]; dsimp only; rw [manZ_up hd, if_neg h]

theorem manLambdaToZ1_ok {d : ManDisc} (hd : man_degree d ≠ 0) (eps : ℝ) (x : ℂ) :
    manLambdaToZ1 eps x d = some (SUCCESS, Spec.manZ d eps (x / man_upsampling_factor d)) := by
  obtain ⟨b, e1, e2, e3, -⟩ := man_lambda_to_z_ok hd eps (n := 1) (vals := Buf.ofList [x]) (v := fun _ => x)
    (fun i hi => by rw [Buf.rd_ofList]; have : i = 0 := by omega
                    subst this; rfl)
  have e4 := e3 0 (by omega)
  unfold manLambdaToZ1
  simp only [e1, Option.bind_eq_bind, Option.bind_some]
  rw [Nat.zero_add] at e4
  rw [e4]; rfl

theorem man_chirp_grid {d : ManDisc} (hd : man_degree d ≠ 0) (X0 ex eps : ℝ) (k : ℕ) :
    (Spec.manZ d eps ((-X0 : ℂ) / man_upsampling_factor d))⁻¹ * Spec.manZ d eps ((ex : ℂ) / man_upsampling_factor d) ^ k =
      Spec.manZ d eps (((X0 + ex * k : ℝ) : ℂ) / man_upsampling_factor d) := by
  rw [manZ_up hd, manZ_up hd, manZ_up hd]
  split_ifs with h
  · rw [← exp_neg, ← exp_nat_mul, ← exp_add]
    congr 1
    push_cast
    ring
  · exact chirp_grid X0 ex eps _ k

theorem manZ_ne (d : ManDisc) (eps : ℝ) (x : ℂ) : Spec.manZ d eps x ≠ 0 := by
  rw [Spec.manZ]; split_ifs <;> exact exp_ne_zero _

theorem manContFast_ok {d : ManDisc} (hd : man_degree d ≠ 0) {n M : ℕ}
    {tm : Buf ℂ} {y : ℕ → ℂ} (hy : tm.Holds 0 (9 * (n + 1)) y) (hM : 1 ≤ M) (hs : n + M < 3 ^ 32) (eps X0 ex : ℝ) :
    ∃ H, manContFast n tm eps X0 ex M d = some (.ok H) ∧
      H.1.Holds 0 M (fun k => (Spec.pmat 3 n (n + 1) 0 y 0 0).eval
        (Spec.manZ d eps (((X0 + ex * k : ℝ) : ℂ) / man_upsampling_factor d))) ∧
      H.2.1.Holds 0 M (fun k => (Spec.pmat 3 n (n + 1) 0 y 1 0).eval
        (Spec.manZ d eps (((X0 + ex * k : ℝ) : ℂ) / man_upsampling_factor d))) ∧
      H.2.2.Holds 0 M (fun k => (Spec.pmat 3 n (n + 1) 0 y 2 0).eval
        (Spec.manZ d eps (((X0 + ex * k : ℝ) : ℂ) / man_upsampling_factor d))) := by
  have hA := manLambdaToZ1_ok hd eps (-X0 : ℂ)
  have hV := manLambdaToZ1_ok hd eps (ex : ℂ)
  obtain ⟨A, hAd⟩ : ∃ A, A = Spec.manZ d eps ((-X0 : ℂ) / man_upsampling_factor d) := ⟨_, rfl⟩
  obtain ⟨V, hVd⟩ : ∃ V, V = Spec.manZ d eps ((ex : ℂ) / man_upsampling_factor d) := ⟨_, rfl⟩
  have hg := fun k => man_chirp_grid hd X0 ex eps k
  rw [← hAd] at hA
  rw [← hVd] at hV
  simp only [← hAd, ← hVd] at hg
  have hA0 : A ≠ 0 := by rw [hAd]; exact manZ_ne _ _ _
  have hV0 : V ≠ 0 := by rw [hVd]; exact manZ_ne _ _ _
  have hview : ∀ o, o ≤ 8 → (tm.view (o * (n + 1))).Holds 0 (n + 1) (fun j => y (o * (n + 1) + j)) := by
    intro o ho i hi
    rw [rd_view, Nat.zero_add]
    have := hy (o * (n + 1) + i) (by nlinarith)
    rwa [Nat.zero_add] at this
  obtain ⟨H1, e1, -, f1, -⟩ := C13_chirpz n M tm (Buf.malloc M) (fun j => y j) A V
    (fun i hi => by rw [hy i (by omega)]) hM (by simp) hA0 hV0 hs
  obtain ⟨H2, e2, -, f2, -⟩ := C13_chirpz n M (tm.view (3 * (n + 1))) (Buf.malloc M) _ A V
    (hview 3 (by omega)) hM (by simp) hA0 hV0 hs
  obtain ⟨H3, e3, -, f3, -⟩ := C13_chirpz n M (tm.view (6 * (n + 1))) (Buf.malloc M) _ A V
    (hview 6 (by omega)) hM (by simp) hA0 hV0 hs
  refine ⟨(H1, H2, H3), ?_, ?_, ?_, ?_⟩
  · unfold manContFast
    simp only [hA, hV, Option.bind_eq_bind, Option.bind_some, ne_eq, not_true_eq_false, if_false, manChirp3, chirpzChk, e1, e2, e3]
    rfl
  · intro k hk
    rw [f1 k hk]
    dsimp only
    rw [hg k]
    simp [Spec.pmat]
  · intro k hk
    rw [f2 k hk]
    dsimp only
    rw [hg k]
    simp [Spec.pmat]
  · intro k hk
    rw [f3 k hk]
    dsimp only
    rw [hg k]
    simp [Spec.pmat]

/-! ## Phase factors -/

/-- Phase of the polynomials of all samples. -/
noncomputable def manPc (d : ManDisc) (eps : ℝ) (Dg : ℕ) : ℝ := if man_degree d = 0 then 0 else -eps * Dg * Spec.manPhase d

theorem man_phase_a_ok {d : ManDisc} (hu : man_upsampling_factor d ≠ 0) (eps : ℝ) (Dg : ℕ) (T0 T1 : ℝ) :
    man_phase_factor_a eps Dg T0 T1 d = .ok (manPc d eps Dg + Spec.manTR d T1 eps - Spec.manTL d T0 eps) := by
  cases d <;> simp [man_upsampling_factor] at hu <;>
    simp [man_phase_factor_a, manPc, Spec.manTR, Spec.manTL, man_upsampling_factor, man_degree, Spec.manPhase] <;>
    ring

theorem man_phase_b_ok {d : ManDisc} (hu : man_upsampling_factor d ≠ 0) (eps : ℝ) (Dg : ℕ) (T0 T1 : ℝ) :
    man_phase_factor_b eps Dg T0 T1 d = .ok (manPc d eps Dg - Spec.manTR d T1 eps - Spec.manTL d T0 eps) := by
  cases d <;> simp [man_upsampling_factor] at hu <;>
    simp [man_phase_factor_b, manPc, Spec.manTR, Spec.manTL, man_upsampling_factor, man_degree, Spec.manPhase] <;>
    ring

theorem man_phase_rho_ok {d : ManDisc} (hu : man_upsampling_factor d ≠ 0) (eps : ℝ) (T1 : ℝ) :
    man_phase_factor_rho eps T1 d = .ok (-2 * Spec.manTR d T1 eps) := by
  cases d <;> simp [man_upsampling_factor] at hu <;>
    simp only [man_phase_factor_rho, Spec.manTR, man_upsampling_factor] <;>
    norm_num <;> ring_nf

/-! ## The loops -/

theorem man_rho_loop {M : ℕ} {xi result : Buf ℂ} {H : Man3} {x h1 h2 h3 : ℕ → ℂ} (ph : ℝ) (hx : xi.Holds 0 M x)
    (hh1 : H.1.Holds 0 M h1) (hh2 : H.2.1.Holds 0 M h2) (hh3 : H.2.2.Holds 0 M h3) (hr : 2 * M ≤ result.len)
    (h0 : ∀ i, i < M → h1 i ≠ 0) :
    ∃ b, forLoop M (manRhoBody M xi H ph) (false, result) = some (false, b) ∧ b.len = result.len ∧
      ∀ j, b.rd j = if j < M then some (h2 j * exp (I * x j * ph) / h1 j) else
        if j < 2 * M then some (h3 (j - M) * exp (I * x (j - M) * ph) / h1 (j - M)) else result.rd j := by
  have key := forLoop_inv (n := M) (body := manRhoBody M xi H ph) (s := (false, result))
    (fun k s => s.1 = false ∧ s.2.len = result.len ∧
      ∀ j, s.2.rd j = if j < k then some (h2 j * exp (I * x j * ph) / h1 j) else
        if M ≤ j ∧ j < M + k then some (h3 (j - M) * exp (I * x (j - M) * ph) / h1 (j - M)) else result.rd j) ?_ ?_
  · obtain ⟨⟨f, b⟩, e, e1, e2, e3⟩ := key
    dsimp only at e1; subst e1
    refine ⟨b, e, e2, fun j => ?_⟩
    rw [e3 j]
    split_ifs <;> first | rfl | omega
  · exact ⟨rfl, rfl, fun j => by rw [if_neg (by omega), if_neg (by omega)]⟩
  · rintro i ⟨f, b⟩ hi ⟨e1, e2, e3⟩
    dsimp only at e1 e2 e3
    subst e1
    have a1 := hh1 i hi; have a2 := hh2 i hi; have a3 := hx i hi; have a4 := hh3 i hi
    rw [Nat.zero_add] at a1 a2 a3 a4
    refine ⟨(false, (b.set i (h2 i * exp (I * x i * ph) / h1 i)).set (M + i) (h3 i * exp (I * x i * ph) / h1 i)), ?_, rfl,
      by simpa using e2, ?_⟩
    · simp only [manRhoBody, a1, a2, a3, a4, Option.bind_eq_bind, Option.bind_some, Bool.false_eq_true, if_false,
        if_neg (h0 i hi), Buf.wr_eq _ (show i < b.len by omega)]
      rw [Buf.wr_eq _ (by simp; omega)]; rfl
    · intro j
      show ((b.set i _).set (M + i) _).rd j = _
      rw [Buf.rd_set _ (by simp; omega), Buf.rd_set _ (by omega), e3 j]
      by_cases c1 : j = M + i
      · rw [if_pos c1, if_neg (by omega), if_pos (by omega), show j - M = i by omega]
      · by_cases c2 : j = i
        · rw [if_neg c1, if_pos c2, if_pos (by omega), c2]
        · rw [if_neg c1, if_neg c2]
          split_ifs <;> first | omega | rfl

theorem man_rho_loop_zero {M : ℕ} {xi result : Buf ℂ} {H : Man3} {x h1 h2 h3 : ℕ → ℂ} (ph : ℝ) (hx : xi.Holds 0 M x)
    (hh1 : H.1.Holds 0 M h1) (hh2 : H.2.1.Holds 0 M h2) (hh3 : H.2.2.Holds 0 M h3) (hr : 2 * M ≤ result.len)
    (h0 : ∃ i, i < M ∧ h1 i = 0) :
    ∃ b, forLoop M (manRhoBody M xi H ph) (false, result) = some (true, b) ∧ b.len = result.len ∧
      ∀ j, 2 * M ≤ j → b.rd j = result.rd j := by
  have key := forLoop_inv (n := M) (body := manRhoBody M xi H ph) (s := (false, result))
    (fun k s => (s.1 = true ↔ ∃ i, i < k ∧ h1 i = 0) ∧ s.2.len = result.len ∧ ∀ j, 2 * M ≤ j → s.2.rd j = result.rd j) ?_ ?_
  · obtain ⟨⟨f, b⟩, e, e1, e2, e3⟩ := key
    have : f = true := e1.mpr h0
    subst this
    exact ⟨b, e, e2, e3⟩
  · exact ⟨by simp, rfl, fun j _ => rfl⟩
  · rintro i ⟨f, b⟩ hi ⟨e1, e2, e3⟩
    dsimp only at e1 e2 e3
    cases f with
    | true =>
      refine ⟨(true, b), by simp [manRhoBody], ?_, e2, e3⟩
      obtain ⟨k, hk, hk'⟩ := e1.mp rfl
      exact ⟨fun _ => ⟨k, by omega, hk'⟩, fun _ => rfl⟩
    | false =>
      have a1 := hh1 i hi; have a2 := hh2 i hi; have a3 := hx i hi; have a4 := hh3 i hi
      rw [Nat.zero_add] at a1 a2 a3 a4
      by_cases hz : h1 i = 0
      · refine ⟨(true, b), ?_, ⟨fun _ => ⟨i, by omega, hz⟩, fun _ => rfl⟩, e2, e3⟩
        simp [manRhoBody, a1, hz]
      · refine ⟨(false, (b.set i (h2 i * exp (I * x i * ph) / h1 i)).set (M + i) (h3 i * exp (I * x i * ph) / h1 i)), ?_, ?_,
          by simpa using e2, ?_⟩
        · simp only [manRhoBody, a1, a2, a3, a4, Option.bind_eq_bind, Option.bind_some, Bool.false_eq_true, if_false,
            if_neg hz, Buf.wr_eq _ (show i < b.len by omega)]
          rw [Buf.wr_eq _ (by simp; omega)]; rfl
        · constructor
          · intro hc; cases hc
          · rintro ⟨k, hk, hk'⟩
            have : ¬ ∃ i', i' < i ∧ h1 i' = 0 := fun hc => by simpa using e1.mpr hc
            by_cases hki : k = i
            · subst hki; exact absurd hk' hz
            · exact absurd ⟨k, by omega, hk'⟩ this
        · intro j hj
          show ((b.set i _).set (M + i) _).rd j = _
          rw [Buf.rd_set _ (by simp; omega), Buf.rd_set _ (by omega), if_neg (by omega), if_neg (by omega), e3 j hj]

theorem man_ab_loop {M off : ℕ} {xi result : Buf ℂ} {H : Man3} {x h1 h2 h3 : ℕ → ℂ} (sc : ℂ) (pa pb : ℝ) (hx : xi.Holds 0 M x)
    (hh1 : H.1.Holds 0 M h1) (hh2 : H.2.1.Holds 0 M h2) (hh3 : H.2.2.Holds 0 M h3) (hr : off + 3 * M ≤ result.len) :
    ∃ b, forLoop M (manABBody off M sc xi H pa pb) result = some b ∧ b.len = result.len ∧
      ∀ j, b.rd j = if off ≤ j ∧ j < off + M then some (h1 (j - off) * sc * exp (I * x (j - off) * pa))
        else if off + M ≤ j ∧ j < off + 2 * M then some (h2 (j - off - M) * sc * exp (I * x (j - off - M) * pb))
        else if off + 2 * M ≤ j ∧ j < off + 3 * M then some (h3 (j - off - 2 * M) * sc * exp (I * x (j - off - 2 * M) * pb))
        else result.rd j := by
  have key := forLoop_inv (n := M) (body := manABBody off M sc xi H pa pb) (s := result)
    (fun k b => b.len = result.len ∧
      ∀ j, b.rd j = if off ≤ j ∧ j < off + k then some (h1 (j - off) * sc * exp (I * x (j - off) * pa))
        else if off + M ≤ j ∧ j < off + M + k then some (h2 (j - off - M) * sc * exp (I * x (j - off - M) * pb))
        else if off + 2 * M ≤ j ∧ j < off + 2 * M + k then some (h3 (j - off - 2 * M) * sc * exp (I * x (j - off - 2 * M) * pb))
        else result.rd j) ?_ ?_
  · obtain ⟨b, e, e2, e3⟩ := key
    refine ⟨b, e, e2, fun j => ?_⟩
    rw [e3 j, show off + M + M = off + 2 * M by ring, show off + 2 * M + M = off + 3 * M by ring]
  · exact ⟨rfl, fun j => by rw [if_neg (by omega), if_neg (by omega), if_neg (by omega)]⟩
  · rintro i b hi ⟨e2, e3⟩
    have a1 := hh1 i hi; have a2 := hh2 i hi; have a3 := hx i hi; have a4 := hh3 i hi
    rw [Nat.zero_add] at a1 a2 a3 a4
    refine ⟨((b.set (off + i) (h1 i * sc * exp (I * x i * pa))).set (off + M + i) (h2 i * sc * exp (I * x i * pb))).set
      (off + 2 * M + i) (h3 i * sc * exp (I * x i * pb)), ?_, by simpa using e2, ?_⟩
    · simp only [manABBody, a1, a2, a3, a4, Option.bind_eq_bind, Option.bind_some]
      rw [Buf.wr_eq _ (show off + i < b.len by omega), Option.bind_some, Buf.wr_eq _ (by simp; omega), Option.bind_some,
        Buf.wr_eq _ (by simp; omega)]
    · intro j
      rw [Buf.rd_set _ (by simp; omega), Buf.rd_set _ (by simp; omega), Buf.rd_set _ (by omega), e3 j]
      by_cases c0 : j = off + 2 * M + i
      · rw [if_pos c0, if_neg (by omega), if_neg (by omega), if_pos (by omega), show j - off - 2 * M = i by omega]
      by_cases c1 : j = off + M + i
      · rw [if_neg c0, if_pos c1, if_neg (by omega), if_pos (by omega), show j - off - M = i by omega]
      · by_cases c2 : j = off + i
        · rw [if_neg c0, if_neg c1, if_pos c2, if_pos (by omega), c2, Nat.add_sub_cancel_left]
        · rw [if_neg c0, if_neg c1, if_neg c2]
          split_ifs <;> first | omega | rfl

/-! ## The switch -/

/-- Values stored for `a`. -/
noncomputable def manVA (W : ℤ) (d : ManDisc) (eps : ℝ) (Dg : ℕ) (T0 T1 : ℝ) (x h : ℕ → ℂ) (i : ℕ) : ℂ :=
  h i * 2 ^ W * exp (I * x i * (manPc d eps Dg + Spec.manTR d T1 eps - Spec.manTL d T0 eps : ℝ))
/-- Values stored for `b1`, `b2`. -/
noncomputable def manVB (W : ℤ) (d : ManDisc) (eps : ℝ) (Dg : ℕ) (T0 T1 : ℝ) (x h : ℕ → ℂ) (i : ℕ) : ℂ :=
  h i * 2 ^ W * exp (I * x i * (manPc d eps Dg - Spec.manTR d T1 eps - Spec.manTL d T0 eps : ℝ))

theorem manVA_ne {W : ℤ} {d : ManDisc} {eps : ℝ} {Dg : ℕ} {T0 T1 : ℝ} {x h : ℕ → ℂ} {i : ℕ} :
    manVA W d eps Dg T0 T1 x h i = 0 ↔ h i = 0 := by
  unfold manVA
  have : (2 : ℂ) ^ W ≠ 0 := zpow_ne_zero _ two_ne_zero
  simp [exp_ne_zero, this]

theorem man_rho_eq {W : ℤ} {d : ManDisc} {eps : ℝ} {Dg : ℕ} {T0 T1 : ℝ} {x h1 h2 : ℕ → ℂ} {i : ℕ} (h0 : h1 i ≠ 0) :
    h2 i * exp (I * x i * (-2 * Spec.manTR d T1 eps : ℝ)) / h1 i =
      manVB W d eps Dg T0 T1 x h2 i / manVA W d eps Dg T0 T1 x h1 i := by
  unfold manVA manVB
  have h2w : (2 : ℂ) ^ W ≠ 0 := zpow_ne_zero _ two_ne_zero
  have he : exp (I * x i * (manPc d eps Dg - Spec.manTR d T1 eps - Spec.manTL d T0 eps : ℝ)) =
      exp (I * x i * (-2 * Spec.manTR d T1 eps : ℝ)) *
        exp (I * x i * (manPc d eps Dg + Spec.manTR d T1 eps - Spec.manTL d T0 eps : ℝ)) := by
    rw [← exp_add]; congr 1; push_cast; ring
  rw [he]
  have := exp_ne (I * x i * (manPc d eps Dg + Spec.manTR d T1 eps - Spec.manTL d T0 eps : ℝ))
  field_simp

theorem manContSwitch_ok {cs : CsType} (hcs : ∀ n, cs ≠ .other n) {d : ManDisc} (hu : man_upsampling_factor d ≠ 0) (eps : ℝ) (Dg : ℕ)
    (T0 T1 : ℝ) (W : ℤ) {M : ℕ} {xi result : Buf ℂ} {H : Man3} {x h1 h2 h3 : ℕ → ℂ} (hx : xi.Holds 0 M x)
    (hh1 : H.1.Holds 0 M h1) (hh2 : H.2.1.Holds 0 M h2) (hh3 : H.2.2.Holds 0 M h3) (hr : Spec.manCsLen M cs ≤ result.len)
    (h0 : cs = .AB ∨ ∀ i, i < M → h1 i ≠ 0) :
    ∃ b, manContSwitch cs eps Dg T0 T1 W M xi H result d = some (SUCCESS, b) ∧
      Spec.ManContWritten cs M (manVA W d eps Dg T0 T1 x h1) (manVB W d eps Dg T0 T1 x h2) (manVB W d eps Dg T0 T1 x h3) result b := by
  have rho : ∀ res : Buf ℂ, 2 * M ≤ res.len → (∀ i, i < M → h1 i ≠ 0) →
      ∃ b, manRho eps T1 M xi H res d = some (SUCCESS, b) ∧ b.len = res.len ∧
        ∀ j, b.rd j = if j < M then some (manVB W d eps Dg T0 T1 x h2 j / manVA W d eps Dg T0 T1 x h1 j) else
          if j < 2 * M then some (manVB W d eps Dg T0 T1 x h3 (j - M) / manVA W d eps Dg T0 T1 x h1 (j - M)) else res.rd j := by
    intro res hl hn
    obtain ⟨b, e1, e2, e3⟩ := man_rho_loop (-2 * Spec.manTR d T1 eps) hx hh1 hh2 hh3 hl hn
    refine ⟨b, ?_, e2, fun j => ?_⟩
    · unfold manRho
      rw [man_phase_rho_ok hu]
      simp only [e1, Option.bind_eq_bind, Option.bind_some]; rfl
    · rw [e3 j]
      split_ifs with hj hj'
      · rw [man_rho_eq (hn j hj)]
      · rw [man_rho_eq (hn (j - M) (by omega))]
      · rfl
  have ab : ∀ (off : ℕ) (res : Buf ℂ), off + 3 * M ≤ res.len →
      ∃ b, manAB eps Dg T0 T1 W off M xi H res d = some (SUCCESS, b) ∧ b.len = res.len ∧
        ∀ j, b.rd j = if off ≤ j ∧ j < off + M then some (manVA W d eps Dg T0 T1 x h1 (j - off))
        else if off + M ≤ j ∧ j < off + 2 * M then some (manVB W d eps Dg T0 T1 x h2 (j - off - M))
        else if off + 2 * M ≤ j ∧ j < off + 3 * M then some (manVB W d eps Dg T0 T1 x h3 (j - off - 2 * M)) else res.rd j := by
    intro off res hl
    obtain ⟨b, e1, e2, e3⟩ := man_ab_loop (2 ^ W) (manPc d eps Dg + Spec.manTR d T1 eps - Spec.manTL d T0 eps)
      (manPc d eps Dg - Spec.manTR d T1 eps - Spec.manTL d T0 eps) hx hh1 hh2 hh3 hl
    refine ⟨b, ?_, e2, fun j => by rw [e3 j]; rfl⟩
    unfold manAB
    rw [man_phase_a_ok hu, man_phase_b_ok hu]
    simp only [e1, Option.bind_eq_bind, Option.bind_some]; rfl
  rcases cs with _ | _ | _ | n
  · simp only [Spec.ManContWritten, Spec.manCsLen] at hr ⊢
    obtain ⟨b, e1, e2, e3⟩ := rho result hr (by simpa using h0)
    refine ⟨b, e1, e2, fun i hi => ?_, fun j hj => by rw [e3 j, if_neg (by omega), if_neg (by omega)]⟩
    rw [Nat.zero_add, e3 i]
    simp only [Spec.manCsOut]
    split_ifs <;> rfl
  · simp only [Spec.ManContWritten, Spec.manCsLen] at hr ⊢
    obtain ⟨b, e1, e2, e3⟩ := ab 0 result (by omega)
    refine ⟨b, e1, e2, fun i hi => ?_, fun j hj => by rw [e3 j, if_neg (by omega), if_neg (by omega), if_neg (by omega)]⟩
    rw [Nat.zero_add, e3 i]
    simp only [Spec.manCsOut, Nat.sub_zero, Nat.zero_add, Nat.zero_le, true_and]
    by_cases hiM : i < M
    · rw [if_pos hiM, if_pos hiM]
    · rw [if_neg hiM, if_neg hiM]
      by_cases hiM2 : i < 2 * M
      · rw [if_pos (by omega), if_pos hiM2]
      · rw [if_neg (by omega), if_pos (by omega), if_neg hiM2]
  · simp only [Spec.ManContWritten, Spec.manCsLen] at hr ⊢
    obtain ⟨b, e1, e2, e3⟩ := rho result (by omega) (by simpa using h0)
    obtain ⟨b', f1, f2, f3⟩ := ab (2 * M) b (by omega)
    refine ⟨b', ?_, by omega, fun i hi => ?_, fun j hj => by
      rw [f3 j, if_neg (by omega), if_neg (by omega), if_neg (by omega), e3 j, if_neg (by omega), if_neg (by omega)]⟩
    · simp only [manContSwitch, e1, Option.bind_eq_bind, Option.bind_some, ne_eq, not_true_eq_false, if_false, f1]
    · rw [Nat.zero_add, f3 i, e3 i]
      simp only [Spec.manCsOut]
      by_cases c0 : i < 2 * M
      · rw [if_neg (by omega), if_neg (by omega), if_neg (by omega), if_pos c0, if_pos c0]
        split_ifs <;> rfl
      · simp only [if_neg c0]
        by_cases c1 : i - 2 * M < M
        · rw [if_pos (by omega), if_pos c1]
        · rw [if_neg (by omega), if_neg c1]
          by_cases c2 : i - 2 * M < 2 * M
          · rw [if_pos (by omega), if_pos c2]
          · rw [if_neg (by omega), if_pos (by omega), if_neg c2]
  · exact absurd rfl (hcs n)

theorem manContSwitch_div {cs : CsType} (hcs : cs = .REFLECTION_COEFFICIENT ∨ cs = .BOTH) {d : ManDisc}
    (hu : man_upsampling_factor d ≠ 0)
    (eps : ℝ) (Dg : ℕ) (T0 T1 : ℝ) (W : ℤ) {M : ℕ} {xi result : Buf ℂ} {H : Man3} {x h1 h2 h3 : ℕ → ℂ} (hx : xi.Holds 0 M x)
    (hh1 : H.1.Holds 0 M h1) (hh2 : H.2.1.Holds 0 M h2) (hh3 : H.2.2.Holds 0 M h3) (hr : Spec.manCsLen M cs ≤ result.len)
    (h0 : ∃ i, i < M ∧ h1 i = 0) :
    ∃ b, manContSwitch cs eps Dg T0 T1 W M xi H result d = some (EC_DIV_BY_ZERO, b) ∧ b.len = result.len ∧
      ∀ j, 2 * M ≤ j → b.rd j = result.rd j := by
  have hM : 2 * M ≤ result.len := by
    rcases hcs with rfl | rfl <;> simp only [Spec.manCsLen] at hr <;> omega
  obtain ⟨b, e1, e2, e3⟩ := man_rho_loop_zero (-2 * Spec.manTR d T1 eps) hx hh1 hh2 hh3 hM h0
  have hrho : manRho eps T1 M xi H result d = some (EC_DIV_BY_ZERO, b) := by
    unfold manRho
    rw [man_phase_rho_ok hu]
    simp only [e1, Option.bind_eq_bind, Option.bind_some]; rfl
  refine ⟨b, ?_, e2, e3⟩
  rcases hcs with rfl | rfl
  · exact hrho
  · simp only [manContSwitch, hrho, Option.bind_eq_bind, Option.bind_some]
    rw [if_pos (by decide)]; rfl

/-! ## The transfer matrix -/

theorem man_accepted_up {d : ManDisc} (hd : Spec.manAccepted d) : man_upsampling_factor d ≠ 0 := by
  cases d <;> simp [Spec.manAccepted, man_upsampling_factor, Spec.manSplitting] at hd ⊢

/-- What the transfer matrix tells about the steps `U`. -/
structure ManTM (d : ManDisc) (eps : ℝ) (Dg : ℕ) (U : ℂ → ℕ → Spec.M3) (deg : ℕ) (W : ℤ) (b : Buf ℂ) (y : ℕ → ℂ) : Prop where
  fast : Spec.manSplitting d ≠ []
  deg0 : man_degree d ≠ 0
  degEq : deg = Dg * man_upsampling_factor d * man_degree d
  holds : b.Holds 0 (9 * (deg + 1)) y
  val : ∀ lam (j : Fin 3), (Spec.pmat 3 deg (deg + 1) 0 y j 0).eval (Spec.manZ d eps (lam / man_upsampling_factor d)) * 2 ^ W *
    exp (I * lam * manPc d eps Dg) = Spec.chain (U lam) (Dg * man_upsampling_factor d) j 0

theorem man_fast_deg {d : ManDisc} (hd : Spec.manSplitting d ≠ []) : man_degree d ≠ 0 := by
  cases d <;> simp [man_degree, Spec.manSplitting] at hd ⊢

theorem man_transfer_ok {d : ManDisc} (hd : Spec.manAccepted d) {Dg : ℕ} (hDg : 2 ≤ Dg)
    (hD' : Dg * man_upsampling_factor d ≤ 2147483647) {q1 q2 : Buf ℂ} {p1 p2 : ℕ → ℂ}
    (hq1 : q1.Holds 0 (Dg * man_upsampling_factor d) p1) (hq2 : q2.Holds 0 (Dg * man_upsampling_factor d) p2)
    {eps : ℝ} (heps : 0 < eps) {κ : ℤ} (hκ : |κ| = 1) (nrm : Bool) :
    ∃ deg W tm U, manTransfer (Dg * man_upsampling_factor d) q1 q2 κ eps nrm d = some (.ok (deg, W, tm)) ∧
      Spec.ManSteps d κ eps (Dg * man_upsampling_factor d) p1 p2 U ∧
      (((d = .BO ∨ d = .CF4_2) ∧ deg = 0 ∧ W = 0 ∧ tm = none) ∨ ∃ b y, tm = some b ∧ ManTM d eps Dg U deg W b y) := by
  by_cases hs : d = .BO ∨ d = .CF4_2
  · refine ⟨0, 0, none, fun lam n => Spec.manStep κ eps (lam / man_upsampling_factor d) (p1 n) (p2 n), ?_, ?_, Or.inl ⟨hs, rfl, rfl, rfl⟩⟩
    · rcases hs with rfl | rfl <;> simp [manTransfer, man_fscatter_numel, man_degree]
    · rw [Spec.ManSteps, if_pos hs]; intro _ _; rfl
  · have hf : Spec.manSplitting d ≠ [] := by
      rcases hd with h | h | h
      · exact absurd (Or.inl h) hs
      · exact absurd (Or.inr h) hs
      · exact h
    have hu := man_accepted_up hd
    have hdeg := man_fast_deg hf
    obtain ⟨N, hN⟩ : ∃ N, N = Dg * man_upsampling_factor d := ⟨_, rfl⟩
    have hN2 : 2 ≤ N := by rw [hN]; exact le_trans hDg (Nat.le_mul_of_pos_right _ (by omega))
    obtain ⟨k, hk, -, -⟩ := nextpow2_spec N (by omega) (by omega)
    have hL : man_fscatter_numel N d = some (9 * (man_degree d + 1) * 2 ^ k) := by
      simp [man_fscatter_numel, hdeg, poly_fmult_numel, hk]
    rw [← hN] at hq1 hq2 hD' ⊢
    obtain ⟨R, g1, g2, g3, -, -, y, g6, -, EB, EL, ER, k1, k2, k3, k4⟩ := C53_man_fscatter d hf N hN2 hD' κ hκ q1 q2 p1 p2
      hq1 hq2 eps heps (Buf.malloc (9 * (man_degree d + 1) * 2 ^ k)) _ hL (by simp) 0 (if nrm then some 0 else none)
    refine ⟨R.deg, R.W, some R.result, fun lam n => EL n * Spec.combine3 (Spec.manSplitting d)
      (fun w => NormedSpace.exp ((w : ℂ) • ((eps : ℂ) • Spec.manA (lam / man_upsampling_factor d)))) (EB n) * ER n, ?_, ?_,
      Or.inr ⟨_, y, rfl, hf, hdeg, by rw [g3, hN], by rw [g3]; exact g6, fun lam j => ?_⟩⟩
    · unfold manTransfer
      simp only [hL, Option.bind_eq_bind, Option.bind_some]
      rw [if_neg (by positivity), g1, Option.bind_some, g2, Option.bind_some, if_neg (by simp)]; rfl
    · rw [Spec.ManSteps, if_neg hs]
      exact ⟨EB, EL, ER, k1, k2, k3, fun _ _ => rfl⟩
    · have e := congrFun (congrFun (k4 (lam / man_upsampling_factor d)) j) 0
      have hp : exp (-I * (lam / man_upsampling_factor d) * eps * Spec.manPhase d) ^ N = exp (I * lam * manPc d eps Dg) := by
        rw [← exp_nat_mul, manPc, if_neg hdeg, hN]
        congr 1
        have : (man_upsampling_factor d : ℂ) ≠ 0 := by exact_mod_cast hu
        push_cast
        field_simp
      rw [hp] at e
      rw [← hN, g3]
      refine Eq.trans ?_ e
      simp only [Matrix.smul_apply, Matrix.map_apply, smul_eq_mul]
      ring

/-! ## The values of the continuous spectrum -/

theorem man_coefA_eq (d : ManDisc) (S : Spec.M3) (T0 T1 h : ℝ) (x : ℂ) :
    Spec.manCoefA d S T0 T1 h x = S 0 0 * exp (I * x * (Spec.manTR d T1 h - Spec.manTL d T0 h : ℝ)) := by
  rw [Spec.manCoefA, Spec.manPhi]
  simp only [Matrix.mulVec, dotProduct, Fin.sum_univ_three]
  simp
  rw [mul_assoc, ← exp_add]
  congr 2
  ring

theorem man_coefB_eq (d : ManDisc) (S : Spec.M3) (T0 T1 h : ℝ) (j : Fin 3) (x : ℂ) :
    Spec.manCoefB d S T0 T1 h j x = S j 0 * exp (I * x * (-Spec.manTR d T1 h - Spec.manTL d T0 h : ℝ)) := by
  rw [Spec.manCoefB, Spec.manPhi]
  simp only [Matrix.mulVec, dotProduct, Fin.sum_univ_three]
  simp
  rw [mul_assoc, ← exp_add]
  congr 2
  ring

/-- What `man_transfer_ok` delivers. -/
def ManTD (d : ManDisc) (eps : ℝ) (Dg : ℕ) (κ : ℤ) (p1 p2 : ℕ → ℂ) (U : ℂ → ℕ → Spec.M3) (deg : ℕ) (W : ℤ) (tm : Option (Buf ℂ)) : Prop :=
  Spec.ManSteps d κ eps (Dg * man_upsampling_factor d) p1 p2 U ∧
    (((d = .BO ∨ d = .CF4_2) ∧ deg = 0 ∧ W = 0 ∧ tm = none) ∨ ∃ b y, tm = some b ∧ ManTM d eps Dg U deg W b y)

theorem manCopy_loop {M : ℕ} {coef : Buf ℂ} {c1 c2 c3 : ℕ → ℂ}
    (h1 : ∀ i, i < M → coef.rd (i * 9) = some (c1 i)) (h2 : ∀ i, i < M → coef.rd (i * 9 + 3) = some (c2 i))
    (h3 : ∀ i, i < M → coef.rd (i * 9 + 6) = some (c3 i)) :
    ∃ H, forLoop M (manCopyBody coef) (Buf.malloc M, Buf.malloc M, Buf.malloc M) = some H ∧ H.1.Holds 0 M c1 ∧
      H.2.1.Holds 0 M c2 ∧ H.2.2.Holds 0 M c3 := by
  have key := forLoop_inv (n := M) (body := manCopyBody coef) (s := ((Buf.malloc M, Buf.malloc M, Buf.malloc M) : Man3))
    (fun k H => H.1.len = M ∧ H.2.1.len = M ∧ H.2.2.len = M ∧ H.1.Holds 0 k c1 ∧ H.2.1.Holds 0 k c2 ∧ H.2.2.Holds 0 k c3) ?_ ?_
  · obtain ⟨H, e, -, -, -, e3, e4, e5⟩ := key
    exact ⟨H, e, e3, e4, e5⟩
  · exact ⟨rfl, rfl, rfl, fun i hi => by omega, fun i hi => by omega, fun i hi => by omega⟩
  · rintro i ⟨A, B, C⟩ hi ⟨l1, l2, l3, g1, g2, g3⟩
    dsimp only at l1 l2 l3 g1 g2 g3
    have step : ∀ (A : Buf ℂ) (c : ℕ → ℂ), A.len = M → A.Holds 0 i c → (A.set i (c i)).Holds 0 (i + 1) c := by
      intro A c hl hA j hj
      rw [Nat.zero_add, Buf.rd_set _ (by omega)]
      split_ifs with hji
      · rw [hji]
      · have := hA j (by omega); rwa [Nat.zero_add] at this
    refine ⟨(A.set i (c1 i), B.set i (c2 i), C.set i (c3 i)), ?_, by simpa using l1, by simpa using l2, by simpa using l3,
      step _ _ l1 g1, step _ _ l2 g2, step _ _ l3 g3⟩
    simp only [manCopyBody, h1 i hi, h2 i hi, h3 i hi, Option.bind_eq_bind, Option.bind_some,
      Buf.wr_eq _ (show i < A.len by omega), Buf.wr_eq _ (show i < B.len by omega), Buf.wr_eq _ (show i < C.len by omega)]; rfl

theorem man_cont_values {d : ManDisc} (hd : Spec.manAccepted d) {Dg : ℕ} (hDg : 2 ≤ Dg)
    {q1 q2 : Buf ℂ} {p1 p2 : ℕ → ℂ}
    (hq1 : q1.Holds 0 (Dg * man_upsampling_factor d) p1) (hq2 : q2.Holds 0 (Dg * man_upsampling_factor d) p2)
    {eps : ℝ} (heps : 0 < eps) {κ : ℤ} {M : ℕ} (hM : 2 ≤ M) (hsz : Dg * man_upsampling_factor d * man_degree d + M < 3 ^ 32)
    {U : ℂ → ℕ → Spec.M3} {deg : ℕ} {W : ℤ} {tm : Option (Buf ℂ)} (ht : ManTD d eps Dg κ p1 p2 U deg W tm) (X0 ex : ℝ) {xi : Buf ℂ}
    (hx : xi.Holds 0 M (fun i => ((X0 + ex * i : ℝ) : ℂ)))
    (hns : (d = .BO ∨ d = .CF4_2) → ∀ i, i < M → ∀ n, n < Dg * man_upsampling_factor d → Spec.manTrunc (p1 n) (p2 n) = (0, 0) ∨
      (((X0 + ex * i : ℝ) : ℂ) / man_upsampling_factor d) ^ 2 ≠ -κ * ((‖p1 n‖ ^ 2 + ‖p2 n‖ ^ 2 : ℝ) : ℂ)) (T0 T1 : ℝ) :
    ∃ H h1 h2 h3,
      manContH deg W tm q1 q2 eps (Dg * man_upsampling_factor d) X0 ex M xi κ d = some (.ok H) ∧
      H.1.Holds 0 M h1 ∧ H.2.1.Holds 0 M h2 ∧ H.2.2.Holds 0 M h3 ∧
      ∀ i, i < M →
        manVA W d eps Dg T0 T1 (fun i => ((X0 + ex * i : ℝ) : ℂ)) h1 i =
          Spec.manCoefA d (Spec.chain (U ((X0 + ex * i : ℝ) : ℂ)) (Dg * man_upsampling_factor d)) T0 T1 eps ((X0 + ex * i : ℝ) : ℂ) ∧
        manVB W d eps Dg T0 T1 (fun i => ((X0 + ex * i : ℝ) : ℂ)) h2 i =
          Spec.manCoefB d (Spec.chain (U ((X0 + ex * i : ℝ) : ℂ)) (Dg * man_upsampling_factor d)) T0 T1 eps 1 ((X0 + ex * i : ℝ) : ℂ) ∧
        manVB W d eps Dg T0 T1 (fun i => ((X0 + ex * i : ℝ) : ℂ)) h3 i =
          Spec.manCoefB d (Spec.chain (U ((X0 + ex * i : ℝ) : ℂ)) (Dg * man_upsampling_factor d)) T0 T1 eps 2 ((X0 + ex * i : ℝ) : ℂ) := by
  have hu := man_accepted_up hd
  have hN2 : 2 ≤ Dg * man_upsampling_factor d := le_trans hDg (Nat.le_mul_of_pos_right _ (by omega))
  obtain ⟨hst, h | ⟨b, y, rfl, h⟩⟩ := ht
  · obtain ⟨hs, rfl, rfl, rfl⟩ := h
    obtain ⟨coef, c1, -, -, c4⟩ := C54_man_scatter d hs _ (by omega) M (by omega) κ q1 q2 xi p1 p2 _ hq1 hq2 hx eps heps
      (hns hs) (Buf.malloc (9 * M)) (by simp)
    rw [Spec.ManSteps, if_pos hs] at hst
    have hU : ∀ lam, U lam = fun n => Spec.manStep κ eps (lam / man_upsampling_factor d) (p1 n) (p2 n) :=
      fun lam => funext fun n => hst lam n
    have hdeg : man_degree d = 0 := by rcases hs with rfl | rfl <;> rfl
    obtain ⟨H, e1, e2, e3, e4⟩ := manCopy_loop (M := M) (coef := coef)
      (c1 := fun i => Spec.chain (U ((X0 + ex * i : ℝ) : ℂ)) (Dg * man_upsampling_factor d) 0 0)
      (c2 := fun i => Spec.chain (U ((X0 + ex * i : ℝ) : ℂ)) (Dg * man_upsampling_factor d) 1 0)
      (c3 := fun i => Spec.chain (U ((X0 + ex * i : ℝ) : ℂ)) (Dg * man_upsampling_factor d) 2 0)
      (fun i hi => by rw [hU, ← c4 i hi 0 0]; congr 1; simp; ring)
      (fun i hi => by rw [hU, ← c4 i hi 1 0]; congr 1; simp; ring)
      (fun i hi => by rw [hU, ← c4 i hi 2 0]; congr 1; simp; ring)
    refine ⟨H, _, _, _, ?_, e2, e3, e4, fun i hi => ?_⟩
    · simp only [manContH, and_self, if_true, manContSlow, c1, Option.bind_eq_bind, Option.bind_some]
      rw [if_neg (by simp), e1]; rfl
    · rw [man_coefA_eq, man_coefB_eq, man_coefB_eq]
      unfold manVA manVB
      rw [manPc, if_pos hdeg, zpow_zero]
      simp only [mul_one, zero_add, zero_sub, and_self]
  · obtain ⟨H, e1, e2, e3, e4⟩ := manContFast_ok h.deg0 h.holds (by omega) (by rw [h.degEq]; exact hsz) eps X0 ex (M := M)
    refine ⟨H, _, _, _, e1, e2, e3, e4, fun i hi => ?_⟩
    rw [man_coefA_eq, man_coefB_eq, man_coefB_eq, ← h.val, ← h.val, ← h.val]
    unfold manVA manVB
    dsimp only
    have pa : exp (I * ((X0 + ex * i : ℝ) : ℂ) * (manPc d eps Dg + Spec.manTR d T1 eps - Spec.manTL d T0 eps : ℝ)) =
        exp (I * ((X0 + ex * i : ℝ) : ℂ) * manPc d eps Dg) *
          exp (I * ((X0 + ex * i : ℝ) : ℂ) * (Spec.manTR d T1 eps - Spec.manTL d T0 eps : ℝ)) := by
      rw [← exp_add]; congr 1; push_cast; ring
    have pb : exp (I * ((X0 + ex * i : ℝ) : ℂ) * (manPc d eps Dg - Spec.manTR d T1 eps - Spec.manTL d T0 eps : ℝ)) =
        exp (I * ((X0 + ex * i : ℝ) : ℂ) * manPc d eps Dg) *
          exp (I * ((X0 + ex * i : ℝ) : ℂ) * (-Spec.manTR d T1 eps - Spec.manTL d T0 eps : ℝ)) := by
      rw [← exp_add]; congr 1; push_cast; ring
    rw [pa, pb]
    refine ⟨by ring, by ring, by ring⟩

/-- `manakovv_compute_contspec` after `manTransfer`. -/
theorem man_contspec_ok {d : ManDisc} (hd : Spec.manAccepted d) {Dg : ℕ} (hDg : 2 ≤ Dg)
    {q1 q2 : Buf ℂ} {p1 p2 : ℕ → ℂ}
    (hq1 : q1.Holds 0 (Dg * man_upsampling_factor d) p1) (hq2 : q2.Holds 0 (Dg * man_upsampling_factor d) p2)
    {T0 T1 : ℝ} (hT : T0 < T1) {κ : ℤ} {M : ℕ} (hM : 2 ≤ M) (hsz : Dg * man_upsampling_factor d * man_degree d + M < 3 ^ 32)
    (XI0 XI1 : ℝ) {eps : ℝ} (heps : eps = (T1 - T0) / (Dg - 1))
    {U : ℂ → ℕ → Spec.M3} {deg : ℕ} {W : ℤ} {tm : Option (Buf ℂ)} (ht : ManTD d eps Dg κ p1 p2 U deg W tm)
    (hns : (d = .BO ∨ d = .CF4_2) → ∀ i, i < M → ∀ n, n < Dg * man_upsampling_factor d → Spec.manTrunc (p1 n) (p2 n) = (0, 0) ∨
      ((Spec.grid XI0 XI1 M i : ℂ) / man_upsampling_factor d) ^ 2 ≠ -κ * ((‖p1 n‖ ^ 2 + ‖p2 n‖ ^ 2 : ℝ) : ℂ))
    {cs : CsType} (hcs : ∀ n, cs ≠ .other n)
    {result : Buf ℂ} (hres : Spec.manCsLen M cs ≤ result.len) :
    ∀ av bv1 bv2 : ℕ → ℂ,
        (∀ i, av i = Spec.manCoefA d (Spec.chain (U (Spec.grid XI0 XI1 M i)) (Dg * man_upsampling_factor d)) T0 T1 eps (Spec.grid XI0 XI1 M i)) →
        (∀ i, bv1 i = Spec.manCoefB d (Spec.chain (U (Spec.grid XI0 XI1 M i)) (Dg * man_upsampling_factor d)) T0 T1 eps 1 (Spec.grid XI0 XI1 M i)) →
        (∀ i, bv2 i = Spec.manCoefB d (Spec.chain (U (Spec.grid XI0 XI1 M i)) (Dg * man_upsampling_factor d)) T0 T1 eps 2 (Spec.grid XI0 XI1 M i)) →
        ((cs = .AB ∨ ∀ i, i < M → av i ≠ 0) →
          ∃ b, man_compute_contspec deg W tm q1 q2 T0 T1 (Dg * man_upsampling_factor d) XI0 XI1 M result κ cs d = some (SUCCESS, b) ∧
            Spec.ManContWritten cs M av bv1 bv2 result b) ∧
        (cs ≠ .AB → (∃ i, i < M ∧ av i = 0) →
          ∃ b, man_compute_contspec deg W tm q1 q2 T0 T1 (Dg * man_upsampling_factor d) XI0 XI1 M result κ cs d =
            some (EC_DIV_BY_ZERO, b) ∧ b.len = result.len ∧ ∀ j, 2 * M ≤ j → b.rd j = result.rd j) := by
  have hu := man_accepted_up hd
  have hdiv : Dg * man_upsampling_factor d / man_upsampling_factor d = Dg := Nat.mul_div_cancel _ (Nat.pos_of_ne_zero hu)
  have hpos : 0 < eps := by
    rw [heps]
    have : (2 : ℝ) ≤ Dg := by exact_mod_cast hDg
    exact div_pos (by linarith) (by linarith)
  obtain ⟨xi, x1, x2, x3⟩ := fill_spec (off := 0) (cnt := M) (b := (Buf.malloc M : Buf ℂ))
    (f := fun i => some ((XI0 + (XI1 - XI0) / (M - 1) * i : ℝ) : ℂ)) (fun i => ((XI0 + (XI1 - XI0) / (M - 1) * i : ℝ) : ℂ))
    (fun i _ _ => rfl) (Or.inl (by simp))
  have hx : xi.Holds 0 M (fun i => ((XI0 + (XI1 - XI0) / (M - 1) * i : ℝ) : ℂ)) := by
    intro i hi
    rw [x3, if_pos ⟨by omega, by omega⟩, Nat.zero_add]
  have hgrid : ∀ i, ((Spec.grid XI0 XI1 M i : ℝ) : ℂ) = ((XI0 + (XI1 - XI0) / (M - 1) * i : ℝ) : ℂ) := by
    intro i; rw [Spec.grid, mul_comm]
  obtain ⟨H, h1, h2, h3, e3, e4, e5, e5', e6⟩ := man_cont_values hd hDg hq1 hq2 hpos hM hsz ht
    XI0 ((XI1 - XI0) / (M - 1)) hx (fun hs i hi n hn => by rw [← hgrid]; exact hns hs i hi n hn) T0 T1
  intro av bv1 bv2 hav hbv1 hbv2
  have ea : ∀ i, i < M → manVA W d eps Dg T0 T1 (fun i => ((XI0 + (XI1 - XI0) / (M - 1) * i : ℝ) : ℂ)) h1 i = av i := by
    intro i hi; rw [hav, hgrid]; exact (e6 i hi).1
  have eb1 : ∀ i, i < M → manVB W d eps Dg T0 T1 (fun i => ((XI0 + (XI1 - XI0) / (M - 1) * i : ℝ) : ℂ)) h2 i = bv1 i := by
    intro i hi; rw [hbv1, hgrid]; exact (e6 i hi).2.1
  have eb2 : ∀ i, i < M → manVB W d eps Dg T0 T1 (fun i => ((XI0 + (XI1 - XI0) / (M - 1) * i : ℝ) : ℂ)) h3 i = bv2 i := by
    intro i hi; rw [hbv2, hgrid]; exact (e6 i hi).2.2
  have hzero : ∀ i, i < M → (h1 i = 0 ↔ av i = 0) := by
    intro i hi; rw [← ea i hi]; exact manVA_ne.symm
  have hrun : man_compute_contspec deg W tm q1 q2 T0 T1 (Dg * man_upsampling_factor d) XI0 XI1 M result κ cs d =
      manContSwitch cs eps Dg T0 T1 W M xi H result d := by
    unfold man_compute_contspec
    dsimp only
    rw [if_neg hu, hdiv, if_neg (by omega), ← heps]
    simp only [x1, e3, Option.bind_eq_bind, Option.bind_some]
  rw [hrun]
  constructor
  · intro h0
    obtain ⟨b, f1, f2, f3, f4⟩ := manContSwitch_ok hcs hu eps Dg T0 T1 W hx e4 e5 e5' hres
      (h0.imp_right fun h i hi => fun hc => h i hi ((hzero i hi).mp hc))
    refine ⟨b, f1, f2, fun i hi => ?_, f4⟩
    rw [f3 i hi]
    congr 1
    rcases cs with _ | _ | _ | n
    · simp only [Spec.manCsLen, Spec.manCsOut] at hi ⊢
      split_ifs with c1
      · rw [ea i c1, eb1 i c1]
      · rw [ea _ (by omega), eb2 _ (by omega)]
    · simp only [Spec.manCsLen, Spec.manCsOut] at hi ⊢
      split_ifs with c1 c2
      · rw [ea i c1]
      · rw [eb1 _ (by omega)]
      · rw [eb2 _ (by omega)]
    · simp only [Spec.manCsLen, Spec.manCsOut] at hi ⊢
      split_ifs with c0 c1 c1 c2
      · rw [ea i c1, eb1 i c1]
      · rw [ea _ (by omega), eb2 _ (by omega)]
      · rw [ea _ c1]
      · rw [eb1 _ (by omega)]
      · rw [eb2 _ (by omega)]
    · exact absurd rfl (hcs n)
  · rintro hne ⟨i, hi, hi0⟩
    refine manContSwitch_div ?_ hu eps Dg T0 T1 W hx e4 e5 e5' hres ⟨i, hi, (hzero i hi).mpr hi0⟩
    rcases cs with _ | _ | _ | n
    · exact Or.inl rfl
    · exact absurd rfl hne
    · exact Or.inr rfl
    · exact absurd rfl (hcs n)

end FNFT

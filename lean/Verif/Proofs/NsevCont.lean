import Verif.Model.NsevCont
import Verif.Spec.NseCont
import Verif.Props.PolyChirpz
import Verif.Props.AknsFscatter
import Verif.Props.AknsScatter
import Verif.Props.NseDisc
/-!
# Proofs about the continuous spectrum of the NSE
-/
namespace FNFT
open Complex

/-! ## Output format -/

/-- Number of cells written for the kinds of continuous spectra, in units of `M`. -/
def Spec.csLen : CsType → ℕ
  | .REFLECTION_COEFFICIENT => 1
  | .AB => 2
  | .BOTH => 3
  | .other _ => 0

/-- Documented order of the values (fnft_nsev.h): reflection coefficient `b/a`, and/or `a` followed by `b`. -/
noncomputable def Spec.csOut (cs : CsType) (M : ℕ) (a b : ℕ → ℂ) (i : ℕ) : ℂ :=
  match cs with
  | .REFLECTION_COEFFICIENT => b i / a i
  | .AB => if i < M then a i else b (i - M)
  | .BOTH => if i < M then b i / a i else if i < 2 * M then a (i - M) else b (i - 2 * M)
  | .other _ => 0

/-! ## Phases -/

/-- Shift of the phase of `b` for the methods whose transfer matrix is expressed in a shifted basis. -/
noncomputable def phB (d : NseDisc) (eps : ℝ) : ℝ := if d = .D2SPLIT2A ∨ d = .D2SPLIT2_MODAL then eps else 0

/-- Phase of the polynomial methods. -/
noncomputable def phC (d : NseDisc) (eps : ℝ) (D : ℕ) : ℝ := if nse_degree d = 0 then 0 else -eps * D

theorem phase_a {d : NseDisc} (hd : ∀ n, d ≠ .other n) (eps : ℝ) (D : ℕ) (T0 T1 : ℝ) :
    nse_phase_factor_a eps D T0 T1 d =
      (SUCCESS, some (some (phC d eps D + (T1 + eps * (1 / 2)) - (T0 - eps * (1 / 2))))) := by
  cases d <;> first
    | exact absurd rfl (hd _)
    | simp [nse_phase_factor_a, nse_boundary_coeff, nse_to_akns, akns_boundary_coeff, phC, nse_degree, akns_degree]

theorem phase_b {d : NseDisc} (hd : ∀ n, d ≠ .other n) (eps : ℝ) (D : ℕ) (T0 T1 : ℝ) :
    nse_phase_factor_b eps D T0 T1 d =
      (SUCCESS, some (some (phC d eps D - (T1 + eps * (1 / 2)) - (T0 - eps * (1 / 2)) + phB d eps))) := by
  cases d <;> first
    | exact absurd rfl (hd _)
    | simp [nse_phase_factor_b, nse_boundary_coeff, nse_to_akns, akns_boundary_coeff, phC, phB, nse_degree, akns_degree]

theorem phase_rho {d : NseDisc} (hd : ∀ n, d ≠ .other n) (eps : ℝ) (T1 : ℝ) :
    nse_phase_factor_rho eps T1 d =
      (SUCCESS, some (some (-2 * (T1 + eps * (1 / 2)) + phB d eps))) := by
  cases d <;> first
    | exact absurd rfl (hd _)
    | simp [nse_phase_factor_rho, nse_boundary_coeff, nse_to_akns, akns_boundary_coeff, phB, nse_degree, akns_degree]

/-! ## The switch -/

theorem rho_loop {M : ℕ} {xi H11 H21 result : Buf ℂ} {x h1 h2 : ℕ → ℂ} (ph : ℝ) (hx : xi.Holds 0 M x)
    (hh1 : H11.Holds 0 M h1) (hh2 : H21.Holds 0 M h2) (hr : M ≤ result.len) (h0 : ∀ i, i < M → h1 i ≠ 0) :
    ∃ b, forLoop M (contRhoBody xi H11 H21 ph) (false, result) = some (false, b) ∧ b.len = result.len ∧
      ∀ j, b.rd j = if j < M then some (h2 j * exp (I * x j * ph) / h1 j) else result.rd j := by
  have key := forLoop_inv (n := M) (body := contRhoBody xi H11 H21 ph) (s := (false, result))
    (fun k s => s.1 = false ∧ s.2.len = result.len ∧
      ∀ j, s.2.rd j = if j < k then some (h2 j * exp (I * x j * ph) / h1 j) else result.rd j) ?_ ?_
  · obtain ⟨⟨f, b⟩, e, e1, e2, e3⟩ := key
    dsimp only at e1; subst e1
    exact ⟨b, e, e2, e3⟩
  · exact ⟨rfl, rfl, fun j => by rw [if_neg (by omega)]⟩
  · rintro i ⟨f, b⟩ hi ⟨e1, e2, e3⟩
    dsimp only at e1 e2 e3
    subst e1
    have a1 := hh1 i hi; have a2 := hh2 i hi; have a3 := hx i hi
    rw [Nat.zero_add] at a1 a2 a3
    refine ⟨(false, b.set i (h2 i * exp (I * x i * ph) / h1 i)), ?_, rfl, by simpa using e2, ?_⟩
    · simp only [contRhoBody, a1, a2, a3, Option.bind_eq_bind, Option.bind_some, Bool.false_eq_true, if_false,
        if_neg (h0 i hi), Buf.wr_eq _ (show i < b.len by omega)]; rfl
    · intro j
      show (b.set i _).rd j = _
      rw [Buf.rd_set _ (by omega), e3 j]
      split_ifs with c1 c2 c2 c3 c3
      · rw [c1]
      all_goals first | omega | rfl

theorem rho_loop_zero {M : ℕ} {xi H11 H21 result : Buf ℂ} {x h1 h2 : ℕ → ℂ} (ph : ℝ) (hx : xi.Holds 0 M x)
    (hh1 : H11.Holds 0 M h1) (hh2 : H21.Holds 0 M h2) (hr : M ≤ result.len) (h0 : ∃ i, i < M ∧ h1 i = 0) :
    ∃ b, forLoop M (contRhoBody xi H11 H21 ph) (false, result) = some (true, b) ∧ b.len = result.len ∧
      ∀ j, M ≤ j → b.rd j = result.rd j := by
  have key := forLoop_inv (n := M) (body := contRhoBody xi H11 H21 ph) (s := (false, result))
    (fun k s => (s.1 = true ↔ ∃ i, i < k ∧ h1 i = 0) ∧ s.2.len = result.len ∧ ∀ j, M ≤ j → s.2.rd j = result.rd j) ?_ ?_
  · obtain ⟨⟨f, b⟩, e, e1, e2, e3⟩ := key
    have : f = true := e1.mpr h0
    subst this
    exact ⟨b, e, e2, e3⟩
  · exact ⟨by simp, rfl, fun j _ => rfl⟩
  · rintro i ⟨f, b⟩ hi ⟨e1, e2, e3⟩
    dsimp only at e1 e2 e3
    cases f with
    | true =>
      refine ⟨(true, b), by simp [contRhoBody], ?_, e2, e3⟩
      obtain ⟨k, hk, hk'⟩ := e1.mp rfl
      exact ⟨fun _ => ⟨k, by omega, hk'⟩, fun _ => rfl⟩
    | false =>
      have a1 := hh1 i hi; have a2 := hh2 i hi; have a3 := hx i hi
      rw [Nat.zero_add] at a1 a2 a3
      by_cases hz : h1 i = 0
      · refine ⟨(true, b), ?_, ⟨fun _ => ⟨i, by omega, hz⟩, fun _ => rfl⟩, e2, e3⟩
        simp [contRhoBody, a1, hz]
      · refine ⟨(false, b.set i (h2 i * exp (I * x i * ph) / h1 i)), ?_, ?_, by simpa using e2, ?_⟩
        · simp only [contRhoBody, a1, a2, a3, Option.bind_eq_bind, Option.bind_some, Bool.false_eq_true, if_false,
            if_neg hz, Buf.wr_eq _ (show i < b.len by omega)]; rfl
        · constructor
          · intro hc; cases hc
          · rintro ⟨k, hk, hk'⟩
            have : ¬ ∃ i', i' < i ∧ h1 i' = 0 := fun hc => by simpa using e1.mpr hc
            by_cases hki : k = i
            · subst hki; exact absurd hk' hz
            · exact absurd ⟨k, by omega, hk'⟩ this
        · intro j hj
          show (b.set i _).rd j = _
          rw [Buf.rd_set _ (by omega), if_neg (by omega), e3 j hj]

theorem ab_loop {M off : ℕ} {xi H11 H21 result : Buf ℂ} {x h1 h2 : ℕ → ℂ} (sc : ℂ) (pa pb : ℝ) (hx : xi.Holds 0 M x)
    (hh1 : H11.Holds 0 M h1) (hh2 : H21.Holds 0 M h2) (hr : off + 2 * M ≤ result.len) :
    ∃ b, forLoop M (contABBody off M sc xi H11 H21 pa pb) result = some b ∧ b.len = result.len ∧
      ∀ j, b.rd j = if off ≤ j ∧ j < off + M then some (h1 (j - off) * sc * exp (I * x (j - off) * pa))
        else if off + M ≤ j ∧ j < off + 2 * M then
          some (h2 (j - off - M) * sc * exp (I * x (j - off - M) * pb)) else result.rd j := by
  have key := forLoop_inv (n := M) (body := contABBody off M sc xi H11 H21 pa pb) (s := result)
    (fun k b => b.len = result.len ∧
      ∀ j, b.rd j = if off ≤ j ∧ j < off + k then some (h1 (j - off) * sc * exp (I * x (j - off) * pa))
        else if off + M ≤ j ∧ j < off + M + k then
          some (h2 (j - off - M) * sc * exp (I * x (j - off - M) * pb)) else result.rd j) ?_ ?_
  · obtain ⟨b, e, e2, e3⟩ := key
    refine ⟨b, e, e2, fun j => ?_⟩
    rw [e3 j, show off + M + M = off + 2 * M by ring]
  · exact ⟨rfl, fun j => by rw [if_neg (by omega), if_neg (by omega)]⟩
  · rintro i b hi ⟨e2, e3⟩
    have a1 := hh1 i hi; have a2 := hh2 i hi; have a3 := hx i hi
    rw [Nat.zero_add] at a1 a2 a3
    refine ⟨(b.set (off + i) (h1 i * sc * exp (I * x i * pa))).set (off + M + i) (h2 i * sc * exp (I * x i * pb)), ?_,
      by simpa using e2, ?_⟩
    · simp only [contABBody, a1, a2, a3, Option.bind_eq_bind, Option.bind_some]
      rw [Buf.wr_eq _ (show off + i < b.len by omega), Option.bind_some, Buf.wr_eq _ (by simp; omega)]
    · intro j
      rw [Buf.rd_set _ (by simp; omega), Buf.rd_set _ (by omega), e3 j]
      by_cases c1 : j = off + M + i
      · rw [if_pos c1, if_neg (by omega), if_pos (by omega)]
        rw [show j - off - M = i by omega]
      · by_cases c2 : j = off + i
        · rw [if_neg c1, if_pos c2, if_pos (by omega), c2, Nat.add_sub_cancel_left]
        · rw [if_neg c1, if_neg c2]
          split_ifs <;> first | omega | rfl

theorem exp_ne (z : ℂ) : exp z ≠ 0 := exp_ne_zero z

/-- Values stored for `a` and `b`. -/
noncomputable def valA (W : ℤ) (d : NseDisc) (eps : ℝ) (Dg : ℕ) (T0 T1 : ℝ) (x h : ℕ → ℂ) (i : ℕ) : ℂ :=
  h i * 2 ^ W * exp (I * x i * (phC d eps Dg + (T1 + eps * (1 / 2)) - (T0 - eps * (1 / 2)) : ℝ))
noncomputable def valB (W : ℤ) (d : NseDisc) (eps : ℝ) (Dg : ℕ) (T0 T1 : ℝ) (x h : ℕ → ℂ) (i : ℕ) : ℂ :=
  h i * 2 ^ W * exp (I * x i * (phC d eps Dg - (T1 + eps * (1 / 2)) - (T0 - eps * (1 / 2)) + phB d eps : ℝ))

theorem valA_ne {W : ℤ} {d : NseDisc} {eps : ℝ} {Dg : ℕ} {T0 T1 : ℝ} {x h : ℕ → ℂ} {i : ℕ} :
    valA W d eps Dg T0 T1 x h i = 0 ↔ h i = 0 := by
  unfold valA
  have : (2 : ℂ) ^ W ≠ 0 := zpow_ne_zero _ two_ne_zero
  simp [exp_ne_zero, this]

theorem val_rho {W : ℤ} {d : NseDisc} {eps : ℝ} {Dg : ℕ} {T0 T1 : ℝ} {x h1 h2 : ℕ → ℂ} {i : ℕ} (h0 : h1 i ≠ 0) :
    h2 i * exp (I * x i * (-2 * (T1 + eps * (1 / 2)) + phB d eps : ℝ)) / h1 i =
      valB W d eps Dg T0 T1 x h2 i / valA W d eps Dg T0 T1 x h1 i := by
  unfold valA valB
  have h2w : (2 : ℂ) ^ W ≠ 0 := zpow_ne_zero _ two_ne_zero
  have he : exp (I * x i * (phC d eps Dg - (T1 + eps * (1 / 2)) - (T0 - eps * (1 / 2)) + phB d eps : ℝ)) =
      exp (I * x i * (-2 * (T1 + eps * (1 / 2)) + phB d eps : ℝ)) *
        exp (I * x i * (phC d eps Dg + (T1 + eps * (1 / 2)) - (T0 - eps * (1 / 2)) : ℝ)) := by
    rw [← exp_add]; congr 1; push_cast; ring
  rw [he]
  have := exp_ne (I * x i * (phC d eps Dg + (T1 + eps * (1 / 2)) - (T0 - eps * (1 / 2)) : ℝ))
  field_simp

theorem contSwitch_ok {cs : CsType} (hcs : ∀ n, cs ≠ .other n) {d : NseDisc} (hd : ∀ n, d ≠ .other n) (eps : ℝ) (Dg : ℕ)
    (T0 T1 : ℝ) (W : ℤ) {M : ℕ} {xi H11 H21 result : Buf ℂ} {x h1 h2 : ℕ → ℂ} (hx : xi.Holds 0 M x)
    (hh1 : H11.Holds 0 M h1) (hh2 : H21.Holds 0 M h2) (hr : Spec.csLen cs * M ≤ result.len)
    (h0 : cs = .AB ∨ ∀ i, i < M → h1 i ≠ 0) :
    ∃ b, contSwitch cs eps Dg T0 T1 W M xi H11 H21 result d = some (SUCCESS, b) ∧ b.len = result.len ∧
      b.Holds 0 (Spec.csLen cs * M) (Spec.csOut cs M (valA W d eps Dg T0 T1 x h1) (valB W d eps Dg T0 T1 x h2)) ∧
      ∀ j, Spec.csLen cs * M ≤ j → b.rd j = result.rd j := by
  have rho : ∀ res : Buf ℂ, M ≤ res.len → (∀ i, i < M → h1 i ≠ 0) →
      ∃ b, contRho eps T1 M xi H11 H21 res d = some (SUCCESS, b) ∧ b.len = res.len ∧
        ∀ j, b.rd j = if j < M then some (valB W d eps Dg T0 T1 x h2 j / valA W d eps Dg T0 T1 x h1 j) else res.rd j := by
    intro res hl hn
    obtain ⟨b, e1, e2, e3⟩ := rho_loop (-2 * (T1 + eps * (1 / 2)) + phB d eps) hx hh1 hh2 hl hn
    refine ⟨b, ?_, e2, fun j => ?_⟩
    · unfold contRho
      rw [phase_rho hd]
      simp only [ne_eq, not_true_eq_false, if_false, e1, Option.bind_eq_bind, Option.bind_some]; rfl
    · rw [e3 j]
      split_ifs with hj
      · rw [val_rho (hn j hj)]
      · rfl
  have ab : ∀ (off : ℕ) (res : Buf ℂ), off + 2 * M ≤ res.len →
      ∃ b, contAB eps Dg T0 T1 W off M xi H11 H21 res d = some (SUCCESS, b) ∧ b.len = res.len ∧
        ∀ j, b.rd j = if off ≤ j ∧ j < off + M then some (valA W d eps Dg T0 T1 x h1 (j - off))
        else if off + M ≤ j ∧ j < off + 2 * M then some (valB W d eps Dg T0 T1 x h2 (j - off - M)) else res.rd j := by
    intro off res hl
    obtain ⟨b, e1, e2, e3⟩ := ab_loop (2 ^ W) (phC d eps Dg + (T1 + eps * (1 / 2)) - (T0 - eps * (1 / 2)))
      (phC d eps Dg - (T1 + eps * (1 / 2)) - (T0 - eps * (1 / 2)) + phB d eps) hx hh1 hh2 hl
    refine ⟨b, ?_, e2, fun j => by rw [e3 j]; rfl⟩
    unfold contAB
    rw [phase_a hd, phase_b hd]
    simp only [ne_eq, not_true_eq_false, if_false, e1, Option.bind_eq_bind, Option.bind_some]; rfl
  rcases cs with _ | _ | _ | n
  · simp only [Spec.csLen, Nat.one_mul] at hr ⊢
    obtain ⟨b, e1, e2, e3⟩ := rho result hr (by simpa using h0)
    refine ⟨b, e1, e2, fun i hi => ?_, fun j hj => by rw [e3 j, if_neg (by omega)]⟩
    rw [Nat.zero_add, e3 i, if_pos hi]; rfl
  · simp only [Spec.csLen] at hr ⊢
    obtain ⟨b, e1, e2, e3⟩ := ab 0 result (by omega)
    refine ⟨b, e1, e2, fun i hi => ?_, fun j hj => by rw [e3 j, if_neg (by omega), if_neg (by omega)]⟩
    rw [Nat.zero_add, e3 i, Spec.csOut]
    by_cases hiM : i < M
    · rw [if_pos (by omega), if_pos hiM, Nat.sub_zero]
    · rw [if_neg (by omega), if_pos (by omega), if_neg hiM, Nat.sub_zero]
  · simp only [Spec.csLen] at hr ⊢
    obtain ⟨b, e1, e2, e3⟩ := rho result (by omega) (by simpa using h0)
    obtain ⟨b', f1, f2, f3⟩ := ab M b (by omega)
    refine ⟨b', ?_, by omega, fun i hi => ?_, fun j hj => by rw [f3 j, if_neg (by omega), if_neg (by omega), e3 j, if_neg (by omega)]⟩
    · simp only [contSwitch, e1, Option.bind_eq_bind, Option.bind_some, ne_eq, not_true_eq_false, if_false, f1]
    · rw [Nat.zero_add, f3 i, e3 i, Spec.csOut]
      by_cases hiM : i < M
      · rw [if_neg (by omega), if_neg (by omega), if_pos hiM, if_pos hiM]
      · by_cases hiM2 : i < 2 * M
        · rw [if_pos (by omega), if_neg hiM, if_pos hiM2]
        · rw [if_neg (by omega), if_pos (by omega), if_neg hiM, if_neg hiM2]
          congr 2; omega
  · exact absurd rfl (hcs n)

theorem contSwitch_div {cs : CsType} (hcs : cs = .REFLECTION_COEFFICIENT ∨ cs = .BOTH) {d : NseDisc} (hd : ∀ n, d ≠ .other n)
    (eps : ℝ) (Dg : ℕ) (T0 T1 : ℝ) (W : ℤ) {M : ℕ} {xi H11 H21 result : Buf ℂ} {x h1 h2 : ℕ → ℂ} (hx : xi.Holds 0 M x)
    (hh1 : H11.Holds 0 M h1) (hh2 : H21.Holds 0 M h2) (hr : Spec.csLen cs * M ≤ result.len)
    (h0 : ∃ i, i < M ∧ h1 i = 0) :
    ∃ b, contSwitch cs eps Dg T0 T1 W M xi H11 H21 result d = some (EC_DIV_BY_ZERO, b) ∧ b.len = result.len ∧
      ∀ j, M ≤ j → b.rd j = result.rd j := by
  have hM : M ≤ result.len := by
    rcases hcs with rfl | rfl <;> simp only [Spec.csLen] at hr <;> omega
  obtain ⟨b, e1, e2, e3⟩ := rho_loop_zero (-2 * (T1 + eps * (1 / 2)) + phB d eps) hx hh1 hh2 hM h0
  have hrho : contRho eps T1 M xi H11 H21 result d = some (EC_DIV_BY_ZERO, b) := by
    unfold contRho
    rw [phase_rho hd]
    simp only [ne_eq, not_true_eq_false, if_false, e1, Option.bind_eq_bind, Option.bind_some]; rfl
  refine ⟨b, ?_, e2, e3⟩
  rcases hcs with rfl | rfl
  · exact hrho
  · simp only [contSwitch, hrho, Option.bind_eq_bind, Option.bind_some]
    rw [if_pos (by decide)]; rfl

/-! ## The matrix elements -/

/-- One step of the discretizations of the NSE (`a` is the AKNS discretization): the matrix that advances
a solution of the AKNS system by one sample.
* slow methods: `Spec.slowStep`, with an approximation `E` of the matrix exponential (`Spec.NearExp`);
* splitting methods: the splitting of `exp(A+B)` with exact factors `exp(wA)` and accurate factors `EB n w`
  in place of `exp(w B_n)`;
* Ablowitz-Ladik: `exp(A/2) (1+B)/sqrt(1-QR) exp(A/2)`, with the square root in the right half plane. -/
def Spec.NseSteps (a : AknsDisc) (eps : ℝ) (qf rf : ℕ → ℂ) (U : ℂ → ℕ → Spec.M2) : Prop :=
  (Spec.slow a → ∃ E, Spec.NearExp E ∧ ∀ l n, U l n = Spec.slowStep E a eps (Spec.cfWeight a) qf rf l n) ∧
  (a = .D2SPLIT2_MODAL → ∃ s : ℕ → ℂ, (∀ n, s n ^ 2 = 1 - (eps * qf n) * (eps * rf n) ∧ 0 ≤ (s n).re) ∧
    ∀ l n, U l n = NormedSpace.exp ((1 / 2 : ℂ) • Spec.akA eps l) * ((1 / s n) • (1 + Spec.akB eps (qf n) (rf n))) *
      NormedSpace.exp ((1 / 2 : ℂ) • Spec.akA eps l)) ∧
  (Spec.splitting a ≠ [] → ∃ EB : ℕ → ℚ → Spec.M2,
    (∀ n (w : ℚ) i j, ‖EB n w i j - NormedSpace.exp ((w : ℂ) • Spec.akB (eps / akns_upsampling_factor a) (qf n) (rf n)) i j‖ ≤
      min 1e-33 (((w * (eps / akns_upsampling_factor a)) ^ 2 * ‖qf n * rf n‖) ^ 2) * (|w * (eps / akns_upsampling_factor a)| * max ‖qf n‖ ‖rf n‖)) ∧
    (∀ n (w : ℚ), (qf n * rf n = 0 ∨ 1e-8 ≤ |w * (eps / akns_upsampling_factor a)| * Real.sqrt ‖qf n * rf n‖) →
      EB n w = NormedSpace.exp ((w : ℂ) • Spec.akB (eps / akns_upsampling_factor a) (qf n) (rf n))) ∧
    ∀ l n, U l n = Spec.combine (Spec.splitting a)
      (fun w => NormedSpace.exp ((w : ℂ) • Spec.akA (eps / akns_upsampling_factor a) l)) (EB n))

theorem list_prod_conj {G G' : Spec.M2} (hG : G * G' = 1) (hG' : G' * G = 1) (L : List ℕ) (X : ℕ → Spec.M2) :
    (L.map fun i => G * X i * G').prod = G * (L.map X).prod * G' := by
  induction L with
  | nil => simp [hG]
  | cons i L ih =>
    rw [List.map_cons, List.prod_cons, ih, List.map_cons, List.prod_cons]
    calc G * X i * G' * (G * (L.map X).prod * G') = G * X i * (G' * G) * (L.map X).prod * G' := by
          simp only [mul_assoc]
      _ = _ := by rw [hG']; simp only [mul_assoc, mul_one]

/-- `exp(wA)` is diagonal. -/
theorem expA_diag (h : ℝ) (l w : ℂ) : NormedSpace.exp (w • Spec.akA h l) =
    !![exp (-I * l * h * w), 0; 0, exp (I * l * h * w)] := by
  rw [exp_akA]
  ext i j
  fin_cases i <;> fin_cases j <;> simp [← exp_add]
  ring_nf

theorem expA_mul (h : ℝ) (l w w' : ℂ) : NormedSpace.exp (w • Spec.akA h l) * NormedSpace.exp (w' • Spec.akA h l) =
    NormedSpace.exp ((w + w') • Spec.akA h l) := by
  simp only [expA_diag, Matrix.mul_fin_two]
  ext i j
  fin_cases i <;> fin_cases j <;> simp [← exp_add] <;> ring_nf

theorem expA_zero (h : ℝ) (l : ℂ) : NormedSpace.exp ((0 : ℂ) • Spec.akA h l) = 1 := by
  rw [zero_smul, NormedSpace.exp_zero]

/-- The entries after a change of basis by `exp(A/2)`. -/
theorem conj_entries (h : ℝ) (l : ℂ) (S : Spec.M2) :
    (NormedSpace.exp ((-1 / 2 : ℂ) • Spec.akA h l) * S * NormedSpace.exp ((1 / 2 : ℂ) • Spec.akA h l)) 0 0 = S 0 0 ∧
    (NormedSpace.exp ((-1 / 2 : ℂ) • Spec.akA h l) * S * NormedSpace.exp ((1 / 2 : ℂ) • Spec.akA h l)) 1 0 *
      exp (I * l * h) = S 1 0 ∧
    (NormedSpace.exp ((-1 / 2 : ℂ) • Spec.akA h l) * S * NormedSpace.exp ((1 / 2 : ℂ) • Spec.akA h l)) 0 1 =
      exp (I * l * h) * S 0 1 ∧
    (NormedSpace.exp ((-1 / 2 : ℂ) • Spec.akA h l) * S * NormedSpace.exp ((1 / 2 : ℂ) • Spec.akA h l)) 1 1 = S 1 1 := by
  rw [expA_diag, expA_diag]
  refine ⟨?_, ?_, ?_, ?_⟩
  · simp only [Matrix.mul_apply, Fin.sum_univ_two]
    simp
    rw [mul_right_comm, ← exp_add]; ring_nf; simp
  · simp only [Matrix.mul_apply, Fin.sum_univ_two]
    simp
    have h1 : exp (I * l * h * (-1 / 2)) * exp (-(I * l * h * 2⁻¹)) * exp (I * l * h) = 1 := by
      rw [← exp_add, ← exp_add, show I * l * h * (-1 / 2) + -(I * l * h * 2⁻¹) + I * l * h = 0 by ring, exp_zero]
    linear_combination (S 1 0) * h1
  · simp only [Matrix.mul_apply, Fin.sum_univ_two]
    simp
    rw [mul_right_comm, ← exp_add]; ring_nf
  · simp only [Matrix.mul_apply, Fin.sum_univ_two]
    simp
    rw [mul_right_comm, ← exp_add]; ring_nf; simp

/-! ## The matrix elements: fast methods -/

theorem lambdaToZ1_ok {d : NseDisc} {a : AknsDisc} (hd : nse_to_akns d = .ok a) (hdeg : akns_degree a ≠ 0) (eps : ℝ) (x : ℂ) :
    lambdaToZ1 eps x d = some (SUCCESS, exp (2 * I * x * eps / Spec.degree1step a)) := by
  obtain ⟨b, e1, e2, e3⟩ := C33_lambda_to_z 1 eps a (Buf.ofList [x]) (fun _ => x)
    (fun i hi => by rw [Buf.rd_ofList]; have : i = 0 := by omega
                    subst this; rfl) hdeg
  have e4 := e3 0 (by omega)
  unfold lambdaToZ1 nse_lambda_to_z
  rw [hd]
  simp only [e1, Option.bind_eq_bind, Option.bind_some]
  rw [Nat.zero_add] at e4
  rw [e4]; rfl

/-- Grid of the chirp transform. -/
theorem chirp_grid (X0 ex eps : ℝ) (D1 : ℂ) (k : ℕ) :
    (exp (2 * I * (-X0 : ℂ) * eps / D1))⁻¹ * exp (2 * I * (ex : ℂ) * eps / D1) ^ k =
      exp (2 * I * ((X0 + ex * k : ℝ) : ℂ) * eps / D1) := by
  rw [← exp_neg, ← exp_nat_mul, ← exp_add]
  congr 1
  push_cast
  ring

theorem contFast_ok {d : NseDisc} {a : AknsDisc} (hd : nse_to_akns d = .ok a) (hdeg : akns_degree a ≠ 0) {n M : ℕ}
    {tm : Buf ℂ} {y : ℕ → ℂ} (hy : tm.Holds 0 (4 * (n + 1)) y) (hM : 1 ≤ M) (hs : n + M < 3 ^ 32) (eps X0 ex : ℝ) :
    ∃ H, contFast n tm eps X0 ex M d = some (.ok H) ∧
      H.1.Holds 0 M (fun k => (Spec.pmat 2 n (n + 1) 0 y 0 0).eval
        (exp (2 * I * ((X0 + ex * k : ℝ) : ℂ) * eps / Spec.degree1step a))) ∧
      H.2.Holds 0 M (fun k => (Spec.pmat 2 n (n + 1) 0 y 1 0).eval
        (exp (2 * I * ((X0 + ex * k : ℝ) : ℂ) * eps / Spec.degree1step a))) := by
  have hA := lambdaToZ1_ok hd hdeg eps (-X0 : ℂ)
  have hV := lambdaToZ1_ok hd hdeg eps (ex : ℂ)
  set A := exp (2 * I * (-X0 : ℂ) * eps / Spec.degree1step a)
  set V := exp (2 * I * (ex : ℂ) * eps / Spec.degree1step a)
  have hg := fun k => chirp_grid X0 ex eps (Spec.degree1step a) k
  obtain ⟨H1, e1, -, f1, -⟩ := C13_chirpz n M tm (Buf.malloc M) (fun j => y j) A V
    (fun i hi => by rw [hy i (by omega)]) hM (by simp) (exp_ne_zero _) (exp_ne_zero _) hs
  obtain ⟨H2, e2, -, f2, -⟩ := C13_chirpz n M (tm.view (2 * (n + 1))) (Buf.malloc M) (fun j => y (2 * (n + 1) + j)) A V
    (fun i hi => by
      rw [rd_view, Nat.zero_add]
      have := hy (2 * (n + 1) + i) (by omega)
      rwa [Nat.zero_add] at this) hM (by simp) (exp_ne_zero _) (exp_ne_zero _) hs
  refine ⟨(H1, H2), ?_, ?_, ?_⟩
  · unfold contFast
    simp only [hA, hV, Option.bind_eq_bind, Option.bind_some, ne_eq, not_true_eq_false, if_false, chirpzChk, e1, e2]
    rfl
  · intro k hk
    rw [f1 k hk]
    dsimp only
    rw [hg k]
    simp [Spec.pmat]
  · intro k hk
    rw [f2 k hk]
    dsimp only
    rw [hg k]
    simp [Spec.pmat]

theorem numel_fast {D : ℕ} (hD : 1 ≤ D) (hD' : D ≤ 2147483647) {d : NseDisc} {a : AknsDisc} (hd : nse_to_akns d = .ok a)
    (hdeg : akns_degree a ≠ 0) : ∃ L, L ≠ 0 ∧ nse_fscatter_numel D d = some L ∧ akns_fscatter_numel D a = some L := by
  obtain ⟨k, hk, -, -⟩ := nextpow2_spec D (by omega) (by omega)
  refine ⟨4 * (akns_degree a + 1) * 2 ^ k, by positivity, ?_, ?_⟩
  · simp [nse_fscatter_numel, nse_degree, hd, hdeg, poly_fmult_numel, hk]
  · simp [akns_fscatter_numel, hdeg, poly_fmult_numel, hk]

theorem nse_fscatter_eq {D : ℕ} {q r result : Buf ℂ} {eps : ℝ} {deg0 : ℕ} {Wp : Option ℤ} {d : NseDisc} {a : AknsDisc}
    (hd : nse_to_akns d = .ok a) (hD : D ≠ 0) (heps : 0 < eps) {R : FscatterRes}
    (h : akns_fscatter D (some q) (some r) eps (some result) (some deg0) Wp a = some R) :
    nse_fscatter D (some q) (some r) eps (some result) (some deg0) Wp d =
      some ⟨R.ret.map fun rc => if rc = SUCCESS then SUCCESS else E_SUBROUTINE rc, R.deg, R.W, R.result⟩ := by
  unfold nse_fscatter
  dsimp only
  rw [if_neg (by simp [hD, not_le.mpr heps]), hd]
  dsimp only
  rw [h]; rfl

theorem chain_eq_range (U : ℕ → Spec.M2) (D : ℕ) : Spec.chain U D = ((List.range D).map fun s => U (D - 1 - s)).prod := rfl

theorem z_eq (l : ℂ) (eps : ℝ) (a : AknsDisc) :
    exp (2 * I * l * (eps / akns_upsampling_factor a : ℝ) / akns_degree a) =
      exp (2 * I * l * eps / (Spec.degree1step a : ℕ)) := by
  congr 1
  rw [Spec.degree1step]
  push_cast
  by_cases h : (akns_upsampling_factor a : ℂ) = 0
  · simp [h]
  by_cases h' : (akns_degree a : ℂ) = 0
  · simp [h']
  field_simp

theorem phase_pow {up Dg : ℕ} (hup : up ≠ 0) (l : ℂ) (eps : ℝ) :
    exp (-I * l * (eps / up : ℝ)) ^ (Dg * up) * exp (I * l * (eps * Dg)) = 1 := by
  have h : (up : ℂ) ≠ 0 := by exact_mod_cast hup
  rw [← exp_nat_mul, ← exp_add, ← exp_zero]
  congr 1
  push_cast
  field_simp
  simp

/-- The entries of the polynomial transfer matrix in terms of the scattering matrix. -/
def EntriesOK (d : NseDisc) (eps : ℝ) (Dg : ℕ) (W : ℤ) (n : ℕ) (z : ℂ) (l : ℂ) (y : ℕ → ℂ) (S : Spec.M2) : Prop :=
  (Spec.pmat 2 n (n + 1) 0 y 0 0).eval z * 2 ^ W = exp (I * l * (eps * Dg)) * S 0 0 ∧
  (Spec.pmat 2 n (n + 1) 0 y 1 0).eval z * 2 ^ W * exp (I * l * phB d eps) = exp (I * l * (eps * Dg)) * S 1 0 ∧
  (Spec.pmat 2 n (n + 1) 0 y 0 1).eval z * 2 ^ W = exp (I * l * (eps * Dg)) * (exp (I * l * phB d eps) * S 0 1) ∧
  (Spec.pmat 2 n (n + 1) 0 y 1 1).eval z * 2 ^ W = exp (I * l * (eps * Dg)) * S 1 1

theorem Sym.expA {κ : ℝ} (h l : ℝ) (w : ℚ) : Spec.Sym κ (NormedSpace.exp ((w : ℂ) • Spec.akA h l)) := by
  rw [expA_diag]
  constructor
  · simp [← exp_conj]
  · simp

theorem Sym.combine {κ : ℝ} {s : List (ℚ × List (Bool × ℚ))} {EA EB : ℚ → Spec.M2} (hA : ∀ w, Spec.Sym κ (EA w))
    (hB : ∀ w, Spec.Sym κ (EB w)) : Spec.Sym κ (Spec.combine s EA EB) := by
  have hprod : ∀ fs : List (Bool × ℚ), Spec.Sym κ (fs.map fun f => if f.1 then EA f.2 else EB f.2).prod := by
    intro fs
    induction fs with
    | nil => simpa using Sym.one
    | cons f l ih =>
      rw [List.map_cons, List.prod_cons]
      refine Sym.mul ?_ ih
      split_ifs
      · exact hA _
      · exact hB _
  unfold Spec.combine
  induction s with
  | nil => constructor <;> simp
  | cons t l ih =>
    rw [List.map_cons, List.sum_cons]
    exact Sym.add (Sym.smul (hprod _) (by rw [show ((t.1 : ℚ) : ℂ) = ((t.1 : ℝ) : ℂ) by push_cast; rfl, conj_ofReal])) ih

/-- The step of the Ablowitz-Ladik discretization has the symmetry if `1 + κ eps^2 |q|^2 > 0`. -/
theorem Sym.alStep {κ l eps : ℝ} {s q r : ℂ} (hs : s ^ 2 = 1 - (eps * q) * (eps * r)) (hr : r = -κ * (starRingEnd ℂ) q)
    (hp : 0 < 1 + κ * (eps * ‖q‖) ^ 2) :
    Spec.Sym κ (NormedSpace.exp ((1 / 2 : ℂ) • Spec.akA eps l) * ((1 / s) • (1 + Spec.akB eps q r)) *
      NormedSpace.exp ((1 / 2 : ℂ) • Spec.akA eps l)) := by
  have h2 : s ^ 2 = ((1 + κ * (eps * ‖q‖) ^ 2 : ℝ) : ℂ) := by
    rw [hs, hr]; push_cast
    linear_combination (κ * eps ^ 2 : ℂ) * mul_conj' q
  have hsr : (starRingEnd ℂ) s = s := by
    have him : s.re * s.im = 0 := by
      have := congrArg Complex.im h2
      rw [ofReal_im, pow_two, mul_im] at this
      linarith
    rcases mul_eq_zero.mp him with h | h
    · exfalso
      have := congrArg Complex.re h2
      rw [ofReal_re, pow_two, mul_re, h] at this
      nlinarith [mul_self_nonneg s.im]
    · exact conj_eq_iff_im.mpr h
  have hE : Spec.Sym κ (NormedSpace.exp ((1 / 2 : ℂ) • Spec.akA eps l)) := by
    have := Sym.expA (κ := κ) eps l (1 / 2)
    push_cast at this
    exact this
  refine Sym.mul (Sym.mul hE (Sym.smul (Sym.add Sym.one ?_) (by simp [hsr]))) hE
  constructor
  · simp [Spec.akB]
  · simp [Spec.akB, hr]; ring

theorem transfer_split {d : NseDisc} {a : AknsDisc} (hd : nse_to_akns d = .ok a) (hs : Spec.splitting a ≠ []) {D Dg : ℕ}
    (hDg : D = Dg * akns_upsampling_factor a) (hD : 2 ≤ D) (hD' : D ≤ 2147483647) {q r : Buf ℂ} {qf rf : ℕ → ℂ}
    (hq : q.Holds 0 D qf) (hr : r.Holds 0 D rf) {eps : ℝ} (heps : 0 < eps) (nrm : Bool) :
    ∃ W tm y U, nsevTransfer D (some q) (some r) eps nrm d = some (.ok (D * akns_degree a, W, some tm)) ∧
      Spec.NseSteps a eps qf rf U ∧ tm.Holds 0 (4 * (D * akns_degree a + 1)) y ∧
      (∀ l, EntriesOK d eps Dg W (D * akns_degree a) (exp (2 * I * l * eps / (Spec.degree1step a : ℕ))) l y
        (Spec.chain (U l) D)) ∧
      ∀ (κ l : ℝ) n, rf n = -κ * (starRingEnd ℂ) (qf n) → Spec.Sym κ (U l n) := by
  have hmod : a ≠ .D2SPLIT2_MODAL := (splitting_tab hs).1
  have hdeg : akns_degree a ≠ 0 := by
    obtain ⟨-, tab, htab, -⟩ := splitting_tab hs
    exact (aknsTab_degree htab).1
  have hup : akns_upsampling_factor a ≠ 0 := fun h => by rw [h] at hDg; omega
  have hslow : ¬ Spec.slow a := by
    rintro (h | h | h | h | h | h | h) <;> subst h <;> exact hdeg rfl
  obtain ⟨L, hL0, hL1, hL2⟩ := numel_fast (show 1 ≤ D by omega) hD' hd hdeg
  obtain ⟨R, h1, h2, h3, h4, h5, y, h6, -, EB, h8, h9, hsy, h10⟩ := C22_C23_fscatter a hs D hD hD' q r qf rf hq hr eps heps
    (Buf.malloc L) L hL2 (by simp) 0 (if nrm then some 0 else none)
  set EA : ℂ → ℚ → Spec.M2 := fun l w => NormedSpace.exp ((w : ℂ) • Spec.akA (eps / akns_upsampling_factor a) l) with hEA
  refine ⟨R.W, R.result, y, fun l n => Spec.combine (Spec.splitting a) (EA l) (EB n), ?_, ?_, h6, ?_,
    fun κ l n hn => Sym.combine (fun w => Sym.expA _ _ w) (fun w => hsy κ n w hn)⟩
  · unfold nsevTransfer
    simp only [hL1, Option.bind_eq_bind, Option.bind_some, if_neg hL0]
    rw [nse_fscatter_eq hd (by omega) heps h1]
    simp only [h2, h3, Option.map_some, Option.bind_some, if_true, ne_eq, not_true_eq_false, if_false]; rfl
  · exact ⟨fun h => absurd h hslow, fun h => absurd h hmod, fun _ => ⟨EB, h8, h9, fun _ _ => rfl⟩⟩
  · intro l
    have key := h10 l
    rw [z_eq] at key
    set z := exp (2 * I * l * eps / (Spec.degree1step a : ℕ)) with hz
    have hph := phase_pow (Dg := Dg) hup l eps
    rw [← hDg] at hph
    set P := ((List.range D).map fun s => Spec.sampleMatrix a (EA l) (EB (D - 1 - s))).prod with hP
    have ent : ∀ i j : Fin 2, (Spec.pmat 2 (D * akns_degree a) (D * akns_degree a + 1) 0 y i j).eval z * 2 ^ R.W =
        exp (I * l * (eps * Dg)) * P i j := by
      intro i j
      have e := congrFun (congrFun key i) j
      rw [Matrix.smul_apply, Matrix.map_apply, smul_eq_mul] at e
      rw [← e]
      linear_combination (-(Spec.pmat 2 (D * akns_degree a) (D * akns_degree a + 1) 0 y i j).eval z * 2 ^ R.W) * hph
    by_cases h2A : a = .D2SPLIT2A
    · have hdA : d = .D2SPLIT2A := by
        subst h2A
        cases d <;> simp [nse_to_akns] at hd ⊢
      have hup1 : akns_upsampling_factor a = 1 := by rw [h2A]; rfl
      have hPc : P = NormedSpace.exp ((-1 / 2 : ℂ) • Spec.akA eps l) *
          Spec.chain (fun n => Spec.combine (Spec.splitting a) (EA l) (EB n)) D *
            NormedSpace.exp ((1 / 2 : ℂ) • Spec.akA eps l) := by
        have e1 : EA l (-1 / 2) = NormedSpace.exp ((-1 / 2 : ℂ) • Spec.akA eps l) := by
          simp only [hEA, hup1]; push_cast; rw [div_one]
        have e2 : EA l (1 / 2) = NormedSpace.exp ((1 / 2 : ℂ) • Spec.akA eps l) := by
          simp only [hEA, hup1]; push_cast; rw [div_one]
        rw [hP, ← e1, ← e2, Spec.chain]
        simp only [Spec.sampleMatrix, if_pos h2A]
        refine list_prod_conj ?_ ?_ _ _
        · rw [e1, e2, expA_mul, ← expA_zero eps l]; norm_num
        · rw [e1, e2, expA_mul, ← expA_zero eps l]; norm_num
      have hc := conj_entries eps l (Spec.chain (fun n => Spec.combine (Spec.splitting a) (EA l) (EB n)) D)
      rw [← hPc] at hc
      have hphB : phB d eps = eps := by rw [phB, if_pos (Or.inl hdA)]
      refine ⟨by rw [ent 0 0, hc.1], ?_, by rw [hphB, ent 0 1, hc.2.2.1], by rw [ent 1 1, hc.2.2.2]⟩
      rw [hphB, ent 1 0, mul_assoc, hc.2.1]
    · have hPc : P = Spec.chain (fun n => Spec.combine (Spec.splitting a) (EA l) (EB n)) D := by
        rw [hP, Spec.chain]
        simp only [Spec.sampleMatrix, if_neg h2A]
      have hphB : phB d eps = 0 := by
        rw [phB, if_neg]
        rintro (h | h) <;> subst h <;> simp only [nse_to_akns, Except.ok.injEq] at hd
        · exact h2A hd.symm
        · exact hmod hd.symm
      refine ⟨by rw [ent 0 0, hPc], by rw [hphB, ent 1 0, hPc]; simp, by rw [hphB, ent 0 1, hPc]; simp, by rw [ent 1 1, hPc]⟩

/-- Ablowitz-Ladik matrix as a symmetric step in the changed basis. -/
theorem al_step (eps : ℝ) (l s q r : ℂ) :
    exp (-I * l * eps) • Spec.ablowitzLadik s (eps * q) (eps * r) (exp (2 * I * l * eps)) =
      NormedSpace.exp ((-1 / 2 : ℂ) • Spec.akA eps l) *
        (NormedSpace.exp ((1 / 2 : ℂ) • Spec.akA eps l) * ((1 / s) • (1 + Spec.akB eps q r)) *
          NormedSpace.exp ((1 / 2 : ℂ) • Spec.akA eps l)) * NormedSpace.exp ((1 / 2 : ℂ) • Spec.akA eps l) := by
  have e0 : NormedSpace.exp ((-1 / 2 : ℂ) • Spec.akA eps l) * NormedSpace.exp ((1 / 2 : ℂ) • Spec.akA eps l) = 1 := by
    rw [expA_mul, ← expA_zero eps l]; norm_num
  have e1 : NormedSpace.exp ((1 / 2 : ℂ) • Spec.akA eps l) * NormedSpace.exp ((1 / 2 : ℂ) • Spec.akA eps l) =
      !![exp (-I * l * eps), 0; 0, exp (I * l * eps)] := by
    rw [expA_mul, expA_diag]; norm_num
  have e3 : ∀ G' G X : Spec.M2, G' * G = 1 → G' * (G * X * G) * G = X * (G * G) := by
    intro G' G X h
    calc G' * (G * X * G) * G = G' * G * X * (G * G) := by simp only [mul_assoc]
      _ = _ := by rw [h, one_mul]
  rw [e3 _ _ _ e0, e1]
  have e2 : exp (-I * l * eps) * exp (2 * I * l * eps) = exp (I * l * eps) := by
    rw [← exp_add]; congr 1; ring
  ext i j
  fin_cases i <;> fin_cases j <;>
    simp [Spec.ablowitzLadik, Spec.akB, Matrix.mul_apply, Fin.sum_univ_two, Matrix.one_apply, ← e2] <;> ring

theorem transfer_modal {D : ℕ} (hD : 2 ≤ D) (hD' : D ≤ 2147483647) {q r : Buf ℂ} {qf rf : ℕ → ℂ}
    (hq : q.Holds 0 D qf) (hr : r.Holds 0 D rf) {eps : ℝ} (heps : 0 < eps) (nrm : Bool) :
    ((∃ n < D, (eps * qf n) * (eps * rf n) = 1) →
      nsevTransfer D (some q) (some r) eps nrm .D2SPLIT2_MODAL = some (.error (E_SUBROUTINE (E_SUBROUTINE EC_DIV_BY_ZERO)))) ∧
    ((∀ n < D, (eps * qf n) * (eps * rf n) ≠ 1) →
      ∃ W tm y U, nsevTransfer D (some q) (some r) eps nrm .D2SPLIT2_MODAL = some (.ok (D, W, some tm)) ∧
      Spec.NseSteps .D2SPLIT2_MODAL eps qf rf U ∧ tm.Holds 0 (4 * (D + 1)) y ∧
      (∀ l, EntriesOK .D2SPLIT2_MODAL eps D W D (exp (2 * I * l * eps / (Spec.degree1step .D2SPLIT2_MODAL : ℕ))) l y
        (Spec.chain (U l) D)) ∧
      ∀ (κ l : ℝ) n, rf n = -κ * (starRingEnd ℂ) (qf n) → 0 < 1 + κ * (eps * ‖qf n‖) ^ 2 → Spec.Sym κ (U l n)) := by
  obtain ⟨L, hL0, hL1, hL2⟩ := numel_fast (show 1 ≤ D by omega) hD' (d := .D2SPLIT2_MODAL) rfl (by decide)
  obtain ⟨R, h1, hdiv, hok⟩ := C22_C23_fscatter_modal D hD hD' q r qf rf hq hr eps heps
    (Buf.malloc L) L hL2 (by simp) 0 (if nrm then some 0 else none)
  have hrun : nsevTransfer D (some q) (some r) eps nrm .D2SPLIT2_MODAL = (do
      let rc ← R.ret.map fun rc => if rc = SUCCESS then SUCCESS else E_SUBROUTINE rc
      if rc ≠ SUCCESS then return .error (E_SUBROUTINE rc) else return .ok (R.deg, R.W, some R.result)) := by
    unfold nsevTransfer
    simp only [hL1, Option.bind_eq_bind, Option.bind_some, if_neg hL0]
    rw [nse_fscatter_eq rfl (by omega) heps h1]; rfl
  constructor
  · intro hc
    rw [hrun, (hdiv hc).1]; rfl
  · intro hc
    obtain ⟨h2, h3, -, -, y, h6, s, hs, h7⟩ := hok hc
    refine ⟨R.W, R.result, y, fun l n => NormedSpace.exp ((1 / 2 : ℂ) • Spec.akA eps l) *
      ((1 / s n) • (1 + Spec.akB eps (qf n) (rf n))) * NormedSpace.exp ((1 / 2 : ℂ) • Spec.akA eps l), ?_, ?_, h6, ?_,
      fun κ l n hn hp => Sym.alStep (hs n).1 hn hp⟩
    · rw [hrun, h2, h3]; rfl
    · refine ⟨fun h => ?_, fun _ => ⟨s, hs, fun _ _ => rfl⟩, fun h => absurd rfl h⟩
      rcases h with h | h | h | h | h | h | h <;> cases h
    · intro l
      have hz : exp (2 * I * l * eps / (Spec.degree1step .D2SPLIT2_MODAL : ℕ)) = exp (2 * I * l * eps) := by
        simp [Spec.degree1step, akns_degree, akns_upsampling_factor]
      rw [hz]
      have hph := phase_pow (up := 1) (Dg := D) (by omega) l eps
      rw [Nat.mul_one] at hph
      simp only [Nat.cast_one, div_one] at hph
      have key := h7 (exp (2 * I * l * eps))
      set z := exp (2 * I * l * eps) with hz
      set S := Spec.chain (fun n => NormedSpace.exp ((1 / 2 : ℂ) • Spec.akA eps l) *
        ((1 / s n) • (1 + Spec.akB eps (qf n) (rf n))) * NormedSpace.exp ((1 / 2 : ℂ) • Spec.akA eps l)) D with hS
      have hprod : exp (-I * l * eps) ^ D • ((2 : ℂ) ^ R.W • (Spec.pmat 2 D (D + 1) 0 y).map (Polynomial.eval z)) =
          NormedSpace.exp ((-1 / 2 : ℂ) • Spec.akA eps l) * S * NormedSpace.exp ((1 / 2 : ℂ) • Spec.akA eps l) := by
        rw [key, ← prod_smul_const]
        simp only [hz, al_step]
        rw [hS, Spec.chain]
        refine list_prod_conj ?_ ?_ _ _
        · rw [expA_mul, ← expA_zero eps l]; norm_num
        · rw [expA_mul, ← expA_zero eps l]; norm_num
      have hc := conj_entries eps l S
      rw [← hprod] at hc
      simp only [Matrix.smul_apply, Matrix.map_apply, smul_eq_mul] at hc
      have hphB : phB .D2SPLIT2_MODAL eps = eps := by rw [phB, if_pos (Or.inr rfl)]
      refine ⟨?_, ?_, ?_, ?_⟩
      · rw [← hc.1]
        linear_combination (-(Spec.pmat 2 D (D + 1) 0 y 0 0).eval z * 2 ^ R.W) * hph
      · rw [hphB, ← hc.2.1]
        linear_combination (-(Spec.pmat 2 D (D + 1) 0 y 1 0).eval z * 2 ^ R.W * exp (I * l * eps)) * hph
      · rw [hphB, ← hc.2.2.1]
        linear_combination (-(Spec.pmat 2 D (D + 1) 0 y 0 1).eval z * 2 ^ R.W) * hph
      · rw [← hc.2.2.2]
        linear_combination (-(Spec.pmat 2 D (D + 1) 0 y 1 1).eval z * 2 ^ R.W) * hph

/-! ## The matrix elements: slow methods -/

theorem transfer_slow {d : NseDisc} {a : AknsDisc} (hd : nse_to_akns d = .ok a) (hs : Spec.slow a) (D : ℕ)
    (q r : Option (Buf ℂ)) (eps : ℝ) (nrm : Bool) : nsevTransfer D q r eps nrm d = some (.ok (0, 0, none)) := by
  have : akns_degree a = 0 := by rcases hs with h | h | h | h | h | h | h <;> subst h <;> rfl
  simp [nsevTransfer, nse_fscatter_numel, nse_degree, hd, this]

theorem copy_loop {M : ℕ} {coef : Buf ℂ} {Ws : Option (Buf ℤ)} {w : ℕ → ℤ} {c1 c2 : ℕ → ℂ}
    (h1 : ∀ i, i < M → coef.rd (i * 4) = some (2 ^ (-w i) * c1 i)) (h2 : ∀ i, i < M → coef.rd (i * 4 + 2) = some (2 ^ (-w i) * c2 i))
    (hw : ∀ V, Ws = some V → ∀ i, i < M → V.rd i = some (w i)) (hw' : Ws = none → ∀ i, w i = 0) :
    ∃ H, forLoop M (contCopyBody coef Ws) (Buf.malloc M, Buf.malloc M) = some H ∧ H.1.Holds 0 M c1 ∧ H.2.Holds 0 M c2 := by
  have key := forLoop_inv (n := M) (body := contCopyBody coef Ws) (s := ((Buf.malloc M, Buf.malloc M) : Buf ℂ × Buf ℂ))
    (fun k H => H.1.len = M ∧ H.2.len = M ∧ H.1.Holds 0 k c1 ∧ H.2.Holds 0 k c2) ?_ ?_
  · obtain ⟨H, e, -, -, e3, e4⟩ := key
    exact ⟨H, e, e3, e4⟩
  · exact ⟨rfl, rfl, fun i hi => by omega, fun i hi => by omega⟩
  · rintro i ⟨A, B⟩ hi ⟨l1, l2, g1, g2⟩
    dsimp only at l1 l2 g1 g2
    refine ⟨(A.set i (c1 i), B.set i (c2 i)), ?_, by simpa using l1, by simpa using l2, ?_, ?_⟩
    · have hs : ∀ c : ℂ, (2 : ℂ) ^ (-w i) * c * (2 : ℂ) ^ (w i) = c := by
        intro c
        have : (2 : ℂ) ^ (-w i) * (2 : ℂ) ^ (w i) = 1 := by
          rw [← zpow_add₀ two_ne_zero]; simp
        linear_combination c * this
      have hn : ∀ c : ℂ, w i = 0 → (2 : ℂ) ^ (-w i) * c * 1 = c := by
        intro c h; rw [h]; simp
      cases Ws with
      | none =>
        simp only [contCopyBody, h1 i hi, h2 i hi, Option.bind_eq_bind, Option.bind_some, hn _ (hw' rfl i),
          Buf.wr_eq _ (show i < A.len by omega), Buf.wr_eq _ (show i < B.len by omega)]; rfl
      | some V =>
        simp only [contCopyBody, h1 i hi, h2 i hi, hw V rfl i hi, Option.bind_eq_bind, Option.bind_some, Option.map_some, hs,
          Buf.wr_eq _ (show i < A.len by omega), Buf.wr_eq _ (show i < B.len by omega)]; rfl
    · intro j hj
      show (A.set i _).rd _ = _
      rw [Nat.zero_add, Buf.rd_set _ (by omega)]
      split_ifs with hji
      · rw [hji]
      · have := g1 j (by omega); rwa [Nat.zero_add] at this
    · intro j hj
      show (B.set i _).rd _ = _
      rw [Nat.zero_add, Buf.rd_set _ (by omega)]
      split_ifs with hji
      · rw [hji]
      · have := g2 j (by omega); rwa [Nat.zero_add] at this

theorem slow_values {d : NseDisc} {a : AknsDisc} (hd : nse_to_akns d = .ok a) (hs : Spec.slow a) {D : ℕ} (hD : 0 < D)
    (hsmp : Spec.slowSamples a D) {q r : Buf ℂ} {qf rf : ℕ → ℂ} (hq : q.Holds 0 D qf) (hr : r.Holds 0 D rf) {eps : ℝ}
    (heps : 0 < eps) {kappa : ℤ} (hk : |kappa| = 1) {M : ℕ} (hM : 0 < M) {xi : Buf ℂ} {x : ℕ → ℂ} (hx : xi.Holds 0 M x)
    (nrm : Bool) :
    ∃ H, contSlow D (some q) (some r) eps kappa M xi nrm d = some (.ok H) ∧
      H.1.Holds 0 M (fun i => Spec.chain (Spec.slowStep expS a eps (Spec.cfWeight a) qf rf (x i)) (Spec.slowCount a D) 0 0) ∧
      H.2.Holds 0 M (fun i => Spec.chain (Spec.slowStep expS a eps (Spec.cfWeight a) qf rf (x i)) (Spec.slowCount a D) 1 0) := by
  set Ws : Option (Buf ℤ) := if nrm then some (Buf.malloc (4 * M)) else none with hWs
  have hWl : ∀ V, Ws = some V → M ≤ V.len := by
    intro V hV
    cases nrm with
    | true => simp [hWs] at hV; rw [← hV]; simp; omega
    | false => simp [hWs] at hV
  obtain ⟨R, w, h1, h2, h3, h4, -, h6, h7⟩ := slow_scattering_expS D q r qf rf eps M xi x (Buf.malloc (4 * M)) Ws a .NSE 0 false
    ⟨hD, hq, hr, heps, hM, hx, hs, hsmp, Or.inr rfl, fun h => (by cases h), (by simp), hWl⟩
  have hent : ∀ i, i < M → ∀ j k : Fin 2, R.result.rd (4 * i + (2 * j + k)) = some ((2 : ℂ) ^ (-w i) *
      (Spec.chain (Spec.slowStep expS a eps (Spec.cfWeight a) qf rf (x i)) (Spec.slowCount a D)) j k) := by
    intro i hi j k
    have := h4 i hi j k
    simpa [Spec.fromS] using this
  obtain ⟨H, e1, e2, e3⟩ := copy_loop (M := M) (coef := R.result) (Ws := R.W) (w := w)
    (c1 := fun i => Spec.chain (Spec.slowStep expS a eps (Spec.cfWeight a) qf rf (x i)) (Spec.slowCount a D) 0 0)
    (c2 := fun i => Spec.chain (Spec.slowStep expS a eps (Spec.cfWeight a) qf rf (x i)) (Spec.slowCount a D) 1 0)
    (fun i hi => by have := hent i hi 0 0; simpa [Nat.mul_comm] using this)
    (fun i hi => by have := hent i hi 1 0; simpa [Nat.mul_comm] using this)
    (by
      intro V hV i hi
      cases hW : Ws with
      | none => rw [(h7 hW).1] at hV; cases hV
      | some V0 =>
        obtain ⟨V', v1, -, v3, -⟩ := h6 V0 hW
        rw [hV] at v1; cases v1
        exact v3 i hi)
    (by
      intro hN
      cases hW : Ws with
      | none => exact (h7 hW).2
      | some V0 =>
        obtain ⟨V', v1, -⟩ := h6 V0 hW
        rw [hN] at v1; cases v1)
  refine ⟨H, ?_, e2, e3⟩
  · have hn : nse_scatter_matrix D (some q) (some r) eps kappa M (some xi) (some (Buf.malloc (4 * M))) Ws d 0 =
        some ⟨SUCCESS, R.result, R.W⟩ := by
      unfold nse_scatter_matrix
      dsimp only
      rw [if_neg (by push Not; exact ⟨hD.ne', by simp, by simp, heps, hk, hM.ne', by simp, by simp⟩), hd]
      dsimp only
      simp only [Bool.false_eq_true, if_false] at h1
      rw [h1]
      simp only [Option.bind_eq_bind, Option.bind_some, h2, if_true, Option.pure_def]
    unfold contSlow
    rw [← hWs]
    simp only [hn, Option.bind_eq_bind, Option.bind_some, ne_eq, not_true_eq_false, if_false, e1, Option.pure_def]

/-- What `nsevTransfer` delivers: one step of the discretization and, for polynomial methods, the polynomials. -/
structure TransferData (d : NseDisc) (a : AknsDisc) (D Dg : ℕ) (eps : ℝ) (qf rf : ℕ → ℂ) (U : ℂ → ℕ → Spec.M2) (deg : ℕ) (W : ℤ)
    (tm : Option (Buf ℂ)) : Prop where
  steps : Spec.NseSteps a eps qf rf U
  slow : Spec.slow a → deg = 0 ∧ W = 0 ∧ tm = none ∧ U = fun l n => Spec.slowStep expS a eps (Spec.cfWeight a) qf rf l n
  fast : ¬ Spec.slow a → akns_degree a ≠ 0 ∧ deg = D * akns_degree a ∧ ∃ t y, tm = some t ∧ t.Holds 0 (4 * (deg + 1)) y ∧
    ∀ l, EntriesOK d eps Dg W deg (exp (2 * I * l * eps / (Spec.degree1step a : ℕ))) l y (Spec.chain (U l) (Spec.slowCount a D))
  sym : ¬ Spec.slow a → ∀ (κ l : ℝ) n, rf n = -κ * (starRingEnd ℂ) (qf n) →
    (a = .D2SPLIT2_MODAL → 0 < 1 + κ * (eps * ‖qf n‖) ^ 2) → Spec.Sym κ (U l n)

theorem nearExp_expS : Spec.NearExp expS := fun _ hX => ⟨expS_exact hX, expS_near hX⟩

theorem slow_steps {a : AknsDisc} (hs : Spec.slow a) (eps : ℝ) (qf rf : ℕ → ℂ) :
    Spec.NseSteps a eps qf rf (fun l n => Spec.slowStep expS a eps (Spec.cfWeight a) qf rf l n) := by
  refine ⟨fun _ => ⟨expS, nearExp_expS, fun _ _ => rfl⟩, fun h => ?_, fun h => ?_⟩
  · subst h; rcases hs with h | h | h | h | h | h | h <;> cases h
  · exfalso; rcases hs with h' | h' | h' | h' | h' | h' | h' <;> subst h' <;> exact h rfl

theorem fast_or_slow {a : AknsDisc} (h : akns_upsampling_factor a ≠ 0) :
    Spec.slow a ∨ a = .D2SPLIT2_MODAL ∨ Spec.splitting a ≠ [] := by
  cases a <;> simp [akns_upsampling_factor, Spec.slow, Spec.splitting] at h ⊢

theorem slow_degree {a : AknsDisc} (h : Spec.slow a) : akns_degree a = 0 := by
  rcases h with h | h | h | h | h | h | h <;> subst h <;> rfl

/-- The transfer matrix for every discretization. -/
theorem transfer_ok {d : NseDisc} {a : AknsDisc} (hd : nse_to_akns d = .ok a) {D Dg : ℕ}
    (hDg : D = Dg * akns_upsampling_factor a) (hDg2 : 2 ≤ Dg) (hD' : D ≤ 2147483647) {q r : Buf ℂ} {qf rf : ℕ → ℂ}
    (hq : q.Holds 0 D qf) (hr : r.Holds 0 D rf) {eps : ℝ} (heps : 0 < eps)
    (hal : a = .D2SPLIT2_MODAL → ∀ n < D, (eps * qf n) * (eps * rf n) ≠ 1) (nrm : Bool) :
    ∃ deg W tm U, nsevTransfer D (some q) (some r) eps nrm d = some (.ok (deg, W, tm)) ∧
      TransferData d a D Dg eps qf rf U deg W tm := by
  have hup : akns_upsampling_factor a ≠ 0 := ((C32_nse_names d).1 a hd).2
  have hupD : 2 ≤ D := by rw [hDg]; nlinarith [Nat.pos_of_ne_zero hup]
  rcases fast_or_slow hup with hs | hs | hs
  · exact ⟨0, 0, none, _, transfer_slow hd hs _ _ _ _ _, slow_steps hs _ _ _, fun _ => ⟨rfl, rfl, rfl, rfl⟩,
      fun h => absurd hs h, fun h => absurd hs h⟩
  · subst hs
    have hdM : d = .D2SPLIT2_MODAL := by cases d <;> simp [nse_to_akns] at hd ⊢
    subst hdM
    have hDD : D = Dg := by simpa [akns_upsampling_factor] using hDg
    subst hDD
    obtain ⟨W, tm, y, U, e1, e2, e3, e4, e5⟩ := (transfer_modal hupD hD' hq hr heps nrm).2 (hal rfl)
    refine ⟨D, W, some tm, U, e1, e2, fun h => ?_, fun _ => ⟨by decide, by simp [akns_degree], tm, y, rfl, e3, e4⟩,
      fun _ κ l n h1 h2 => e5 κ l n h1 (h2 rfl)⟩
    rcases h with h | h | h | h | h | h | h <;> cases h
  · obtain ⟨W, tm, y, U, e1, e2, e3, e4, e5⟩ := transfer_split hd hs hDg hupD hD' hq hr heps nrm
    have hdeg : akns_degree a ≠ 0 := by
      obtain ⟨-, tab, htab, -⟩ := splitting_tab hs
      exact (aknsTab_degree htab).1
    have hcnt : Spec.slowCount a D = D := by
      cases a <;> first | rfl | exact absurd rfl hs
    exact ⟨_, W, some tm, U, e1, e2, fun h => absurd (slow_degree h) hdeg, fun _ => ⟨hdeg, rfl, tm, y, rfl, e3, by rw [hcnt]; exact e4⟩,
      fun _ κ l n h1 _ => e5 κ l n h1⟩

/-! ## All methods -/

theorem jostA_eq (S : Spec.M2) (T0 T1 h : ℝ) (x : ℂ) :
    Spec.jostA S T0 T1 h x = S 0 0 * exp (I * x * ((T1 + h * (1 / 2)) - (T0 - h * (1 / 2)) : ℝ)) := by
  unfold Spec.jostA
  simp only [Matrix.mulVec, dotProduct, Fin.sum_univ_two, Matrix.cons_val_zero, Matrix.cons_val_one, mul_zero, add_zero]
  rw [mul_div_assoc, ← exp_sub]
  congr 2
  push_cast; ring

theorem jostB_eq (S : Spec.M2) (T0 T1 h : ℝ) (x : ℂ) :
    Spec.jostB S T0 T1 h x = S 1 0 * exp (I * x * (-(T1 + h * (1 / 2)) - (T0 - h * (1 / 2)) : ℝ)) := by
  unfold Spec.jostB
  simp only [Matrix.mulVec, dotProduct, Fin.sum_univ_two, Matrix.cons_val_zero, Matrix.cons_val_one, mul_zero, add_zero]
  rw [mul_div_assoc, ← exp_sub]
  congr 2
  push_cast; ring

/-- What the first half of the computation of the continuous spectrum delivers for every discretization. -/
theorem cont_values {d : NseDisc} {a : AknsDisc} (hd : nse_to_akns d = .ok a) {D Dg : ℕ}
    (hDg : D = Dg * akns_upsampling_factor a) (hDg2 : 2 ≤ Dg) {q r : Buf ℂ} {qf rf : ℕ → ℂ}
    (hq : q.Holds 0 D qf) (hr : r.Holds 0 D rf) {eps : ℝ} (heps : 0 < eps) {kappa : ℤ} (hk : |kappa| = 1) {M : ℕ}
    (hM : 2 ≤ M) (hsz : D * akns_degree a + M < 3 ^ 32) {U : ℂ → ℕ → Spec.M2} {deg : ℕ} {W : ℤ} {tm : Option (Buf ℂ)}
    (ht : TransferData d a D Dg eps qf rf U deg W tm) (X0 ex : ℝ) {xi : Buf ℂ}
    (hx : xi.Holds 0 M (fun i => ((X0 + ex * i : ℝ) : ℂ))) (nrm : Bool) (T0 T1 : ℝ) :
    ∃ H h1 h2,
      contH deg W tm (some q) (some r) eps D X0 ex M xi kappa nrm d = some (.ok H) ∧
      H.1.Holds 0 M h1 ∧ H.2.Holds 0 M h2 ∧
      ∀ i, i < M →
        valA W d eps Dg T0 T1 (fun i => ((X0 + ex * i : ℝ) : ℂ)) h1 i =
          Spec.jostA (Spec.chain (U ((X0 + ex * i : ℝ) : ℂ)) (Spec.slowCount a D)) T0 T1 eps ((X0 + ex * i : ℝ) : ℂ) ∧
        valB W d eps Dg T0 T1 (fun i => ((X0 + ex * i : ℝ) : ℂ)) h2 i =
          Spec.jostB (Spec.chain (U ((X0 + ex * i : ℝ) : ℂ)) (Spec.slowCount a D)) T0 T1 eps ((X0 + ex * i : ℝ) : ℂ) := by
  have hup : akns_upsampling_factor a ≠ 0 := ((C32_nse_names d).1 a hd).2
  have hupD : 2 ≤ D := by rw [hDg]; nlinarith [Nat.pos_of_ne_zero hup]
  set x : ℕ → ℂ := fun i => ((X0 + ex * i : ℝ) : ℂ) with hxdef
  -- conversion for the polynomial methods
  have conv : ∀ {W : ℤ} {n : ℕ} {y : ℕ → ℂ} {S : ℂ → Spec.M2}, nse_degree d ≠ 0 →
      (∀ l, EntriesOK d eps Dg W n (exp (2 * I * l * eps / (Spec.degree1step a : ℕ))) l y (S l)) → ∀ i,
      valA W d eps Dg T0 T1 x (fun k => (Spec.pmat 2 n (n + 1) 0 y 0 0).eval
        (exp (2 * I * x k * eps / Spec.degree1step a))) i = Spec.jostA (S (x i)) T0 T1 eps (x i) ∧
      valB W d eps Dg T0 T1 x (fun k => (Spec.pmat 2 n (n + 1) 0 y 1 0).eval
        (exp (2 * I * x k * eps / Spec.degree1step a))) i = Spec.jostB (S (x i)) T0 T1 eps (x i) := by
    intro W n y S hdeg hent i
    obtain ⟨e1, e2, -, -⟩ := hent (x i)
    have hC : phC d eps Dg = -eps * Dg := by rw [phC, if_neg hdeg]
    rw [jostA_eq, jostB_eq]
    unfold valA valB
    rw [hC]
    dsimp only
    have p1 : exp (I * x i * (-eps * Dg + (T1 + eps * (1 / 2)) - (T0 - eps * (1 / 2)) : ℝ)) * exp (I * x i * (eps * Dg)) =
        exp (I * x i * ((T1 + eps * (1 / 2)) - (T0 - eps * (1 / 2)) : ℝ)) := by
      rw [← exp_add]; congr 1; push_cast; ring
    have p2 : exp (I * x i * (-eps * Dg - (T1 + eps * (1 / 2)) - (T0 - eps * (1 / 2)) + phB d eps : ℝ)) =
        exp (I * x i * phB d eps) * exp (I * x i * (-eps * Dg - (T1 + eps * (1 / 2)) - (T0 - eps * (1 / 2)) : ℝ)) := by
      rw [← exp_add]; congr 1; push_cast; ring
    have p3 : exp (I * x i * (-eps * Dg - (T1 + eps * (1 / 2)) - (T0 - eps * (1 / 2)) : ℝ)) * exp (I * x i * (eps * Dg)) =
        exp (I * x i * (-(T1 + eps * (1 / 2)) - (T0 - eps * (1 / 2)) : ℝ)) := by
      rw [← exp_add]; congr 1; push_cast; ring
    constructor
    · rw [e1, ← p1]; ring
    · rw [p2, ← mul_assoc, e2, ← p3]; ring
  by_cases hs : Spec.slow a
  · have hsmp : Spec.slowSamples a D := by
      rcases hs with h | h | h | h | h | h | h <;> subst h <;> simp [Spec.slowSamples, hDg, akns_upsampling_factor]
    obtain ⟨H, e1, e3, e4⟩ := slow_values hd hs (by omega) hsmp hq hr heps hk (show 0 < M by omega) hx nrm
    obtain ⟨rfl, rfl, rfl, rfl⟩ := ht.slow hs
    refine ⟨H, _, _, ?_, e3, e4, ?_⟩
    · simp only [contH, and_self, if_true, e1]
    · intro i hi
      have hdeg : nse_degree d = 0 := by
        unfold nse_degree
        rw [hd]
        exact slow_degree hs
      have hB : phB d eps = 0 := by
        rw [phB, if_neg]
        rintro (h | h) <;> subst h <;> exact absurd hdeg (by decide)
      rw [jostA_eq, jostB_eq]
      unfold valA valB
      rw [hB, phC, if_pos hdeg, zpow_zero, mul_one, mul_one, zero_add, add_zero, zero_sub]
      exact ⟨rfl, rfl⟩
  · obtain ⟨hdeg, rfl, t, y, rfl, e3, e4⟩ := ht.fast hs
    obtain ⟨H, f1, f2, f3⟩ := contFast_ok hd hdeg e3 (show 1 ≤ M by omega) hsz eps X0 ex
    exact ⟨H, _, _, f1, f2, f3, fun i _ => conv (by rw [nse_degree, hd]; exact hdeg) e4 i⟩

/-- `nsev_compute_contspec` after `nsevTransfer`. -/
theorem contspec_ok {d : NseDisc} {a : AknsDisc} (hd : nse_to_akns d = .ok a) {D Dg : ℕ}
    (hDg : D = Dg * akns_upsampling_factor a) (hDg2 : 2 ≤ Dg) {q r : Buf ℂ} {qf rf : ℕ → ℂ}
    (hq : q.Holds 0 D qf) (hr : r.Holds 0 D rf) {T0 T1 : ℝ} (hT : T0 < T1) {kappa : ℤ} (hk : |kappa| = 1) {M : ℕ}
    (hM : 2 ≤ M) (hsz : D * akns_degree a + M < 3 ^ 32) (XI0 XI1 : ℝ) {eps : ℝ} (heps : eps = (T1 - T0) / (Dg - 1))
    {U : ℂ → ℕ → Spec.M2} {deg : ℕ} {W : ℤ} {tm : Option (Buf ℂ)} (ht : TransferData d a D Dg eps qf rf U deg W tm) (nrm : Bool) {cs : CsType} (hcs : ∀ n, cs ≠ .other n)
    {result : Buf ℂ} (hres : Spec.csLen cs * M ≤ result.len) :
    ∀ av bv : ℕ → ℂ,
        (∀ i, av i = Spec.jostA (Spec.chain (U (Spec.grid XI0 XI1 M i)) (Spec.slowCount a D)) T0 T1 eps (Spec.grid XI0 XI1 M i)) →
        (∀ i, bv i = Spec.jostB (Spec.chain (U (Spec.grid XI0 XI1 M i)) (Spec.slowCount a D)) T0 T1 eps (Spec.grid XI0 XI1 M i)) →
        ((cs = .AB ∨ ∀ i, i < M → av i ≠ 0) →
          ∃ b, nsev_compute_contspec deg W tm (some q) (some r) T0 T1 D XI0 XI1 M result kappa cs nrm d = some (SUCCESS, b) ∧
            b.len = result.len ∧ b.Holds 0 (Spec.csLen cs * M) (Spec.csOut cs M av bv) ∧
            ∀ j, Spec.csLen cs * M ≤ j → b.rd j = result.rd j) ∧
        (cs ≠ .AB → (∃ i, i < M ∧ av i = 0) →
          ∃ b, nsev_compute_contspec deg W tm (some q) (some r) T0 T1 D XI0 XI1 M result kappa cs nrm d =
            some (EC_DIV_BY_ZERO, b) ∧ b.len = result.len ∧ ∀ j, M ≤ j → b.rd j = result.rd j) := by
  have hup : akns_upsampling_factor a ≠ 0 := ((C32_nse_names d).1 a hd).2
  have hup' : nse_upsampling_factor d = akns_upsampling_factor a := by rw [nse_upsampling_factor, hd]
  have hkn : ∀ n, d ≠ .other n := ((C32_nse_names d).2).1 ⟨a, hd⟩
  have hdiv : D / akns_upsampling_factor a = Dg := by rw [hDg, Nat.mul_div_cancel _ (Nat.pos_of_ne_zero hup)]
  have hpos : 0 < eps := by
    rw [heps]
    have : (2 : ℝ) ≤ Dg := by exact_mod_cast hDg2
    exact div_pos (by linarith) (by linarith)
  obtain ⟨xi, x1, x2, x3⟩ := fill_spec (off := 0) (cnt := M) (b := (Buf.malloc M : Buf ℂ))
    (f := fun i => some ((XI0 + (XI1 - XI0) / (M - 1) * i : ℝ) : ℂ)) (fun i => ((XI0 + (XI1 - XI0) / (M - 1) * i : ℝ) : ℂ))
    (fun i _ _ => rfl) (Or.inl (by simp))
  have hx : xi.Holds 0 M (fun i => ((XI0 + (XI1 - XI0) / (M - 1) * i : ℝ) : ℂ)) := by
    intro i hi
    rw [x3, if_pos ⟨by omega, by omega⟩, Nat.zero_add]
  obtain ⟨H, h1, h2, e3, e4, e5, e6⟩ := cont_values hd hDg hDg2 hq hr hpos hk hM hsz ht
    XI0 ((XI1 - XI0) / (M - 1)) hx nrm T0 T1
  intro av bv hav hbv
  have hgrid : ∀ i, ((Spec.grid XI0 XI1 M i : ℝ) : ℂ) = ((XI0 + (XI1 - XI0) / (M - 1) * i : ℝ) : ℂ) := by
    intro i; rw [Spec.grid, mul_comm]
  have ea : ∀ i, i < M → valA W d eps Dg T0 T1 (fun i => ((XI0 + (XI1 - XI0) / (M - 1) * i : ℝ) : ℂ)) h1 i = av i := by
    intro i hi; rw [hav, hgrid]; exact (e6 i hi).1
  have eb : ∀ i, i < M → valB W d eps Dg T0 T1 (fun i => ((XI0 + (XI1 - XI0) / (M - 1) * i : ℝ) : ℂ)) h2 i = bv i := by
    intro i hi; rw [hbv, hgrid]; exact (e6 i hi).2
  have hzero : ∀ i, i < M → (h1 i = 0 ↔ av i = 0) := by
    intro i hi; rw [← ea i hi]; exact valA_ne.symm
  have hrun : nsev_compute_contspec deg W tm (some q) (some r) T0 T1 D XI0 XI1 M result kappa cs nrm d =
      contSwitch cs eps Dg T0 T1 W M xi H.1 H.2 result d := by
    unfold nsev_compute_contspec
    rw [hup']
    dsimp only
    rw [if_neg hup, hdiv, if_neg (by omega), ← heps]
    simp only [x1, e3, Option.bind_eq_bind, Option.bind_some]
  rw [hrun]
  constructor
  · intro h0
    obtain ⟨b, f1, f2, f3, f4⟩ := contSwitch_ok hcs hkn eps Dg T0 T1 W hx e4 e5 hres
      (h0.imp id fun h i hi => mt (hzero i hi).1 (h i hi))
    refine ⟨b, f1, f2, fun i hi => ?_, f4⟩
    rw [f3 i hi]
    congr 1
    rcases cs with _ | _ | _ | n
    · simp only [Spec.csLen, Nat.one_mul] at hi
      simp only [Spec.csOut, ea i hi, eb i hi]
    · simp only [Spec.csLen] at hi
      simp only [Spec.csOut]
      split_ifs with c
      · rw [ea i c]
      · rw [eb _ (by omega)]
    · simp only [Spec.csLen] at hi
      simp only [Spec.csOut]
      split_ifs with c c'
      · rw [ea i c, eb i c]
      · rw [ea _ (by omega)]
      · rw [eb _ (by omega)]
    · exact absurd rfl (hcs n)
  · rintro hne ⟨i, hi, hz⟩
    have hcs' : cs = .REFLECTION_COEFFICIENT ∨ cs = .BOTH := by
      rcases cs with _ | _ | _ | n
      · exact Or.inl rfl
      · exact absurd rfl hne
      · exact Or.inr rfl
      · exact absurd rfl (hcs n)
    exact contSwitch_div hcs' hkn eps Dg T0 T1 W hx e4 e5 hres ⟨i, hi, (hzero i hi).2 hz⟩

end FNFT

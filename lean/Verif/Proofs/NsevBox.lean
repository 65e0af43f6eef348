import Verif.Proofs.NsevEval
/-!
# Proofs: the bounding box
-/
namespace FNFT
open Complex AknsDisc

/-- The squared L2 norm that is used for the bounding box: `(length/n) ∑ |q_i|²` (without the derivative samples of `ES4` and `TES4`). -/
noncomputable def Spec.bsNorm2 (a : AknsDisc) (D : ℕ) (T0 T1 eps : ℝ) (qf : ℕ → ℂ) : ℝ :=
  if a = ES4 ∨ a = TES4 then (T1 - T0 + eps) / (D / 3 : ℕ) * ∑ i ∈ Finset.range (D / 3), ‖qf (3 * i)‖ ^ 2
  else (T1 - T0 + eps) / D * ∑ i ∈ Finset.range D, ‖qf i‖ ^ 2

/-- The box that belongs to the options: everything, the closed upper half plane, the resolvable part of the upper half plane, or the box
that the user has provided. -/
noncomputable def Spec.bsBoxOf (o : NsevOpts) (a : AknsDisc) (D : ℕ) (T0 T1 eps : ℝ) (qf : ℕ → ℂ) : Fin 4 → Dbl :=
  match o.filt with
  | .BASIC => ![.num ⊥, .num ⊤, .num 0, .num ⊤]
  | .FULL =>
    let m : ℝ := if akns_degree a ≠ 0 then 2 / akns_degree a else 2
    ![.num ((-(0.9 * Real.pi / (m * eps)) : ℝ) : EReal), .num ((0.9 * Real.pi / (m * eps) : ℝ) : EReal), .num 0,
      .num ((3 / 8 * Spec.bsNorm2 a D T0 T1 eps qf : ℝ) : EReal)]
  | .MANUAL => o.box
  | _ => ![.num ⊥, .num ⊤, .num ⊥, .num ⊤]

/-- The filter is known and the box of the user, if it is used, is valid. -/
def Spec.FiltOK (o : NsevOpts) : Prop :=
  match o.filt with
  | .MANUAL => Spec.ValidBox o.box
  | .other _ => False
  | _ => True

variable {D Dg : ℕ} {q r : Buf ℂ} {qf rf : ℕ → ℂ} {T0 T1 eps : ℝ} {kappa : ℤ} {o : NsevOpts} {a : AknsDisc}

theorem l2norm2_ok {N : ℕ} {Z : Buf ℂ} {f : ℕ → ℂ} (hZ : Z.Holds 0 N f) (hN : N ≠ 0) {x y : ℝ} (h : x < y) :
    misc_l2norm2 N Z x y = some (some ((y - x) / N * ∑ i ∈ Finset.range N, ‖f i‖ ^ 2)) := by
  have key := forLoop_inv (n := N) (body := fun i (val : ℝ) => do
      let z ← Z.rd i
      let tmp := ‖z‖
      return val + tmp * tmp) (s := 0) (fun k s => s = ∑ i ∈ Finset.range k, ‖f i‖ ^ 2) (by simp) ?_
  · obtain ⟨t, h1, h2⟩ := key
    unfold misc_l2norm2
    rw [if_neg (by push Not; exact ⟨h, hN⟩), h1]
    simp only [Option.bind_eq_bind, Option.bind_some, h2]
    rw [mul_comm]
    rfl
  · intro i t hi ht
    refine ⟨t + ‖f i‖ * ‖f i‖, ?_, ?_⟩
    · have := hZ i hi
      rw [Nat.zero_add] at this
      simp [this]
    · rw [Finset.sum_range_succ, ← ht]; ring

theorem bsImBound_ok (h : BaseArgs D Dg q r qf rf T0 T1 eps kappa o a) :
    bsImBound D Dg q T0 T1 eps o.disc = some (some (3 / 8 * Spec.bsNorm2 a D T0 T1 eps qf)) := by
  have hlt : T0 - eps / 2 < T1 + eps / 2 := by have := h.eps_pos; have := h.hT; linarith
  have hlen : T1 + eps / 2 - (T0 - eps / 2) = T1 - T0 + eps := by ring
  have hes : (o.disc = .ES4 ∨ o.disc = .TES4) ↔ (a = ES4 ∨ a = TES4) := by
    have hd := h.hd
    cases hc : o.disc <;> rw [hc] at hd <;> simp only [nse_to_akns] at hd <;> cases hd <;> simp
  unfold bsImBound Spec.bsNorm2
  by_cases he : a = ES4 ∨ a = TES4
  · rw [if_pos (hes.mpr he), if_pos he]
    have hup : akns_upsampling_factor a = 3 := by rcases he with rfl | rfl <;> rfl
    have hD : D = Dg * 3 := by rw [h.hDg, hup]
    have hD3 : D / 3 = Dg := by omega
    rw [hD3]
    obtain ⟨qt, t1, -, t2⟩ := fill_spec (off := 0) (cnt := Dg) (f := fun i => q.rd (3 * i)) (b := Buf.malloc Dg) (fun i => qf (3 * i))
      (fun k _ hk => by
        have := h.hq (3 * k) (by omega)
        simpa using this) (by simp)
    have t2' : qt.Holds 0 Dg fun i => qf (3 * i) := fun i hi => by
      rw [t2, if_pos (by omega), Nat.zero_add]
    rw [t1]
    simp only [Option.bind_eq_bind, Option.bind_some]
    unfold im_bound
    rw [l2norm2_ok t2' (by have := h.hDg2; omega) hlt, hlen]
    simp only [Option.bind_eq_bind, Option.bind_some, Option.map_some]
    norm_num
  · rw [if_neg (fun hh => he (hes.mp hh)), if_neg he]
    unfold im_bound
    rw [l2norm2_ok h.hq (by have := h.two_le; omega) hlt, hlen]
    simp only [Option.bind_eq_bind, Option.bind_some, Option.map_some]
    norm_num

theorem bsBox_ok (h : BaseArgs D Dg q r qf rf T0 T1 eps kappa o a) (hf : Spec.FiltOK o) :
    bsBox D Dg q T0 T1 eps o = some (.ok (Spec.bsBoxOf o a D T0 T1 eps qf)) ∧ Spec.ValidBox (Spec.bsBoxOf o a D T0 T1 eps qf) := by
  have heps := h.eps_pos
  unfold Spec.bsBoxOf bsBox
  unfold Spec.FiltOK at hf
  cases hc : o.filt with
  | NONE => exact ⟨rfl, by simp [Spec.ValidBox, Dbl.le]⟩
  | BASIC => exact ⟨rfl, by simp [Spec.ValidBox, Dbl.le]⟩
  | other n => rw [hc] at hf; exact hf.elim
  | MANUAL =>
    rw [hc] at hf
    dsimp only at hf ⊢
    refine ⟨?_, hf⟩
    obtain ⟨e0, h0⟩ := ValidBox.num hf 0
    obtain ⟨e1, h1⟩ := ValidBox.num hf 1
    obtain ⟨e2, h2⟩ := ValidBox.num hf 2
    obtain ⟨e3, h3⟩ := ValidBox.num hf 3
    rw [h0, h1, h2, h3]
  | FULL =>
    dsimp only
    have hdeg : nse_degree o.disc = akns_degree a := by rw [nse_degree, h.hd]
    obtain ⟨m, hm⟩ : ∃ m : ℝ, m = if akns_degree a ≠ 0 then 2 / (akns_degree a : ℝ) else 2 := ⟨_, rfl⟩
    have hmp : 0 < m := by
      rw [hm]
      split_ifs with h0
      · have : (0 : ℝ) < akns_degree a := by exact_mod_cast Nat.pos_of_ne_zero h0
        positivity
      · norm_num
    have hb : re_bound eps m = 0.9 * Real.pi / (m * eps) := by
      rw [re_bound, abs_of_pos (mul_pos hmp heps)]
    rw [bsImBound_ok h, hdeg, ← hm, hb]
    refine ⟨rfl, ?_⟩
    have hpos : 0 ≤ 0.9 * Real.pi / (m * eps) := by
      have := Real.pi_pos
      have := mul_pos hmp heps
      positivity
    have hn : 0 ≤ 3 / 8 * Spec.bsNorm2 a D T0 T1 eps qf := by
      have : 0 ≤ T1 - T0 + eps := by have := h.hT; linarith
      unfold Spec.bsNorm2
      split_ifs <;> exact mul_nonneg (by norm_num) (mul_nonneg (div_nonneg this (Nat.cast_nonneg _))
        (Finset.sum_nonneg fun i _ => sq_nonneg _))
    refine ⟨?_, ?_⟩
    · show ((-(0.9 * Real.pi / (m * eps)) : ℝ) : EReal) ≤ ((0.9 * Real.pi / (m * eps) : ℝ) : EReal)
      exact EReal.coe_le_coe_iff.mpr (by linarith)
    · show (0 : EReal) ≤ ((3 / 8 * Spec.bsNorm2 a D T0 T1 eps qf : ℝ) : EReal)
      exact_mod_cast hn

end FNFT

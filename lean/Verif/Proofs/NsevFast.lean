import Verif.Proofs.NsevLoc
/-!
# Proofs: localisation with a root finder
-/
namespace FNFT
open Complex AknsDisc

/-- Contract of a root finder for `∑ k ≤ deg, y_k x^(deg-k)`: it only needs the `deg+1` coefficients and an array for `deg` values;
after a successful call the array contains values `z_0, ..., z_(deg-1)` with the property `P`. -/
def Spec.RootsOK (roots : RootFinder) (P : ℕ → (ℕ → ℂ) → (ℕ → ℂ) → Prop) : Prop :=
  ∀ deg c y buf, Buf.Holds c 0 (deg + 1) y → deg ≤ buf.len → ∃ code buf', roots deg c buf = some (code, buf') ∧ buf'.len = buf.len ∧
    (code = SUCCESS → ∃ z, buf'.Holds 0 deg z ∧ P deg y z)

/-- The root finder has failed with the code `code` for this polynomial (in a call that meets its requirements). -/
def Spec.RootsFail (roots : RootFinder) (deg : ℕ) (y : ℕ → ℂ) (code : ℤ) : Prop :=
  code ≠ SUCCESS ∧ ∃ c buf buf', Buf.Holds c 0 (deg + 1) y ∧ deg ≤ buf.len ∧ roots deg c buf = some (code, buf')

/-- `z_0, ..., z_(deg-1)` are all roots of the polynomial, with multiplicities. -/
def Spec.ExactRoots (deg : ℕ) (y z : ℕ → ℂ) : Prop :=
  ∀ x : ℂ, ∑ k ∈ Finset.range (deg + 1), y k * x ^ (deg - k) = y 0 * ∏ k ∈ Finset.range deg, (x - z k)

variable {D Dg : ℕ} {q r : Buf ℂ} {qf rf : ℕ → ℂ} {T0 T1 eps : ℝ} {kappa : ℤ} {o : NsevOpts} {a : AknsDisc}

theorem nse_z_to_lambda_ok {d : NseDisc} {a : AknsDisc} (hd : nse_to_akns d = .ok a) (hdeg : akns_degree a ≠ 0) {n : ℕ} {eps : ℝ}
    {vals : Buf ℂ} {v : ℕ → ℂ} (hv : vals.Holds 0 n v) (h0 : ∀ i, i < n → v i ≠ 0) :
    ∃ b, nse_z_to_lambda n eps vals d = some (SUCCESS, b) ∧ b.len = vals.len ∧
      b.Holds 0 n (fun i => log (v i) / (2 * I * eps / Spec.degree1step a)) := by
  obtain ⟨b, h1, h2, h3⟩ := C33_z_to_lambda n eps a vals v hv hdeg h0
  refine ⟨b, ?_, h2, h3⟩
  unfold nse_z_to_lambda
  rw [hd]
  exact h1

theorem loop_prefix {σ : Type*} {n : ℕ} {body : ℕ → σ → Option σ} {s s' : σ} (P : ℕ → σ → Prop) (h : forLoop n body s = some s')
    (h0 : P 0 s) (hstep : ∀ i t t', i < n → P i t → body i t = some t' → P (i + 1) t') : P n s' := by
  induction n generalizing s' with
  | zero => rw [forLoop_zero] at h; cases h; exact h0
  | succ n ih =>
    rw [forLoop_succ] at h
    obtain ⟨t, ht, h⟩ := Option.bind_eq_some_iff.mp h
    exact hstep n t s' (Nat.lt_succ_self n) (ih ht fun i t t' hi => hstep i t t' (Nat.lt_succ_of_lt hi)) h

/-- The logarithm of zero is not a number. -/
theorem nse_z_to_lambda_none {d : NseDisc} {a : AknsDisc} (hd : nse_to_akns d = .ok a) (hdeg : akns_degree a ≠ 0) {n : ℕ} {eps : ℝ}
    {vals : Buf ℂ} {v : ℕ → ℂ} (hv : vals.Holds 0 n v) (h0 : ∃ k, k < n ∧ v k = 0) : nse_z_to_lambda n eps vals d = none := by
  have hu : akns_upsampling_factor a ≠ 0 := by
    cases a <;> simp [akns_degree, akns_upsampling_factor] at hdeg ⊢
  unfold nse_z_to_lambda
  rw [hd]
  dsimp only
  unfold akns_z_to_lambda
  rw [if_neg hu, if_neg hdeg]
  dsimp only
  rw [Option.bind_eq_bind, Option.bind_eq_none_iff]
  intro b hb
  exfalso
  have key := loop_prefix (fun j (st : Buf ℂ) => (∀ i, j ≤ i → i < n → st.rd i = some (v i)) ∧ ∀ i, i < j → v i ≠ 0) hb
    ⟨fun i _ hi => by have := hv i hi; rwa [Nat.zero_add] at this, fun i hi => absurd hi (by omega)⟩ ?_
  · obtain ⟨k, hk, hk0⟩ := h0
    exact key.2 k hk hk0
  · rintro i t t' hi ⟨h1, h2⟩ hb'
    rw [h1 i le_rfl hi, Option.bind_eq_bind, Option.bind_some] at hb'
    have hlt := Buf.rd_lt (h1 i le_rfl hi)
    by_cases hz : v i = 0
    · rw [if_pos hz] at hb'; cases hb'
    · rw [if_neg hz] at hb'
      obtain ⟨b', w1, w2, w3, w4⟩ := Buf.wr_spec (log (v i) / (2 * I * eps / ((akns_degree a * akns_upsampling_factor a : ℝ) : ℂ))) hlt
      rw [w1] at hb'
      cases hb'
      refine ⟨fun j hj hjn => by rw [w4 j (by omega)]; exact h1 j (by omega) hjn, fun j hj => ?_⟩
      rcases Nat.lt_succ_iff_lt_or_eq.mp hj with hj | rfl
      · exact h2 j hj
      · exact hz

theorem E_SUBROUTINE_ne {c : ℤ} (h : c ≠ SUCCESS) : E_SUBROUTINE c ≠ SUCCESS := by
  unfold E_SUBROUTINE SUCCESS at *
  simpa using h

theorem boundstates_fast (h : BaseArgs D Dg q r qf rf T0 T1 eps kappa o a) (hf : Spec.FiltOK o) (hloc : o.loc = .FAST_EIGENVALUE)
    (hdeg : akns_degree a ≠ 0) {roots : RootFinder} {P : ℕ → (ℕ → ℂ) → (ℕ → ℂ) → Prop} (hroots : Spec.RootsOK roots P)
    {deg : ℕ} {tm : Buf ℂ} {y : ℕ → ℂ} (htm : tm.Holds 0 (4 * (deg + 1)) y) (g : Garbage) {K0 : ℕ} {bs : Buf ℂ} (hb : K0 ≤ bs.len) :
    (∃ code K' bs', Spec.RootsFail roots deg y code ∧ nsev_compute_boundstates roots D q r deg (some tm) T0 T1 eps K0 bs o g =
        some (E_SUBROUTINE code, K', bs') ∧ bs'.len = bs.len ∧ K' = K0) ∨
    ∃ z : ℕ → ℂ, P deg y z ∧
      ((∃ k, k < deg ∧ z k = 0) → nsev_compute_boundstates roots D q r deg (some tm) T0 T1 eps K0 bs o g = none) ∧
      ((∀ k, k < deg → z k ≠ 0) →
      ∃ out K' bs', nsev_compute_boundstates roots D q r deg (some tm) T0 T1 eps K0 bs o g = some (SUCCESS, K', bs') ∧
        Spec.Filtered o (Spec.bsBoxOf o a D T0 T1 eps qf) deg (fun k => log (z k) / (2 * I * eps / Spec.degree1step a)) out ∧
        Spec.BsWritten out K0 K' bs bs') := by
  obtain ⟨x1, x2⟩ := bsBox_ok h hf
  have hup : nse_upsampling_factor o.disc ≠ 0 := by rw [h.up_eq]; exact h.up_ne
  have hDg : D / nse_upsampling_factor o.disc = Dg := by
    rw [h.up_eq, h.hDg]; exact Nat.mul_div_cancel _ (Nat.pos_of_ne_zero h.up_ne)
  have hy : tm.Holds 0 (deg + 1) y := fun i hi => htm i (by omega)
  have htl : 4 * (deg + 1) ≤ tm.len := by
    have := Buf.rd_lt (htm (4 * (deg + 1) - 1) (by omega))
    omega
  have hrun : nsev_compute_boundstates roots D q r deg (some tm) T0 T1 eps K0 bs o g =
      (bsLocalize roots D q r deg (some tm) T0 T1 eps K0 bs (Spec.bsBoxOf o a D T0 T1 eps qf) o g).bind fun L =>
        if L.ret ≠ SUCCESS then some (L.ret, K0, L.bs) else bsFinish o (Spec.bsBoxOf o a D T0 T1 eps qf) K0 L := by
    unfold nsev_compute_boundstates
    rw [if_neg hup, hDg, x1]
    rfl
  rw [hrun]
  by_cases hK : K0 ≥ deg
  · obtain ⟨code, buf', e1, e2, e3⟩ := hroots deg tm y bs hy (by omega)
    have hL : bsLocalize roots D q r deg (some tm) T0 T1 eps K0 bs (Spec.bsBoxOf o a D T0 T1 eps qf) o g =
        (bsFast roots deg tm eps o.disc bs).bind fun R => some ⟨R.1, deg, R.2, none⟩ := by
      unfold bsLocalize
      rw [hloc]
      dsimp only
      rw [if_pos hK]; rfl
    rw [hL]
    by_cases hc : code = SUCCESS
    · obtain ⟨z, z1, z2⟩ := e3 hc
      refine Or.inr ⟨z, z2, fun h0 => ?_, fun h0 => ?_⟩
      · unfold bsFast
        rw [e1]
        simp only [Option.bind_eq_bind, Option.bind_some, hc, ne_eq, not_true_eq_false, if_false, nse_z_to_lambda_none h.hd hdeg (eps := eps) z1 h0, Option.bind_none]
      obtain ⟨b2, f1, f2, f3⟩ := nse_z_to_lambda_ok h.hd hdeg (eps := eps) z1 h0
      obtain ⟨ol, K', b3, g1, g2, g3⟩ := bsFinish_ok (o := o) (box := Spec.bsBoxOf o a D T0 T1 eps qf) (K0 := K0)
        (L := ⟨SUCCESS, deg, b2, none⟩) (fun _ => x2) (fun _ => ⟨hK, f3⟩) (fun b hb => by cases hb)
      have hl : b2.len = bs.len := f2.trans e2
      refine ⟨ol, K', b3, ?_, g2, g3.1, g3.2.1, g3.2.2.trans hl⟩
      unfold bsFast
      rw [e1]
      simp only [Option.bind_eq_bind, Option.bind_some, hc, ne_eq, not_true_eq_false, if_false, f1, if_true, Option.pure_def]
      exact g1
    · refine Or.inl ⟨code, K0, buf', ⟨hc, _, _, _, hy, by omega, e1⟩, ?_, e2, rfl⟩
      unfold bsFast
      rw [e1]
      simp only [Option.bind_eq_bind, Option.bind_some, hc, ne_eq, not_false_eq_true, if_true, Option.pure_def]
      rw [if_pos (E_SUBROUTINE_ne hc)]
  · obtain ⟨code, buf', e1, e2, e3⟩ := hroots deg tm y (tm.view (deg + 1)) hy (by rw [view_len]; omega)
    have hL : bsLocalize roots D q r deg (some tm) T0 T1 eps K0 bs (Spec.bsBoxOf o a D T0 T1 eps qf) o g =
        (bsFast roots deg tm eps o.disc (tm.view (deg + 1))).bind fun R => some ⟨R.1, deg, bs, some R.2⟩ := by
      unfold bsLocalize
      rw [hloc]
      dsimp only
      rw [if_neg hK]; rfl
    rw [hL]
    by_cases hc : code = SUCCESS
    · obtain ⟨z, z1, z2⟩ := e3 hc
      refine Or.inr ⟨z, z2, fun h0 => ?_, fun h0 => ?_⟩
      · unfold bsFast
        rw [e1]
        simp only [Option.bind_eq_bind, Option.bind_some, hc, ne_eq, not_true_eq_false, if_false, nse_z_to_lambda_none h.hd hdeg (eps := eps) z1 h0, Option.bind_none]
      obtain ⟨b2, f1, f2, f3⟩ := nse_z_to_lambda_ok h.hd hdeg (eps := eps) z1 h0
      obtain ⟨ol, K', b3, g1, g2, g3⟩ := bsFinish_ok (o := o) (box := Spec.bsBoxOf o a D T0 T1 eps qf) (K0 := K0)
        (L := ⟨SUCCESS, deg, bs, some b2⟩) (fun _ => x2) (fun hb => by cases hb) (fun b hb' => by cases hb'; exact ⟨f3, hb⟩)
      refine ⟨ol, K', b3, ?_, g2, g3⟩
      unfold bsFast
      rw [e1]
      simp only [Option.bind_eq_bind, Option.bind_some, hc, ne_eq, not_true_eq_false, if_false, f1, if_true, Option.pure_def]
      exact g1
    · refine Or.inl ⟨code, K0, bs, ⟨hc, _, _, _, hy, by rw [view_len]; omega, e1⟩, ?_, rfl, rfl⟩
      unfold bsFast
      rw [e1]
      simp only [Option.bind_eq_bind, Option.bind_some, hc, ne_eq, not_false_eq_true, if_true, Option.pure_def]
      rw [if_pos (E_SUBROUTINE_ne hc)]

/-- With exact roots the candidates are zeros of `A`, and all its zeros in the strip that the principal
branch of the logarithm covers are candidates. -/
theorem exact_zeros {W : ℤ} {deg : ℕ} (heps : 0 < eps) (hdeg : akns_degree a ≠ 0) {y z : ℕ → ℂ} {A : ℂ → ℂ}
    (hA : ∀ l, A l = 2 ^ W * ∑ k ∈ Finset.range (deg + 1), y k * exp (2 * I * l * eps / (Spec.degree1step a : ℕ)) ^ (deg - k))
    (hz : Spec.ExactRoots deg y z) :
    (∀ k, k < deg → z k ≠ 0 → A (log (z k) / (2 * I * eps / Spec.degree1step a)) = 0) ∧
    (y 0 ≠ 0 → ∀ l, A l = 0 → |2 * l.re * eps / Spec.degree1step a| < Real.pi →
      ∃ k, k < deg ∧ l = log (z k) / (2 * I * eps / Spec.degree1step a)) := by
  have hp : (Spec.degree1step a : ℂ) ≠ 0 := by exact_mod_cast (degree1step_pos hdeg).ne'
  have he : (eps : ℂ) ≠ 0 := by exact_mod_cast heps.ne'
  have hpoly : ∀ l, (A l = 0 ↔
      y 0 * ∏ k ∈ Finset.range deg, (exp (2 * I * l * eps / (Spec.degree1step a : ℕ)) - z k) = 0) := by
    intro l
    rw [hA, hz, mul_eq_zero]
    simp [zpow_ne_zero]
  constructor
  · intro k hk h0
    rw [hpoly]
    have : 2 * I * (log (z k) / (2 * I * eps / Spec.degree1step a)) * eps / (Spec.degree1step a : ℕ) = log (z k) := by
      field_simp
    rw [this, exp_log h0]
    exact mul_eq_zero_of_right _ (Finset.prod_eq_zero (Finset.mem_range.mpr hk) (sub_self _))
  · intro hy l hl him
    rw [hpoly] at hl
    obtain ⟨k, hk, hk0⟩ := Finset.prod_eq_zero_iff.mp ((mul_eq_zero.mp hl).resolve_left hy)
    refine ⟨k, Finset.mem_range.mp hk, ?_⟩
    rw [← sub_eq_zero.mp hk0]
    have him' : (2 * I * l * eps / Spec.degree1step a).im = 2 * l.re * eps / Spec.degree1step a := by
      have : 2 * I * l * eps / Spec.degree1step a = ((2 * eps / Spec.degree1step a : ℝ) : ℂ) * (I * l) := by
        push_cast; ring
      rw [this, im_ofReal_mul, I_mul_im]; ring
    have := abs_lt.mp him
    rw [log_exp (by rw [him']; linarith) (by rw [him']; linarith)]
    field_simp

end FNFT

import Verif.Spec.Nsev
import Verif.Props.NseDisc
/-!
# Preprocessing of the signal for all discretizations of the NSE
-/
namespace FNFT
open Complex AknsDisc

theorem r_from_q {kappa : ℤ} (hk : |kappa| = 1) (z : ℂ) : nse_r_from_q kappa z = -(kappa : ℂ) * (starRingEnd ℂ) z := by
  rcases (abs_eq (by norm_num)).mp hk with rfl | rfl <;> simp [nse_r_from_q]

theorem disc_cases {a : AknsDisc} (hu : akns_upsampling_factor a ≠ 0) :
    akns_upsampling_factor a = 1 ∨ (a = ES4 ∨ a = TES4) ∨ Spec.isCF a := by
  cases a <;> simp [akns_upsampling_factor, Spec.isCF] at hu ⊢

theorem weights_exist {a : AknsDisc} (h : Spec.isCF a) : ∃ w ew, akns_method_weights a = .ok (w, ew) := by
  rcases h with h | h | h | h | h | h <;> subst h <;> exact ⟨_, _, rfl⟩

theorem nse_pre_ok {d : NseDisc} {a : AknsDisc} (hd : nse_to_akns d = .ok a) {D : ℕ} (hD : 2 ≤ D) (hCF : Spec.isCF a → 3 ≤ D)
    (hlt : D < 2 * 3 ^ 32) {q : Buf ℂ} {x : ℕ → ℂ} (hq : q.Holds 0 D x) {eps : ℝ} (heps : 0 < eps) {kappa : ℤ} (hk : |kappa| = 1)
    (Dsub0 : ℕ) :
    ∃ Dsub s qp rp qf rf, nse_preprocess_signal D (some q) eps kappa Dsub0 d =
        some ⟨SUCCESS, Dsub, some (qp, rp), some (0, (Dsub - 1) * s)⟩ ∧
      Spec.SubGrid D Dsub0 Dsub s ∧ qp.Holds 0 (Dsub * akns_upsampling_factor a) qf ∧
      rp.Holds 0 (Dsub * akns_upsampling_factor a) rf ∧ Spec.Processed a kappa D eps x Dsub s qf rf := by
  have hu : akns_upsampling_factor a ≠ 0 := ((C32_nse_names d).1 a hd).2
  have hrun : ∀ R, akns_preprocess_signal D (some q) (fun _ => nse_r_from_q kappa) eps Dsub0 a = some R → R.ret = SUCCESS →
      nse_preprocess_signal D (some q) eps kappa Dsub0 d = some R := by
    intro R h1 h2
    simp only [nse_preprocess_signal, hd, h1, Option.bind_eq_bind, Option.bind_some, h2, if_true, Option.pure_def]
  rcases disc_cases hu with h | h | h
  · obtain ⟨Dsub, s, qp, rp, h1, h2, h3, h4, h5, h6⟩ := C34_pointwise a h D hD q x hq eps heps (fun _ => nse_r_from_q kappa) Dsub0
    refine ⟨Dsub, s, qp, rp, _, _, hrun _ h1 rfl, h2, by rw [h, Nat.mul_one]; exact h5, by rw [h, Nat.mul_one]; exact h6, ?_⟩
    rw [Spec.Processed, if_pos h]
    exact fun j hj => ⟨rfl, r_from_q hk _⟩
  · have hup : akns_upsampling_factor a = 3 := by rcases h with h | h <;> subst h <;> rfl
    obtain ⟨Dsub, s, qp, rp, h1, h2, h3, h4, h5, h6⟩ := C34_es4 a h D hD q x hq eps heps (fun _ => nse_r_from_q kappa) Dsub0
    refine ⟨Dsub, s, qp, rp, _, _, hrun _ h1 rfl, h2, by rw [hup]; exact h5, by rw [hup]; exact h6, ?_⟩
    rw [Spec.Processed, if_neg (by omega), if_pos h]
    exact fun j hj => ⟨rfl, r_from_q hk _⟩
  · obtain ⟨c, hc⟩ := (C36_interpolant D (by omega) eps heps.ne' x).1
    obtain ⟨w, ew, hw⟩ := weights_exist h
    obtain ⟨Dsub, s, qp, rp, h1, h2, h3, h4, h5, h6⟩ := C34_commutator_free a h D (hCF h) hlt q x hq eps heps
      (fun _ => nse_r_from_q kappa) Dsub0 c hc w ew hw
    refine ⟨Dsub, s, qp, rp, _, _, hrun _ h1 rfl, h2, h5, h6, ?_⟩
    have n1 : akns_upsampling_factor a ≠ 1 := by rcases h with h | h | h | h | h | h <;> subst h <;> decide
    have n2 : ¬ (a = ES4 ∨ a = TES4) := by rcases h with h | h | h | h | h | h <;> subst h <;> decide
    rw [Spec.Processed, if_neg n1, if_neg n2]
    refine ⟨c, w, ew, hc, hw, fun i hi => ⟨rfl, ?_⟩⟩
    simp only [r_from_q hk]

end FNFT

import Verif.Model.Kdvv
import Verif.Proofs.NsevCont
import Verif.Props.KdvDisc
/-!
# Transfer matrices of the KdV equation: all entries
-/
namespace FNFT
open Complex

/-- Change of basis in which the polynomial matrices of 2SPLIT2A and 2SPLIT2_MODAL are expressed. -/
noncomputable def shiftG (a : AknsDisc) (eps : ℝ) (l w : ℂ) : Spec.M2 :=
  if a = .D2SPLIT2A ∨ a = .D2SPLIT2_MODAL then NormedSpace.exp (w • Spec.akA eps l) else 1

/-- The polynomial transfer matrix in terms of the scattering matrix. -/
def FullOK (a : AknsDisc) (eps : ℝ) (Dg : ℕ) (W : ℤ) (n : ℕ) (z : ℂ) (l : ℂ) (y : ℕ → ℂ) (S : Spec.M2) : Prop :=
  (2 : ℂ) ^ W • (Spec.pmat 2 n (n + 1) 0 y).map (Polynomial.eval z) =
    exp (I * l * (eps * Dg)) • (shiftG a eps l (-1 / 2) * S * shiftG a eps l (1 / 2))

theorem full_split {a : AknsDisc} (hs : Spec.splitting a ≠ []) {D Dg : ℕ}
    (hDg : D = Dg * akns_upsampling_factor a) (hD : 2 ≤ D) (hD' : D ≤ 2147483647) {q r : Buf ℂ} {qf rf : ℕ → ℂ}
    (hq : q.Holds 0 D qf) (hr : r.Holds 0 D rf) {eps : ℝ} (heps : 0 < eps) {L : ℕ} (hL : akns_fscatter_numel D a = some L) (Wp : Option ℤ) :
    ∃ R y U, akns_fscatter D (some q) (some r) eps (some (Buf.malloc L)) (some 0) Wp a = some R ∧ R.ret = some SUCCESS ∧
      R.deg = D * akns_degree a ∧
      Spec.NseSteps a eps qf rf U ∧ R.result.Holds 0 (4 * (D * akns_degree a + 1)) y ∧
      ∀ l, FullOK a eps Dg R.W (D * akns_degree a) (exp (2 * I * l * eps / (Spec.degree1step a : ℕ))) l y
        (Spec.chain (U l) D) := by
  have hmod : a ≠ .D2SPLIT2_MODAL := (splitting_tab hs).1
  have hdeg : akns_degree a ≠ 0 := by
    obtain ⟨-, tab, htab, -⟩ := splitting_tab hs
    exact (aknsTab_degree htab).1
  have hup : akns_upsampling_factor a ≠ 0 := fun h => by rw [h] at hDg; omega
  have hslow : ¬ Spec.slow a := by
    rintro (h | h | h | h | h | h | h) <;> subst h <;> exact hdeg rfl
  obtain ⟨R, h1, h2, h3, h4, h5, y, h6, -, EB, h8, h9, -, h10⟩ := C22_C23_fscatter a hs D hD hD' q r qf rf hq hr eps heps
    (Buf.malloc L) L hL (by simp) 0 Wp
  set EA : ℂ → ℚ → Spec.M2 := fun l w => NormedSpace.exp ((w : ℂ) • Spec.akA (eps / akns_upsampling_factor a) l) with hEA
  refine ⟨R, y, fun l n => Spec.combine (Spec.splitting a) (EA l) (EB n), h1, h2, h3, ?_, h6, ?_⟩
  · exact ⟨fun h => absurd h hslow, fun h => absurd h hmod, fun _ => ⟨EB, h8, h9, fun _ _ => rfl⟩⟩
  · intro l
    have key := h10 l
    rw [z_eq] at key
    set z := exp (2 * I * l * eps / (Spec.degree1step a : ℕ)) with hz
    have hph := phase_pow (Dg := Dg) hup l eps
    rw [← hDg] at hph
    set P := ((List.range D).map fun s => Spec.sampleMatrix a (EA l) (EB (D - 1 - s))).prod with hP
    have ent : (2 : ℂ) ^ R.W • (Spec.pmat 2 (D * akns_degree a) (D * akns_degree a + 1) 0 y).map (Polynomial.eval z) =
        exp (I * l * (eps * Dg)) • P := by
      ext i j
      have e := congrFun (congrFun key i) j
      rw [Matrix.smul_apply, Matrix.map_apply, smul_eq_mul] at e
      rw [Matrix.smul_apply, Matrix.map_apply, smul_eq_mul, Matrix.smul_apply, smul_eq_mul]
      rw [← e]
      linear_combination (-(Spec.pmat 2 (D * akns_degree a) (D * akns_degree a + 1) 0 y i j).eval z * 2 ^ R.W) * hph
    unfold FullOK
    rw [ent]
    congr 1
    by_cases h2A : a = .D2SPLIT2A
    · have hup1 : akns_upsampling_factor a = 1 := by rw [h2A]; rfl
      have e1 : EA l (-1 / 2) = NormedSpace.exp ((-1 / 2 : ℂ) • Spec.akA eps l) := by
        simp only [hEA, hup1]; push_cast; rw [div_one]
      have e2 : EA l (1 / 2) = NormedSpace.exp ((1 / 2 : ℂ) • Spec.akA eps l) := by
        simp only [hEA, hup1]; push_cast; rw [div_one]
      rw [shiftG, shiftG, if_pos (Or.inl h2A), if_pos (Or.inl h2A)]
      rw [hP, ← e1, ← e2, Spec.chain]
      simp only [Spec.sampleMatrix, if_pos h2A]
      refine list_prod_conj ?_ ?_ _ _
      · rw [e1, e2, expA_mul, ← expA_zero eps l]; norm_num
      · rw [e1, e2, expA_mul, ← expA_zero eps l]; norm_num
    · have : ¬ (a = .D2SPLIT2A ∨ a = .D2SPLIT2_MODAL) := not_or.mpr ⟨h2A, hmod⟩
      rw [shiftG, shiftG, if_neg this, if_neg this, one_mul, mul_one, hP, Spec.chain]
      simp only [Spec.sampleMatrix, if_neg h2A]

theorem full_modal {D : ℕ} (hD : 2 ≤ D) (hD' : D ≤ 2147483647) {q r : Buf ℂ} {qf rf : ℕ → ℂ}
    (hq : q.Holds 0 D qf) (hr : r.Holds 0 D rf) {eps : ℝ} (heps : 0 < eps) {L : ℕ}
    (hL : akns_fscatter_numel D .D2SPLIT2_MODAL = some L) (Wp : Option ℤ) :
    ∃ R, akns_fscatter D (some q) (some r) eps (some (Buf.malloc L)) (some 0) Wp .D2SPLIT2_MODAL = some R ∧
    ((∃ n < D, (eps * qf n) * (eps * rf n) = 1) → R.ret = some EC_DIV_BY_ZERO) ∧
    ((∀ n < D, (eps * qf n) * (eps * rf n) ≠ 1) → ∃ y U, R.ret = some SUCCESS ∧ R.deg = D ∧
      Spec.NseSteps .D2SPLIT2_MODAL eps qf rf U ∧ R.result.Holds 0 (4 * (D + 1)) y ∧
      ∀ l, FullOK .D2SPLIT2_MODAL eps D R.W D (exp (2 * I * l * eps / (Spec.degree1step .D2SPLIT2_MODAL : ℕ))) l y
        (Spec.chain (U l) D)) := by
  obtain ⟨R, h1, hdiv, hok⟩ := C22_C23_fscatter_modal D hD hD' q r qf rf hq hr eps heps
    (Buf.malloc L) L hL (by simp) 0 Wp
  refine ⟨R, h1, fun hc => (hdiv hc).1, fun hc => ?_⟩
  obtain ⟨h2, h3, -, -, y, h6, s, hs, h7⟩ := hok hc
  refine ⟨y, fun l n => NormedSpace.exp ((1 / 2 : ℂ) • Spec.akA eps l) *
      ((1 / s n) • (1 + Spec.akB eps (qf n) (rf n))) * NormedSpace.exp ((1 / 2 : ℂ) • Spec.akA eps l), h2, h3, ?_, h6, ?_⟩
  · refine ⟨fun h => ?_, fun _ => ⟨s, hs, fun _ _ => rfl⟩, fun h => absurd rfl h⟩
    rcases h with h | h | h | h | h | h | h <;> cases h
  · intro l
    have hz : exp (2 * I * l * eps / (Spec.degree1step .D2SPLIT2_MODAL : ℕ)) = exp (2 * I * l * eps) := by
      simp [Spec.degree1step, akns_degree, akns_upsampling_factor]
    rw [hz]
    have hph := phase_pow (up := 1) (Dg := D) (by omega) l eps
    rw [Nat.mul_one] at hph
    simp only [Nat.cast_one, div_one] at hph
    have key := h7 (exp (2 * I * l * eps))
    set z := exp (2 * I * l * eps) with hz
    set S := Spec.chain (fun n => NormedSpace.exp ((1 / 2 : ℂ) • Spec.akA eps l) *
      ((1 / s n) • (1 + Spec.akB eps (qf n) (rf n))) * NormedSpace.exp ((1 / 2 : ℂ) • Spec.akA eps l)) D with hS
    have hprod : exp (-I * l * eps) ^ D • ((2 : ℂ) ^ R.W • (Spec.pmat 2 D (D + 1) 0 y).map (Polynomial.eval z)) =
        NormedSpace.exp ((-1 / 2 : ℂ) • Spec.akA eps l) * S * NormedSpace.exp ((1 / 2 : ℂ) • Spec.akA eps l) := by
      rw [key, ← prod_smul_const]
      simp only [hz, al_step]
      rw [hS, Spec.chain]
      refine list_prod_conj ?_ ?_ _ _
      · rw [expA_mul, ← expA_zero eps l]; norm_num
      · rw [expA_mul, ← expA_zero eps l]; norm_num
    have hor : (AknsDisc.D2SPLIT2_MODAL = .D2SPLIT2A ∨ AknsDisc.D2SPLIT2_MODAL = .D2SPLIT2_MODAL) := Or.inr rfl
    unfold FullOK
    rw [shiftG, shiftG, if_pos hor, if_pos hor, ← hprod, smul_smul, mul_comm (exp _), hph, one_smul]

/-- One of the two samples, as the chosen AKNS system orders them. -/
def swapIf {α : Type*} (v : ℕ) (x y : α) : α := if v ≠ 0 then x else y

theorem kdv_fscatter_eq {D : ℕ} {q r result : Buf ℂ} {eps : ℝ} {deg0 : ℕ} {Wp : Option ℤ} {d : KdvDisc} {a : AknsDisc} {v : ℕ}
    (hd : kdv_to_akns d = .ok a) (hv : kdv_vanilla_flag d = .ok v) (hD : D ≠ 0) (heps : 0 < eps) {R : FscatterRes}
    (h : akns_fscatter D (some (swapIf v q r)) (some (swapIf v r q)) eps (some result) (some deg0) Wp a = some R) :
    kdv_fscatter D (some q) (some r) eps (some result) (some deg0) Wp d = some ⟨R.ret.map chk, R.deg, R.W, R.result⟩ := by
  unfold kdv_fscatter
  dsimp only
  rw [if_neg (by simp [hD, not_le.mpr heps]), hd]
  dsimp only
  rw [hv]
  dsimp only
  by_cases hv0 : v = 0
  · rw [if_neg (by simpa using hv0)]
    simp only [swapIf, hv0] at h
    rw [if_neg (by simp), if_neg (by simp)] at h
    rw [h]; rfl
  · rw [if_pos hv0]
    simp only [swapIf] at h
    rw [if_pos hv0, if_pos hv0] at h
    rw [h]; rfl

theorem kdv_numel_fast {D : ℕ} (hD : 1 ≤ D) (hD' : D ≤ 2147483647) {d : KdvDisc} {a : AknsDisc} (hd : kdv_to_akns d = .ok a)
    (hdeg : akns_degree a ≠ 0) : ∃ L, L ≠ 0 ∧ kdv_fscatter_numel D d = some L ∧ akns_fscatter_numel D a = some L := by
  obtain ⟨k, hk, -, -⟩ := nextpow2_spec D (by omega) (by omega)
  refine ⟨4 * (akns_degree a + 1) * 2 ^ k, by positivity, ?_, ?_⟩
  · simp [kdv_fscatter_numel, kdv_degree, hd, hdeg, poly_fmult_numel, hk]
  · simp [akns_fscatter_numel, hdeg, poly_fmult_numel, hk]

/-- What `kdvTransfer` delivers: one step of the discretization and, for polynomial methods, the polynomials. `qf`, `rf` are in the
order of the AKNS system. -/
structure KdvTransferData (a : AknsDisc) (D Dg : ℕ) (eps : ℝ) (qf rf : ℕ → ℂ) (U : ℂ → ℕ → Spec.M2) (deg : ℕ) (W : ℤ)
    (tm : Option (Buf ℂ)) : Prop where
  steps : Spec.NseSteps a eps qf rf U
  slow : Spec.slow a → deg = 0 ∧ W = 0 ∧ tm = none ∧ U = fun l n => Spec.slowStep expS a eps (Spec.cfWeight a) qf rf l n
  fast : ¬ Spec.slow a → akns_degree a ≠ 0 ∧ deg = D * akns_degree a ∧ ∃ t y, tm = some t ∧ t.Holds 0 (4 * (deg + 1)) y ∧
    ∀ l, FullOK a eps Dg W deg (exp (2 * I * l * eps / (Spec.degree1step a : ℕ))) l y (Spec.chain (U l) (Spec.slowCount a D))

theorem kdv_known {d : KdvDisc} {a : AknsDisc} (hd : kdv_to_akns d = .ok a) : akns_upsampling_factor a ≠ 0 ∧ ∀ n, d ≠ .other n := by
  have hn : ∀ n, d ≠ .other n := (C47_names d).2.1.1 ⟨a, hd⟩
  obtain ⟨v, hv⟩ := (C47_names d).2.2.2 hn
  exact ⟨((C47_names d).1 a v hd hv).2.2, hn⟩

/-- The transfer matrix for every discretization. -/
theorem kdvTransfer_ok {d : KdvDisc} {a : AknsDisc} {v : ℕ} (hd : kdv_to_akns d = .ok a) (hv : kdv_vanilla_flag d = .ok v) {D Dg : ℕ}
    (hDg : D = Dg * akns_upsampling_factor a) (hDg2 : 2 ≤ Dg) (hD' : D ≤ 2147483647) {q r : Buf ℂ} {qf rf : ℕ → ℂ}
    (hq : q.Holds 0 D qf) (hr : r.Holds 0 D rf) {eps : ℝ} (heps : 0 < eps)
    (hal : a = .D2SPLIT2_MODAL → ∀ n < D, (eps * qf n) * (eps * rf n) ≠ 1) (nrm : Bool) :
    ∃ deg W tm U, kdvTransfer D (some q) (some r) eps nrm d = some (.ok (deg, W, tm)) ∧
      KdvTransferData a D Dg eps (swapIf v qf rf) (swapIf v rf qf) U deg W tm := by
  have hup := (kdv_known hd).1
  have hupD : 2 ≤ D := by rw [hDg]; nlinarith [Nat.pos_of_ne_zero hup]
  have hq' : (swapIf v q r).Holds 0 D (swapIf v qf rf) := by unfold swapIf; split_ifs <;> assumption
  have hr' : (swapIf v r q).Holds 0 D (swapIf v rf qf) := by unfold swapIf; split_ifs <;> assumption
  have run : ∀ (L : ℕ) (R : FscatterRes), L ≠ 0 → kdv_fscatter_numel D d = some L →
      akns_fscatter D (some (swapIf v q r)) (some (swapIf v r q)) eps (some (Buf.malloc L)) (some 0)
        (if nrm then some 0 else none) a = some R → R.ret = some SUCCESS →
      kdvTransfer D (some q) (some r) eps nrm d = some (.ok (R.deg, R.W, some R.result)) := by
    intro L R hL0 hL h1 h2
    unfold kdvTransfer
    simp only [hL, Option.bind_eq_bind, Option.bind_some, if_neg hL0]
    rw [kdv_fscatter_eq hd hv (by omega) heps h1]
    simp only [h2, Option.map_some, Option.bind_some, chk]
    rfl
  rcases fast_or_slow hup with hs | hs | hs
  · have hdeg := slow_degree hs
    refine ⟨0, 0, none, _, ?_, slow_steps hs _ _ _, fun _ => ⟨rfl, rfl, rfl, rfl⟩, fun h => absurd hs h⟩
    simp [kdvTransfer, kdv_fscatter_numel, kdv_degree, hd, hdeg]
  · subst hs
    have hDD : D = Dg := by simpa [akns_upsampling_factor] using hDg
    subst hDD
    obtain ⟨L, hL0, hL1, hL2⟩ := kdv_numel_fast (show 1 ≤ D by omega) hD' hd (by decide)
    obtain ⟨R, h1, -, hok⟩ := full_modal hupD hD' hq' hr' heps hL2 (if nrm then some 0 else none)
    obtain ⟨y, U, e1, e2, e3, e4, e5⟩ := hok (fun n hn => by
      have := hal rfl n hn
      unfold swapIf; split_ifs
      · exact this
      · rwa [mul_comm])
    refine ⟨_, _, _, U, run L R hL0 hL1 h1 e1, e3, fun h => ?_, fun _ => ⟨by decide, by simp [akns_degree, e2], R.result, y, rfl, ?_, ?_⟩⟩
    · rcases h with h | h | h | h | h | h | h <;> cases h
    · rw [e2]; exact e4
    · rw [e2]; exact e5
  · have hdeg : akns_degree a ≠ 0 := by
      obtain ⟨-, tab, htab, -⟩ := splitting_tab hs
      exact (aknsTab_degree htab).1
    have hcnt : Spec.slowCount a D = D := by
      cases a <;> first | rfl | exact absurd rfl hs
    obtain ⟨L, hL0, hL1, hL2⟩ := kdv_numel_fast (show 1 ≤ D by omega) hD' hd hdeg
    obtain ⟨R, y, U, h1, e1, e2, e3, e4, e5⟩ := full_split hs hDg hupD hD' hq' hr' heps hL2 (if nrm then some 0 else none)
    refine ⟨_, _, _, U, run L R hL0 hL1 h1 e1, e3, fun h => absurd (slow_degree h) hdeg, fun _ => ⟨hdeg, e2, R.result, y, rfl, ?_, ?_⟩⟩
    · rw [e2]; exact e4
    · rw [e2, hcnt]; exact e5

end FNFT

import Verif.Proofs.AknsPre
import Verif.Props.Resample
import Verif.Props.Misc
/-!
# Property C34 (signal preprocessing)
-/
namespace FNFT
open AknsDisc Finset

/-! ## Specification -/

/-- `Dsub` samples with distance `s` fit into `D` samples; a requested number that divides `D` is honoured;
requesting at least `D` keeps all samples. -/
def Spec.SubGrid (D Dsub0 Dsub s : ℕ) : Prop :=
  1 ≤ s ∧ 2 ≤ Dsub ∧ Dsub ≤ D ∧ (Dsub - 1) * s < D ∧ (2 ≤ Dsub0 → Dsub0 ∣ D → Dsub = Dsub0 ∧ s * Dsub = D) ∧
    (D ≤ Dsub0 → Dsub = D ∧ s = 1)

/-- Nodes of the commutator-free methods relative to the sample, in units of the step: Gauss-Legendre nodes with
two points (`up = 2`) or three points. -/
noncomputable def Spec.cfNodes (up : ℕ) : List ℝ :=
  if up = 2 then [-(Real.sqrt 3 / 6), Real.sqrt 3 / 6] else [-(Real.sqrt 15 / 10), 0, Real.sqrt 15 / 10]

/-- The commutator-free discretizations. -/
def Spec.isCF (d : AknsDisc) : Prop :=
  d = CF4_2 ∨ d = D4SPLIT4A ∨ d = D4SPLIT4B ∨ d = CF4_3 ∨ d = CF5_3 ∨ d = CF6_4

/-- `Σ_k w[K m + k] g(node_k)`, where `K` is the number of nodes. -/
noncomputable def Spec.cfSum (w : List ℂ) (m : ℕ) (nodes : List ℝ) (g : ℝ → ℂ) : ℂ :=
  ∑ k ∈ range nodes.length, w.getD (nodes.length * m + k) 0 * g (nodes.getD k 0)

/-- Central differences with zero boundary conditions: sample, first and second derivative in turn, step `h`. -/
noncomputable def Spec.fdSample (h : ℝ) (N : ℕ) (x : ℕ → ℂ) (i : ℕ) : ℂ :=
  let j := i / 3
  let next := if j + 1 < N then x (j + 1) else 0
  let prev := if 0 < j then x (j - 1) else 0
  if i % 3 = 0 then x j
  else if i % 3 = 1 then (next - prev) / (2 * (h : ℂ))
  else (next - 2 * x j + prev) / (h : ℂ) ^ 2

/-! ## Theorems -/

theorem pre_run {D Dsub0 : ℕ} (hD : 2 ≤ D) {q : Buf ℂ} {eps : ℝ} (heps : 0 < eps) {rf : ℕ → ℂ → ℂ} {d : AknsDisc}
    (hu : akns_upsampling_factor d ≠ 0) :
    ∃ Dsub s, Spec.SubGrid D Dsub0 Dsub s ∧ ∀ t,
      preSwitch d D Dsub s eps q rf
        (Buf.malloc (Dsub * akns_upsampling_factor d), Buf.malloc (Dsub * akns_upsampling_factor d)) = some (.ok t) →
      akns_preprocess_signal D (some q) rf eps Dsub0 d =
        some ⟨SUCCESS, Dsub, some t, some (0, (Dsub - 1) * s)⟩ := by
  refine ⟨_, _, pre_arith D Dsub0 hD, ?_⟩
  intro t ht
  unfold akns_preprocess_signal
  rw [if_neg (by omega)]
  dsimp only
  rw [if_neg (not_le.mpr heps), if_neg hu, ht]
  rfl

/-- Discretizations that use one sample per step: subsampled signal and `r` computed from it. -/
theorem C34_pointwise (d : AknsDisc) (hd : akns_upsampling_factor d = 1) (D : ℕ) (hD : 2 ≤ D) (q : Buf ℂ)
    (x : ℕ → ℂ) (hq : q.Holds 0 D x) (eps : ℝ) (heps : 0 < eps) (rf : ℕ → ℂ → ℂ) (Dsub0 : ℕ) :
    ∃ Dsub s qp rp, akns_preprocess_signal D (some q) rf eps Dsub0 d =
        some ⟨SUCCESS, Dsub, some (qp, rp), some (0, (Dsub - 1) * s)⟩ ∧
      Spec.SubGrid D Dsub0 Dsub s ∧ qp.len = Dsub ∧ rp.len = Dsub ∧
      qp.Holds 0 Dsub (fun j => x (s * j)) ∧ rp.Holds 0 Dsub (fun j => rf 0 (x (s * j))) := by
  obtain ⟨Dsub, s, h1, h2⟩ := pre_run (q := q) (rf := rf) (Dsub0 := Dsub0) hD heps
    (show akns_upsampling_factor d ≠ 0 by omega)
  obtain ⟨t, e, l1, l2, r1, r2⟩ := prePoint_ok (rf 0) hq h1.2.2.2.1
  refine ⟨Dsub, s, t.1, t.2, h2 t ?_, h1, l1, l2, fun j hj => by simpa using r1 j hj, fun j hj => by simpa using r2 j hj⟩
  rw [hd, Nat.mul_one]
  cases d <;> first | (simp only [preSwitch, e]; rfl) | (simp [akns_upsampling_factor] at hd)

/-- `misc_downsample` chooses the same subsampling. -/
theorem C34_same_as_downsample (d : AknsDisc) (hd : akns_upsampling_factor d = 1) (D : ℕ) (hD : 3 ≤ D) (q : Buf ℂ)
    (x : ℕ → ℂ) (hq : q.Holds 0 D x) (eps : ℝ) (heps : 0 < eps) (rf : ℕ → ℂ → ℂ) (Dsub0 : ℕ) :
    ∃ Dsub fl qp rp qsub y, akns_preprocess_signal D (some q) rf eps Dsub0 d = some ⟨SUCCESS, Dsub, some (qp, rp), fl⟩ ∧
      misc_downsample D q Dsub0 = some ⟨SUCCESS, Dsub, some qsub, fl⟩ ∧
      qp.Holds 0 Dsub y ∧ qsub.Holds 0 Dsub y := by
  set d0 := if (if Dsub0 < 2 then 2 else Dsub0) > D then D else (if Dsub0 < 2 then 2 else Dsub0) with hd0
  have ha := pre_arith D Dsub0 (by omega)
  dsimp only at ha
  rw [← hd0] at ha
  obtain ⟨t, e, l1, l2, r1, r2⟩ := prePoint_ok (rf 0) hq ha.2.2.2.1
  obtain ⟨b, hb, hbl, hbh⟩ := downsample_loop q D _ _ x hq (Or.inr ha.2.2.2.1)
  refine ⟨roundDiv D (roundDiv D d0), some (0, (roundDiv D (roundDiv D d0) - 1) * roundDiv D d0), t.1, t.2, b,
    fun j => x (roundDiv D d0 * j), ?_, ?_, ?_, ?_⟩
  · unfold akns_preprocess_signal
    rw [if_neg (by omega)]
    dsimp only
    rw [← hd0, if_neg (not_le.mpr heps), if_neg (by omega), hd, Nat.mul_one]
    have : preSwitch d D (roundDiv D (roundDiv D d0)) (roundDiv D d0) eps q rf
        (Buf.malloc (roundDiv D (roundDiv D d0)), Buf.malloc (roundDiv D (roundDiv D d0))) = some (.ok t) := by
      cases d <;> first | (simp only [preSwitch, e]; rfl) | (simp [akns_upsampling_factor] at hd)
    rw [this]; rfl
  · simp only [misc_downsample]
    rw [if_neg (by omega), ← hd0, hb]
    simp [Nat.sub_mul]
  · intro j hj; simpa using r1 j hj
  · intro j hj
    rw [hbh j hj]; simp only [Nat.mul_comm]

theorem preRow_two {w : List ℂ} {m : ℕ} {v : List ℂ} (hv : v.length = 2) (hw : 2 * m + 1 < w.length) :
    preRow w m v = some (∑ k ∈ range 2, w.getD (2 * m + k) 0 * v.getD k 0) := by
  match v, hv with
  | [a, b], _ =>
    simp only [preRow, List.getElem?_eq_getElem (show 2 * m < w.length by omega), List.getElem?_eq_getElem hw]
    simp [sum_range_succ, List.getD_eq_getElem?_getD, List.getElem?_eq_getElem (show 2 * m < w.length by omega),
      List.getElem?_eq_getElem hw]

theorem preRow_three {w : List ℂ} {m : ℕ} {v : List ℂ} (hv : v.length = 3) (hw : 3 * m + 2 < w.length) :
    preRow w m v = some (∑ k ∈ range 3, w.getD (3 * m + k) 0 * v.getD k 0) := by
  match v, hv with
  | [a, b, c], _ =>
    simp only [preRow, List.getElem?_eq_getElem (show 3 * m < w.length by omega), List.getElem?_eq_getElem hw,
      List.getElem?_eq_getElem (show 3 * m + 1 < w.length by omega)]
    simp [sum_range_succ, List.getD_eq_getElem?_getD, List.getElem?_eq_getElem (show 3 * m < w.length by omega),
      List.getElem?_eq_getElem hw, List.getElem?_eq_getElem (show 3 * m + 1 < w.length by omega)]

theorem normRows_length (M : ℕ) (raw : ℕ → ℕ → ℂ) : (normRows M raw).1.length = 3 * M := by
  simp [normRows]

theorem sqrt_3_20 : Real.sqrt (3 / 20) = Real.sqrt 15 / 10 := by
  rw [show (3 / 20 : ℝ) = 15 / 10 ^ 2 by norm_num, Real.sqrt_div (by norm_num), Real.sqrt_sq (by norm_num)]

/-- Commutator-free discretizations: at every subsample the interpolating trigonometric polynomial is sampled
at the Gauss-Legendre nodes of the step (length `s·eps_t`), and the weighted sums of these values and of the
`r` computed from them are returned. `w` are the weights of `C35`. -/
theorem C34_commutator_free (d : AknsDisc) (hd : Spec.isCF d) (D : ℕ) (hD : 3 ≤ D) (hlt : D < 2 * 3 ^ 32) (q : Buf ℂ)
    (x : ℕ → ℂ) (hq : q.Holds 0 D x) (eps : ℝ) (heps : 0 < eps) (rf : ℕ → ℂ → ℂ) (Dsub0 : ℕ) (c : ℤ → ℂ)
    (hc : ∀ j, j < D → x j = Spec.trigPoly D (D * eps) c (j * eps)) (w ew : List ℂ)
    (hw : akns_method_weights d = .ok (w, ew)) :
    ∃ Dsub s qp rp, akns_preprocess_signal D (some q) rf eps Dsub0 d =
        some ⟨SUCCESS, Dsub, some (qp, rp), some (0, (Dsub - 1) * s)⟩ ∧
      Spec.SubGrid D Dsub0 Dsub s ∧
      qp.len = Dsub * akns_upsampling_factor d ∧ rp.len = Dsub * akns_upsampling_factor d ∧
      qp.Holds 0 (Dsub * akns_upsampling_factor d) (fun i =>
        Spec.cfSum w (i % akns_upsampling_factor d) (Spec.cfNodes (akns_upsampling_factor d)) fun nd =>
          Spec.trigPoly D (D * eps) c ((s * (i / akns_upsampling_factor d) : ℕ) * eps + nd * (s * eps))) ∧
      rp.Holds 0 (Dsub * akns_upsampling_factor d) (fun i =>
        Spec.cfSum w (i % akns_upsampling_factor d) (Spec.cfNodes (akns_upsampling_factor d)) fun nd =>
          rf 0 (Spec.trigPoly D (D * eps) c ((s * (i / akns_upsampling_factor d) : ℕ) * eps + nd * (s * eps)))) := by
  have hu : akns_upsampling_factor d ≠ 0 := by
    rcases hd with h | h | h | h | h | h <;> subst h <;> decide
  obtain ⟨Dsub, s, h1, h2⟩ := pre_run (q := q) (rf := rf) (Dsub0 := Dsub0) (show 2 ≤ D by omega) heps hu
  obtain ⟨q1, e1, g1⟩ := preResample_ok hD hlt heps.ne' (-preShift d eps s) hq
  obtain ⟨q3, e3, g3⟩ := preResample_ok hD hlt heps.ne' (preShift d eps s) hq
  have hsw : ∀ st, preSwitch d D Dsub s eps q rf st = preCF d D Dsub s eps q (rf 0) st := by
    intro st; rcases hd with h | h | h | h | h | h <;> subst h <;> rfl
  have t1 : ∀ i, i < D → resampled D eps (-preShift d eps s) x i =
      Spec.trigPoly D (D * eps) c (i * eps + -preShift d eps s) :=
    fun i hi => resampled_trig (by omega) heps.ne' _ c x hc i hi
  have t3 : ∀ i, i < D → resampled D eps (preShift d eps s) x i =
      Spec.trigPoly D (D * eps) c (i * eps + preShift d eps s) :=
    fun i hi => resampled_trig (by omega) heps.ne' _ c x hc i hi
  have hsub : ∀ i, i < Dsub * akns_upsampling_factor d → s * (i / akns_upsampling_factor d) < D := by
    intro i hi
    exact mul_lt_of_sub h1.2.2.2.1 (Nat.div_lt_of_lt_mul (by rw [Nat.mul_comm]; exact hi))
  by_cases hup : akns_upsampling_factor d = 2
  · have hwl : w.length = 4 := by
      rcases hd with h | h | h | h | h | h <;> subst h <;>
        simp [akns_method_weights, akns_upsampling_factor] at hw hup ⊢ <;> rw [← hw.1] <;> rfl
    have hsh : preShift d eps s = (Real.sqrt 3 / 6) * (s * eps) := by
      rcases hd with h | h | h | h | h | h <;> subst h <;>
        simp [preShift, akns_upsampling_factor] at hup ⊢ <;> ring
    obtain ⟨t, e, l1, l2, r1, r2⟩ := preCF_ok (up := 2) (w := w) (rf := rf 0) (s := s) (Dsub := Dsub)
      (List.Forall₂.cons g1 (List.Forall₂.cons g3 List.Forall₂.nil)) h1.2.2.2.1
      (fun m v => ∑ k ∈ range 2, w.getD (2 * m + k) 0 * v.getD k 0)
      (fun m hm v hv => preRow_two (by simpa using hv) (by omega))
    refine ⟨Dsub, s, t.1, t.2, h2 t ?_, h1, by rw [hup]; exact l1, by rw [hup]; exact l2, ?_, ?_⟩
    · rw [hsw, hup]
      unfold preCF
      simp only [e1, e3, hw, hup, Option.bind_eq_bind, Option.bind_some, if_true, e]; rfl
    · intro i hi
      have hs := hsub i hi
      rw [hup] at hi hs ⊢
      rw [Nat.zero_add, r1 i hi]
      simp only [List.map_cons, List.map_nil, t1 _ hs, t3 _ hs]
      rw [hsh]
      simp [Spec.cfSum, Spec.cfNodes, sum_range_succ]
    · intro i hi
      have hs := hsub i hi
      rw [hup] at hi hs ⊢
      rw [Nat.zero_add, r2 i hi]
      simp only [List.map_cons, List.map_nil, t1 _ hs, t3 _ hs]
      rw [hsh]
      simp [Spec.cfSum, Spec.cfNodes, sum_range_succ]
  · have hwl : w.length = 3 * akns_upsampling_factor d := by
      rcases hd with h | h | h | h | h | h <;> subst h <;>
        simp only [akns_method_weights, akns_upsampling_factor, Except.ok.injEq, not_true] at hw hup ⊢
      all_goals
        have := congrArg Prod.fst hw
        rw [show w = (w, ew).1 from rfl, ← this, normRows_length]
    have hsh : preShift d eps s = (Real.sqrt 15 / 10) * (s * eps) := by
      rcases hd with h | h | h | h | h | h <;> subst h <;>
        simp only [preShift, akns_upsampling_factor, sqrt_3_20, not_true] at hup ⊢ <;> ring
    obtain ⟨t, e, l1, l2, r1, r2⟩ := preCF_ok (up := akns_upsampling_factor d) (w := w) (rf := rf 0) (s := s) (Dsub := Dsub)
      (List.Forall₂.cons g1 (List.Forall₂.cons hq (List.Forall₂.cons g3 List.Forall₂.nil))) h1.2.2.2.1
      (fun m v => ∑ k ∈ range 3, w.getD (3 * m + k) 0 * v.getD k 0)
      (fun m hm v hv => preRow_three (by simpa using hv) (by omega))
    refine ⟨Dsub, s, t.1, t.2, h2 t ?_, h1, l1, l2, ?_, ?_⟩
    · rw [hsw]
      unfold preCF
      simp only [e1, e3, hw, Option.bind_eq_bind, Option.bind_some, if_neg hup, e]; rfl
    · intro i hi
      have hs := hsub i hi
      rw [Nat.zero_add, r1 i hi]
      simp only [List.map_cons, List.map_nil, t1 _ hs, t3 _ hs, hc _ hs]
      rw [hsh]
      simp [Spec.cfSum, Spec.cfNodes, sum_range_succ, hup]
    · intro i hi
      have hs := hsub i hi
      rw [Nat.zero_add, r2 i hi]
      simp only [List.map_cons, List.map_nil, t1 _ hs, t3 _ hs, hc _ hs]
      rw [hsh]
      simp [Spec.cfSum, Spec.cfNodes, sum_range_succ, hup]

/-- `ES4` and `TES4`: sample and central differences, zero outside; `r` is computed entry by entry. -/
theorem C34_es4 (d : AknsDisc) (hd : d = ES4 ∨ d = TES4) (D : ℕ) (hD : 2 ≤ D) (q : Buf ℂ)
    (x : ℕ → ℂ) (hq : q.Holds 0 D x) (eps : ℝ) (heps : 0 < eps) (rf : ℕ → ℂ → ℂ) (Dsub0 : ℕ) :
    ∃ Dsub s qp rp, akns_preprocess_signal D (some q) rf eps Dsub0 d =
        some ⟨SUCCESS, Dsub, some (qp, rp), some (0, (Dsub - 1) * s)⟩ ∧
      Spec.SubGrid D Dsub0 Dsub s ∧ qp.len = Dsub * 3 ∧ rp.len = Dsub * 3 ∧
      qp.Holds 0 (Dsub * 3) (Spec.fdSample (eps * s) Dsub (fun j => x (s * j))) ∧
      rp.Holds 0 (Dsub * 3) (fun i => rf (i % 3) (Spec.fdSample (eps * s) Dsub (fun j => x (s * j)) i)) := by
  have hu : akns_upsampling_factor d = 3 := by rcases hd with h | h <;> subst h <;> rfl
  obtain ⟨Dsub, s, h1, h2⟩ := pre_run (q := q) (rf := rf) (Dsub0 := Dsub0) hD heps
    (show akns_upsampling_factor d ≠ 0 by omega)
  obtain ⟨t, e, l1, l2, r1, r2⟩ := preES4_ok eps rf hq h1.2.1 h1.2.2.2.1
  refine ⟨Dsub, s, t.1, t.2, h2 t ?_, h1, l1, l2, fun j hj => by rw [Nat.zero_add, r1 j hj]; rfl,
    fun j hj => by rw [Nat.zero_add, r2 j hj]; rfl⟩
  rw [hu]
  rcases hd with h | h <;> subst h <;> simp only [preSwitch, e] <;> rfl

/-- Invalid arguments are rejected, and commutator-free methods on two samples fail; nothing is allocated for
the caller. -/
theorem C34_invalid (D : ℕ) (q : Option (Buf ℂ)) (rf : ℕ → ℂ → ℂ) (eps : ℝ) (Dsub0 : ℕ) (d : AknsDisc)
    (h : D < 2 ∨ q = none ∨ eps ≤ 0 ∨ akns_upsampling_factor d = 0) :
    akns_preprocess_signal D q rf eps Dsub0 d = some ⟨EC_INVALID_ARGUMENT, Dsub0, none, none⟩ := by
  unfold akns_preprocess_signal
  by_cases h1 : D < 2
  · rw [if_pos h1]
  rw [if_neg h1]
  rcases q with _ | q
  · rfl
  dsimp only
  by_cases h2 : eps ≤ 0
  · rw [if_pos h2]
  rw [if_neg h2]
  by_cases h3 : akns_upsampling_factor d = 0
  · rw [if_pos h3]
  · rcases h with h | h | h | h
    · exact absurd h h1
    · cases h
    · exact absurd h h2
    · exact absurd h h3

/-- Commutator-free methods on two samples: the resampling rejects the signal. -/
theorem C34_two_samples (d : AknsDisc) (hd : Spec.isCF d) (q : Buf ℂ) (rf : ℕ → ℂ → ℂ) (eps : ℝ) (heps : 0 < eps)
    (Dsub0 : ℕ) :
    akns_preprocess_signal 2 (some q) rf eps Dsub0 d = some ⟨E_SUBROUTINE EC_INVALID_ARGUMENT, Dsub0, none, none⟩ := by
  have hu : akns_upsampling_factor d ≠ 0 := by
    rcases hd with h | h | h | h | h | h <;> subst h <;> decide
  have hsw : ∀ Dsub s st, preSwitch d 2 Dsub s eps q rf st = preCF d 2 Dsub s eps q (rf 0) st := by
    intro _ _ st; rcases hd with h | h | h | h | h | h <;> subst h <;> rfl
  unfold akns_preprocess_signal
  rw [if_neg (by omega)]
  dsimp only
  rw [if_neg (not_le.mpr heps), if_neg hu, hsw]
  unfold preCF preResample
  simp only [C36_invalid 2 eps _ (some q) (some (Buf.malloc 2)) (Or.inr (Or.inl le_rfl)), Option.bind_eq_bind,
    Option.bind_some, if_neg (show ¬ EC_INVALID_ARGUMENT = SUCCESS by decide)]
  rfl

/-- NSE: `r = -conj q` in the focusing case and `r = conj q` in the defocusing case, for all discretizations that
use the samples themselves. -/
theorem C34_nse_pointwise (d : NseDisc) (hd : nse_upsampling_factor d = 1) (D : ℕ) (hD : 2 ≤ D) (q : Buf ℂ)
    (x : ℕ → ℂ) (hq : q.Holds 0 D x) (eps : ℝ) (heps : 0 < eps) (kappa : ℤ) (hk : kappa = 1 ∨ kappa = -1) (Dsub0 : ℕ) :
    ∃ Dsub s qp rp, nse_preprocess_signal D (some q) eps kappa Dsub0 d =
        some ⟨SUCCESS, Dsub, some (qp, rp), some (0, (Dsub - 1) * s)⟩ ∧
      Spec.SubGrid D Dsub0 Dsub s ∧ qp.len = Dsub ∧ rp.len = Dsub ∧
      qp.Holds 0 Dsub (fun j => x (s * j)) ∧
      rp.Holds 0 Dsub (fun j => -(kappa : ℂ) * (starRingEnd ℂ) (x (s * j))) := by
  have ha : ∃ a, nse_to_akns d = .ok a ∧ akns_upsampling_factor a = 1 := by
    unfold nse_upsampling_factor at hd
    cases h : nse_to_akns d with
    | error e => rw [h] at hd; simp at hd
    | ok a => rw [h] at hd; exact ⟨a, rfl, hd⟩
  obtain ⟨a, ha, hu⟩ := ha
  obtain ⟨Dsub, s, qp, rp, h1, h2, h3, h4, h5, h6⟩ := C34_pointwise a hu D hD q x hq eps heps
    (fun _ => nse_r_from_q kappa) Dsub0
  refine ⟨Dsub, s, qp, rp, ?_, h2, h3, h4, h5, ?_⟩
  · simp only [nse_preprocess_signal, ha, h1, Option.bind_eq_bind, Option.bind_some]; rfl
  · intro j hj
    rw [h6 j hj]
    rcases hk with rfl | rfl <;> simp [nse_r_from_q]

/-- The hypotheses can be met. -/
example : (2 : ℕ) ≤ 7 ∧ akns_upsampling_factor D2SPLIT4B = 1 ∧ Spec.isCF CF6_4 ∧ Spec.SubGrid 7 3 4 2 ∧
    (Buf.ofFn 7 (fun i => (i : ℂ))).Holds 0 7 (fun i => (i : ℂ)) ∧
    (∃ w ew, akns_method_weights CF6_4 = .ok (w, ew)) ∧
    ∃ c, ∀ j : ℕ, j < 7 → (j : ℂ) = Spec.trigPoly 7 ((7 : ℕ) * 0.5) c (j * 0.5) :=
  ⟨by norm_num, rfl, by simp [Spec.isCF], by unfold Spec.SubGrid; omega, Buf.holds_ofFn _ _, ⟨_, _, rfl⟩,
    (C36_interpolant 7 (by norm_num) 0.5 (by norm_num) (fun i => (i : ℂ))).1⟩

end FNFT

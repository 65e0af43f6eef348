import Verif.Proofs.ConvFloquet
import Verif.Props.NsevConvBound
import Verif.Props.NsepSub
/-!
# The main spectrum computed by `fnft_nsep` converges to that of the continuous-time signal
-/
set_option linter.unusedSectionVars false
namespace FNFT
open Complex AknsDisc Set
open FNFT.Conv

attribute [local instance] Matrix.linftyOpNormedRing
noncomputable local instance m2AlgebraP : NormedAlgebra ℂ Spec.M2 := Matrix.linftyOpNormedAlgebra

/-- C78. The monodromy matrix exists and is unique. -/
theorem C78_monodromy_exists {q r : ℝ → ℂ} {t0 T : ℝ} (hT : 0 ≤ T) (hq : ContinuousOn q (Icc t0 (t0 + T))) (hr : ContinuousOn r (Icc t0 (t0 + T))) (l : ℂ) :
    ∃ M, Spec.Monodromy q r t0 T l M ∧ ∀ M', Spec.Monodromy q r t0 T l M' → M' = M := by
  have hP := aknsP_cont hq hr l
  obtain ⟨B, hB⟩ := isCompact_Icc.exists_bound_of_continuousOn hP
  obtain ⟨V, h1, h2⟩ := exists_sol (by linarith : t0 ≤ t0 + T) hP 1
  refine ⟨V (t0 + T), ⟨V, fun t ht j => ⟨?_, ?_⟩, h1, rfl⟩, fun M' hM' => ?_⟩
  · refine (h2.entry 0 j t ht).congr_deriv ?_
    rw [Matrix.mul_apply, Fin.sum_univ_two]; simp [Spec.aknsP]
  · refine (h2.entry 1 j t ht).congr_deriv ?_
    rw [Matrix.mul_apply, Fin.sum_univ_two]; simp [Spec.aknsP]
  · obtain ⟨X, x1, x2, x3⟩ := monodromy_sol hM'
    rw [← x3]
    exact x1.unique h2 hB (by linarith) (by rw [x2, h1])

variable {D : ℕ} {q : Buf ℂ} {x : ℕ → ℂ} {T0 T1 : ℝ} {kappa : ℤ} {o : NsepOpts} {a : AknsDisc}

theorem smoothPeriodic_conj (hk : |kappa| = 1) {p p' : ℝ → ℂ} {T Q K L : ℝ} (hp : Spec.SmoothPeriodic p p' T Q K L) :
    Spec.SmoothPeriodic (fun t => -(kappa : ℂ) * (starRingEnd ℂ) (p t)) (fun t => -(kappa : ℂ) * (starRingEnd ℂ) (p' t)) T Q K L := by
  refine ⟨fun t => ?_, fun t => ?_, fun t => ?_, fun t => ?_, fun t u => ?_⟩
  · rw [hp.period]
  · exact (Complex.conjCLE.toContinuousLinearMap.hasFDerivAt.comp_hasDerivAt t (hp.deriv t)).const_mul (-(kappa : ℂ))
  · rw [norm_kappa hk]; exact hp.bound t
  · rw [norm_kappa hk]; exact hp.bound' t
  · rw [← mul_sub, ← map_sub, norm_kappa hk]; exact hp.lip t u

/-- C78. Let `p` be a signal of period `T` with a Lipschitz continuous derivative, let the samples be its values at `D` equidistant points, the first of which is `t0`, and let
`S(λ)` be the numerical monodromy matrix for every `s`-th sample with one of the methods of second order. For all complex `λ`, the Floquet discriminant of `S(λ)` differs from that of `p`
by at most `C h²`, `h` being the step. -/
theorem C78_floquet {T : ℝ} (hT : 0 < T) (hk : |kappa| = 1) {Ds s deg : ℕ} {S P Pa} (hP : Spec.PeriodPolys a kappa D T x Ds s deg S P Pa) (hs : s * Ds = D) (hs0 : 0 < s) (hDs : 1 ≤ Ds)
    (ha : a ∈ Spec.second) {p p' : ℝ → ℂ} {Q K L t0 : ℝ} (hL : 0 ≤ L) (hp : Spec.SmoothPeriodic p p' T Q K L)
    {h : ℝ} (hh : h = s * (T / D)) (hmod : a = .D2SPLIT2_MODAL → h * Q ≤ 1 / 2) (hx : ∀ n, n < D → x n = p (t0 + n * (T / D)))
    {l : ℂ} {M : Spec.M2} (hM : Spec.Monodromy p (fun t => -(kappa : ℂ) * (starRingEnd ℂ) (p t)) t0 T l M) :
    ‖Spec.floquet (S l) - Spec.floquet M‖ ≤ 2 * Spec.err2 (T - h) Q K L h ‖l‖ := by
  obtain ⟨-, -, -, qf, rf, U, W, pp, h1, h2, h3, -, -⟩ := hP
  obtain ⟨u1, -⟩ := first_up (List.mem_cons_of_mem _ (List.mem_cons_of_mem _ ha))
  rw [Spec.Processed, if_pos u1] at h1
  rw [h3, u1, mul_one]
  rw [← hh] at h2
  have hDs' : (0 : ℝ) < Ds := by exact_mod_cast hDs
  have hs' : (s : ℝ) * Ds = D := by exact_mod_cast hs
  have hh' : h = T / Ds := by
    have hs0 : (0 : ℝ) < s := by exact_mod_cast hs0
    rw [hh, ← hs']
    field_simp
  have hpos : 0 < h := by rw [hh']; exact div_pos hT hDs'
  have hr := smoothPeriodic_conj hk hp
  refine floquet_conv hDs hT hp hr hL hM hh' fun n hn => ?_
  have hsn : s * n < D := by rw [← hs]; exact Nat.mul_lt_mul_of_pos_left hn hs0
  obtain ⟨g1, g2⟩ := h1 n hn
  have e1 : t0 + ((s * n : ℕ) : ℝ) * (T / D) = t0 + n * h := by rw [hh]; push_cast; ring
  rw [hx _ hsn, e1] at g1 g2
  have e2 : rf n = -(kappa : ℂ) * (starRingEnd ℂ) (p (t0 + n * h)) := g2
  have b1 : ‖qf n‖ ≤ Q := by rw [g1]; exact hp.bound _
  have b2 : ‖rf n‖ ≤ Q := by rw [e2]; exact hr.bound _
  rw [← g1]
  have e3 : rf n = -(kappa : ℂ) * (starRingEnd ℂ) (qf n) := by rw [e2, g1]
  rw [← e3]
  exact step_err2 h2 hpos.le ha hmod b1 b2 _

theorem floquet_diff {T : ℝ} {Ds s deg : ℕ} {S P Pa} (hP : Spec.PeriodPolys a kappa D T x Ds s deg S P Pa) : Differentiable ℂ fun l => Spec.floquet (S l) := by
  obtain ⟨-, -, -, qf, rf, U, W, pp, -, -, -, h5, -⟩ := hP
  have e : (fun l => Spec.floquet (S l)) = fun l => (P 0).eval (Spec.zOf a (s * (T / D)) l) * (2 ^ W * exp (-(I * l * T))) := by
    funext l
    rw [h5, add_zero, zpow_neg, exp_neg]
    have := exp_ne_zero (I * l * (T : ℂ))
    have h2 : (2 : ℂ) ^ W ≠ 0 := zpow_ne_zero _ two_ne_zero
    field_simp
  rw [e]
  unfold Spec.zOf
  have h1 : Differentiable ℂ fun l : ℂ => exp (2 * I * l * ((s * (T / D) : ℝ) : ℂ) / Spec.degree1step a) := by fun_prop
  have h2 : Differentiable ℂ fun l : ℂ => (P 0).eval (exp (2 * I * l * ((s * (T / D) : ℝ) : ℂ) / Spec.degree1step a)) := (P 0).differentiable.comp h1
  exact h2.mul (by fun_prop)

/-- C78. With an exact root finder, the candidates for the points at which the Floquet discriminant is `v` are close to the points at which that of the continuous-time signal is `v`: there, it differs from `v` by
at most `C h²`; and if it is equal to `v` at `λ0` and differs from `v` by more than `2 C h²` on a circle around `λ0`, then there is a candidate inside of the circle. -/
theorem C78_candidates {T : ℝ} (hT : 0 < T) (hk : |kappa| = 1) {Ds s deg : ℕ} {S P Pa} (hP : Spec.PeriodPolys a kappa D T x Ds s deg S P Pa) (hs : s * Ds = D) (hs0 : 0 < s) (hDs : 1 ≤ Ds)
    (ha : a ∈ Spec.second) (hdeg : akns_degree a ≠ 0) {p p' : ℝ → ℂ} {Q K L t0 : ℝ} (hL : 0 ≤ L) (hp : Spec.SmoothPeriodic p p' T Q K L)
    {h : ℝ} (hh : h = s * (T / D)) (hmod : a = .D2SPLIT2_MODAL → h * Q ≤ 1 / 2) (hx : ∀ n, n < D → x n = p (t0 + n * (T / D)))
    {Δ : ℂ → ℂ} (hΔ : ∀ l, ∃ M, Spec.Monodromy p (fun t => -(kappa : ℂ) * (starRingEnd ℂ) (p t)) t0 T l M ∧ Δ l = Spec.floquet M)
    {R : ℕ → Polynomial ℂ → ℕ → ℂ} (hR : Spec.ExactFinder R) (v : ℂ) (hn : (P (-v)).natDegree = deg) (h0 : (P (-v)).coeff 0 ≠ 0) :
    (∀ l ∈ Spec.candidates R a h deg (P (-v)), ‖Δ l - v‖ ≤ 2 * Spec.err2 (T - h) Q K L h ‖l‖) ∧
    ∀ l0 δ m, Δ l0 = v → 0 < δ → (∀ l, ‖l - l0‖ = δ → m ≤ ‖Δ l - v‖) → 2 * (2 * Spec.err2 (T - h) Q K L h (‖l0‖ + δ)) < m →
      (∀ l, ‖l - l0‖ ≤ δ → |2 * l.re * h / Spec.degree1step a| < Real.pi) → ∃ l ∈ Spec.candidates R a h deg (P (-v)), ‖l - l0‖ < δ := by
  have hDs' : (1 : ℝ) ≤ Ds := by exact_mod_cast hDs
  have hs' : (s : ℝ) * Ds = D := by exact_mod_cast hs
  have hs1 : (0 : ℝ) < s := by exact_mod_cast hs0
  have hh' : h = T / Ds := by rw [hh, ← hs']; field_simp
  have hpos : 0 < h := by rw [hh']; exact div_pos hT (by linarith)
  have hle : h ≤ T := by rw [hh']; exact div_le_self hT.le hDs'
  have hne : P (-v) ≠ 0 := fun e => h0 (by rw [e]; simp)
  have hQ : 0 ≤ Q := (norm_nonneg _).trans (hp.bound 0)
  have hK : 0 ≤ K := (norm_nonneg _).trans (hp.bound' 0)
  have conv : ∀ l, ‖Spec.floquet (S l) - Δ l‖ ≤ 2 * Spec.err2 (T - h) Q K L h ‖l‖ := by
    intro l
    obtain ⟨M, h1, h2⟩ := hΔ l
    rw [h2]
    exact C78_floquet hT hk hP hs hs0 hDs ha hL hp hh hmod hx h1
  have hz : ∀ k, k < deg → R deg (P (-v)) k ≠ 0 := by
    intro k hk hzk
    have := (finder_roots hR hn hne 0).mpr ⟨k, hk, hzk.symm⟩
    rw [← Polynomial.coeff_zero_eq_eval_zero] at this
    exact h0 this
  have hev : ∀ l, (P (-v)).eval (Spec.zOf a h l) = 0 ↔ Spec.floquet (S l) = v := by
    obtain ⟨-, -, -, qf, rf, U, W, pp, -, -, -, h5, -⟩ := hP
    intro l
    rw [← hh] at h5
    rw [h5, mul_eq_zero, or_iff_right (mul_ne_zero (zpow_ne_zero _ two_ne_zero) (exp_ne_zero _)), ← sub_eq_add_neg, sub_eq_zero]
  constructor
  · intro l hl
    obtain ⟨k, k1, k2⟩ := List.mem_map.mp hl
    have k1' := List.mem_range.mp k1
    have : Spec.floquet (S l) = v := by
      rw [← hev, ← k2, zOf_lamOf hdeg hpos (hz k k1')]
      exact (finder_roots hR hn hne _).mpr ⟨k, k1', rfl⟩
    have := conv l
    rwa [‹Spec.floquet (S l) = v›, norm_sub_rev] at this
  · intro l0 δ m e1 e2 e3 e4 e5
    have hle' : ∀ l, ‖l - l0‖ ≤ δ → ‖Spec.floquet (S l) - Δ l‖ ≤ 2 * Spec.err2 (T - h) Q K L h (‖l0‖ + δ) := by
      intro l hl
      refine (conv l).trans (mul_le_mul_of_nonneg_left (err2_mono (by linarith) hQ hK hL hpos.le ?_) (by norm_num))
      rw [abs_of_nonneg (norm_nonneg _), abs_of_nonneg (by positivity)]
      have := norm_sub_norm_le l l0
      linarith
    obtain ⟨l, n1, n2⟩ := zero_in_disk ((floquet_diff hP).sub_const v) (l0 := l0) (δ := δ) (m := m - 2 * Spec.err2 (T - h) Q K L h (‖l0‖ + δ)) e2
      (fun l hl => by
        have k3 := hle' l hl.le
        have k4 := norm_sub_norm_le (Δ l - v) (Spec.floquet (S l) - v)
        rw [sub_sub_sub_cancel_right, norm_sub_rev (Δ l) (Spec.floquet (S l))] at k4
        have := e3 l hl
        linarith)
      (by
        have := hle' l0 (by simpa using e2.le)
        rw [e1] at this
        linarith)
    refine ⟨l, ?_, n1⟩
    refine (C62_candidates hP hdeg hR hh hpos (-v) hn hne hz (e5 l n1.le)).mpr ?_
    rw [neg_neg]
    exact sub_eq_zero.mp n2

theorem mem_kept {filt : NsepFilt} {box : Fin 4 → Dbl} {l : List ℂ} {z : ℂ} : z ∈ Spec.Kept filt box l ↔ z ∈ l ∧ (filt ≠ .NONE → Spec.InBoxC box z) := by
  unfold Spec.Kept
  split_ifs with h
  · simp [h]
  · simp [List.mem_filter, h]

/-- Without evaluations, nothing is refined. -/
theorem refinedList_zero {S Y : ℂ → Spec.M2} {o : NsepOpts} {box : Fin 4 → Dbl} {n : ℕ} {keep : List ℂ → List ℂ} {init : List ℂ} {code : ℤ} {out : List ℂ}
    (hmax : o.max_evals = 0) (h : Spec.RefinedList (Spec.mainMethod S Y o box n) keep init code out) : code = SUCCESS ∧ out = keep init := by
  obtain ⟨f, h1, h2⟩ := h
  have hm : ∀ z c y, Spec.mainMethod S Y o box n z c y → c = SUCCESS ∧ y = z := by
    intro z c y hy
    unfold Spec.mainMethod Spec.MainNewton at hy
    rwa [if_pos hmax] at hy
  have hc : code = SUCCESS := by
    by_contra hc
    obtain ⟨k, -, k2, -⟩ := h1.failed hc
    exact hc (hm _ _ _ k2).1
  refine ⟨hc, ?_⟩
  rw [h2]
  congr 1
  refine List.ext_getElem (by simp) fun i i1 i2 => ?_
  have := (hm _ _ _ (h1.ok hc i (by simpa using i1))).2
  simp only [List.getElem_map, List.getElem_range, this]
  rw [List.getD_eq_getElem?_getD, List.getElem?_eq_getElem i2, Option.getD_some]

/-- C78. Let `p` be a signal of period `T1 - T0` with a Lipschitz continuous derivative (for a signal `u` with `u(t + T) = e^{iφ} u(t)`, it is `u(t) e^{2iLt}`), let the samples be its values
and let `Δ` be the Floquet discriminant of the continuous-time problem. Let `fnft_nsep` look for the points at which it has one of the values `2F_0, 2F_1, …`, with the method of subsampling, no refinement
(`max_evals` is zero), one of the polynomial methods of second order, and an exact root finder. Provided that the leading and the last coefficient of the polynomials in use are different from zero, it succeeds;
the points stored (shifted by `L`) are the first ones of the lists `outs` for these values one after the other (all, if there is room), and
* `Δ` differs from `2F_n` by at most `C h²` at each point of the list for `2F_n`, `h` being the step of the subsampled signal;
* if `Δ(λ0) = 2F_n` and `|Δ - 2F_n| ≥ m > 2Ch²` on the circle with radius `δ` around `λ0`, the list has a point in the circle, provided that the disk lies in the box used for filtering and in the
  strip that the samples can resolve. -/
theorem C78_main_spectrum {roots : RootFinder} {R : ℕ → Polynomial ℂ → ℕ → ℂ} (hroots : Spec.Finder roots R) (hR : Spec.ExactFinder R)
    (h : Spec.NsepArgs D q x T0 T1 kappa o a) (hloc : o.loc = .SUBSAMPLE_AND_REFINE) (hmax : o.max_evals = 0) (ha : a ∈ Spec.second) (hdeg : akns_degree a ≠ 0)
    {ph L eps : ℝ} (hL : L = Spec.lamShift ph (T1 - T0)) (heps : eps = (T1 - T0) / D)
    {p p' : ℝ → ℂ} {Q K' Lp : ℝ} (hLp : 0 ≤ Lp) (hp : Spec.SmoothPeriodic p p' (T1 - T0) Q K' Lp)
    (hx : ∀ n : ℕ, n < D → x n * exp (2 * I * L * (T0 + eps * n)) = p (T0 + n * eps))
    (hmod : a = .D2SPLIT2_MODAL → ∀ Ds s, Spec.SubPeriod D o.Dsub Ds s → s * eps * Q ≤ 1 / 2)
    {Δ : ℂ → ℂ} (hΔ : ∀ l, ∃ M, Spec.Monodromy p (fun t => -(kappa : ℂ) * (starRingEnd ℂ) (p t)) T0 (T1 - T0) l M ∧ Δ l = Spec.floquet M) :
    ∃ (Ds s deg : ℕ) (S : ℂ → Spec.M2) (P : ℂ → Polynomial ℂ) (Pa : Polynomial ℂ),
      Spec.SubPeriod D o.Dsub Ds s ∧ Spec.PeriodPolys a kappa D (T1 - T0) (Spec.periodic x L T0 eps) Ds s deg S P Pa ∧
      let val := fun n => Spec.spineVal o.range0 o.range1 o.pps n
      let C := fun r => 2 * Spec.err2 (T1 - T0 - s * eps) Q K' Lp (s * eps) r
      ∀ (box : Fin 4 → Dbl), box = Spec.nsepEffBox (Spec.frameOpts L o) a (s * eps) → (o.filt = .NONE ∨ Spec.ValidBox box) →
      (∀ n, n < o.pps → (P (-(val n : ℝ))).natDegree = deg ∧ (P (-(val n : ℝ))).coeff 0 ≠ 0) →
      ∀ (K M : ℕ) (main : Buf ℂ), K ≤ main.len →
      ∃ outs : List (List ℂ),
        (∀ junk, ∃ st, fnft_nsep roots junk D (some q) (some (T0, T1)) ph (some K) (some main) (some M) none false kappa o = some (SUCCESS, some st) ∧
          Spec.ListOut 0 K (outs.flatten.map (· + (L : ℂ))) 0 (some main) st.K st.main) ∧ (outs.flatten.length ≤ K → outs.length = o.pps) ∧
        ∀ n list, outs[n]? = some list →
          (∀ l ∈ list, ‖Δ l - val n‖ ≤ C ‖l‖) ∧
          ∀ l0 δ m, Δ l0 = val n → 0 < δ → (∀ l, ‖l - l0‖ = δ → m ≤ ‖Δ l - val n‖) → 2 * C (‖l0‖ + δ) < m →
            (∀ l, ‖l - l0‖ ≤ δ → |2 * l.re * (s * eps) / Spec.degree1step a| < Real.pi ∧ (o.filt ≠ .NONE → Spec.InBoxC box l)) →
            ∃ l ∈ list, ‖l - l0‖ < δ := by
  have hT : 0 < T1 - T0 := by linarith [h.hT]
  have hDpos : 0 < D := by
    obtain ⟨k, -, hk⟩ := h.hD
    rw [hk]; positivity
  have hx' : ∀ n, n < D → Spec.periodic x L T0 eps n = p (T0 + n * eps) := hx
  have hnx : ∀ n, n < D → ‖x n‖ ≤ Q := fun n hn => by rw [← periodic_norm x L T0 eps, hx' n hn]; exact hp.bound _
  have hepos : 0 < eps := by rw [heps]; exact div_pos hT (by exact_mod_cast hDpos)
  obtain ⟨Ds, s, deg, S, P, Pa, E, qf, rf, Y, e1, e2, -, -, -, e6⟩ := C62_subsample hroots h hloc hdeg hL heps
    (fun hm Ds s hs j hj => by
      have h1 := hmod hm Ds s hs
      have hs0 : 0 < s := by
        rcases Nat.eq_zero_or_pos s with rfl | h0
        · have := hs.cover; omega
        · exact h0
      have h2 := hnx (s * j) (by rw [← hs.cover]; exact Nat.mul_lt_mul_of_pos_left hj hs0)
      have h3 : (s : ℝ) * eps * ‖x (s * j)‖ ≤ 1 / 2 := (mul_le_mul_of_nonneg_left h2 (by positivity)).trans h1
      have h4 : 0 ≤ (s : ℝ) * eps * ‖x (s * j)‖ := by positivity
      have h5 : ((s : ℝ) * eps * ‖x (s * j)‖) ^ 2 ≤ 1 / 4 := by nlinarith
      have h6 : (0 : ℝ) ≤ ((s : ℝ) * eps * ‖x (s * j)‖) ^ 2 := sq_nonneg _
      rcases (abs_eq (by norm_num)).mp h.hk with hk | hk <;> rw [hk] <;> push_cast <;> linarith) rfl
  refine ⟨Ds, s, deg, S, P, Pa, e1, e2, ?_⟩
  intro val C box hbox hv hdg K M main hroom
  have hs0 : 0 < s := by
    rcases Nat.eq_zero_or_pos s with rfl | h0
    · have := e1.cover; omega
    · exact h0
  have hDs : 1 ≤ Ds := by have := e1.two; omega
  have hreq : Spec.NsepReq o K (some main) M none := ⟨Or.inr (Or.inl (by simp)), fun b hb => by cases hb; exact hroom, fun b hb => by cases hb⟩
  have hcand := fun n (hn : n < o.pps) => C78_candidates hT h.hk e2 e1.cover hs0 hDs ha hdeg hLp hp (h := s * eps) (by rw [heps])
    (fun hm => hmod hm Ds s e1) (t0 := T0) (fun n hn => by rw [hx' n hn, heps]) hΔ hR (val n : ℂ) (hdg n hn).1 (hdg n hn).2
  have hnz : Spec.NoZero R o deg P Pa (some main) none := by
    refine ⟨fun _ n hn k hk hzk => ?_, fun h => by cases h⟩
    have hne : P (-(val n : ℝ)) ≠ 0 := fun e => (hdg n hn).2 (by rw [e]; simp)
    have := (finder_roots hR (hdg n hn).1 hne 0).mpr ⟨k, hk, hzk.symm⟩
    rw [← Polynomial.coeff_zero_eq_eval_zero] at this
    exact (hdg n hn).2 this
  obtain ⟨w, -, cm, outs, ca, outa, f1, f2, f3⟩ := e6 box _ hbox hv rfl K M (some main) none hreq hnz
  have f1' := f1 rfl
  have hcm : cm = SUCCESS := by
    by_contra hc
    rcases f1'.2.2.2 with ⟨hc', -⟩ | ⟨-, -, -, l, hl⟩
    · exact hc hc'
    · exact hc (refinedList_zero hmax hl).1
  refine ⟨outs, fun junk => ?_, fun hle => ?_, fun n list hn => ?_⟩
  · obtain ⟨K1, m, M', u, g1, g2, -⟩ := (f3 junk).2 ⟨fun _ => hcm, fun hh => by cases hh⟩
    exact ⟨_, g1, g2⟩
  · rw [hcm] at f1'
    exact (C62_complete f1' hle).1
  · have hnp : n < o.pps := lt_of_lt_of_le (List.getElem?_eq_some_iff.mp hn).1 f1'.1
    obtain ⟨c1, c2⟩ := hcand n hnp
    obtain ⟨-, hl⟩ := refinedList_zero hmax (f1'.2.1 n list hn)
    have hmem : ∀ z, z ∈ list ↔ z ∈ Spec.candidates R a (s * eps) deg (P (-(val n : ℝ))) ∧ (o.filt ≠ .NONE → Spec.InBoxC box z) := by
      intro z
      rw [hl, mem_kept, mem_kept]
      tauto
    refine ⟨fun l hl => c1 l ((hmem l).mp hl).1, fun l0 δ m d1 d2 d3 d4 d5 => ?_⟩
    obtain ⟨l, l1, l2⟩ := c2 l0 δ m d1 d2 d3 d4 (fun l hl => (d5 l hl).1)
    exact ⟨l, (hmem l).mpr ⟨l1, (d5 l l2.le).2⟩, l2⟩

/-! ### The coefficients of the polynomials -/

theorem chain_smul (c : ℂ) (N : ℕ → Spec.M2) (n : ℕ) : Spec.chain (fun k => c • N k) n = c ^ n • Spec.chain N n := by
  induction n with
  | zero => simp [Spec.chain]
  | succ n ih => rw [chain_succ, chain_succ, ih, smul_mul_smul_comm, pow_succ']

theorem chain_cont {N : ℂ → ℕ → Spec.M2} (h : ∀ n i j, Continuous fun w => N w n i j) (n : ℕ) : ∀ i j, Continuous fun w => Spec.chain (N w) n i j := by
  induction n with
  | zero => intro i j; simp only [Spec.chain, List.range_zero]; exact continuous_const
  | succ n ih =>
    intro i j
    simp only [chain_succ, Matrix.mul_apply, Fin.sum_univ_two]
    exact ((h n i 0).mul (ih 0 j)).add ((h n i 1).mul (ih 1 j))

theorem chain_diag (x y : ℕ → ℂ) (n : ℕ) : Spec.chain (fun k => !![x k, 0; 0, y k]) n = !![∏ k ∈ Finset.range n, x k, 0; 0, ∏ k ∈ Finset.range n, y k] := by
  induction n with
  | zero => ext i j; fin_cases i <;> fin_cases j <;> simp [Spec.chain]
  | succ n ih =>
    rw [chain_succ, ih, Finset.prod_range_succ, Finset.prod_range_succ]
    ext i j; fin_cases i <;> fin_cases j <;> simp [Matrix.mul_apply, Fin.sum_univ_two] <;> ring

theorem modal_sandwich {u v w a b c : ℂ} (hw : w ≠ 0) (h1 : u * u = w⁻¹) (h2 : v * v = w) (h3 : u * v = 1) :
    !![u, 0; 0, v] * !![c, a; b, c] * !![u, 0; 0, v] = w⁻¹ • !![c, a * w; b * w, c * w ^ 2] := by
  have h4 : w⁻¹ * w = 1 := inv_mul_cancel₀ hw
  ext i j; fin_cases i <;> fin_cases j <;> simp [Matrix.mul_apply, Fin.sum_univ_two]
  · linear_combination c * h1
  · linear_combination a * h3 - a * h4
  · linear_combination b * h3 - b * h4
  · linear_combination c * h2 - c * w * h4

/-- C78. For the Ablowitz-Ladik method, the leading and the last coefficient of the polynomials are always different from zero. -/
theorem C78_modal_coeffs {T : ℝ} (hT : 0 < T) (hk : |kappa| = 1) {Ds s deg : ℕ} {S P Pa} (hP : Spec.PeriodPolys .D2SPLIT2_MODAL kappa D T x Ds s deg S P Pa) (hs : s * Ds = D) (hs0 : 0 < s)
    (hDs : 1 ≤ Ds) {Q : ℝ} (hQ : ∀ n, n < D → ‖x n‖ ≤ Q) (hmod : s * (T / D) * Q ≤ 1 / 2) (v : ℂ) : (P v).natDegree = deg ∧ (P v).coeff 0 ≠ 0 := by
  obtain ⟨h1, h2, -, qf, rf, U, W, pp, h4, h5, h6, h7, -⟩ := hP
  have hd1 : Spec.degree1step .D2SPLIT2_MODAL = 1 := rfl
  have hu1 : akns_upsampling_factor .D2SPLIT2_MODAL = 1 := rfl
  rw [hd1, mul_one] at h1
  rw [Spec.Processed, if_pos hu1] at h4
  simp only [hu1, mul_one] at h6
  have hDs' : (0 : ℝ) < Ds := by exact_mod_cast hDs
  have hs' : (s : ℝ) * Ds = D := by exact_mod_cast hs
  have hs1 : (0 : ℝ) < s := by exact_mod_cast hs0
  obtain ⟨h, hh⟩ : ∃ h : ℝ, h = s * (T / D) := ⟨_, rfl⟩
  rw [← hh] at h5 h7 hmod
  have hTh : T = Ds * h := by rw [hh, ← hs']; field_simp
  have hpos : 0 < h := by rw [hh, ← hs']; positivity
  have hhc : (h : ℂ) ≠ 0 := by exact_mod_cast hpos.ne'
  obtain ⟨c, c1, c2⟩ := h5.2.1 rfl
  have hc : ∀ n, n < Ds → c n ≠ 0 := by
    intro n hn h0
    have e := (c1 n).1
    obtain ⟨g1, g2⟩ := h4 n hn
    have hb := hQ (s * n) (by rw [← hs]; exact Nat.mul_lt_mul_of_pos_left hn hs0)
    rw [← g1] at hb
    have hb' : ‖rf n‖ ≤ Q := by rw [g2, norm_kappa hk, ← g1]; exact hb
    rw [h0, zero_pow two_ne_zero] at e
    have e' : (h * qf n) * (h * rf n) = 1 := by linear_combination e
    have e2 := congrArg norm e'
    rw [norm_one, norm_mul, norm_mul, norm_mul, Complex.norm_real, Real.norm_eq_abs, abs_of_pos hpos] at e2
    have k1 : h * ‖qf n‖ ≤ 1 / 2 := (mul_le_mul_of_nonneg_left hb hpos.le).trans hmod
    have k2 : h * ‖rf n‖ ≤ 1 / 2 := (mul_le_mul_of_nonneg_left hb' hpos.le).trans hmod
    have k3 : 0 ≤ h * ‖qf n‖ := by positivity
    have k4 : 0 ≤ h * ‖rf n‖ := by positivity
    nlinarith
  have hprod : ∏ k ∈ Finset.range Ds, 1 / c k ≠ 0 := Finset.prod_ne_zero_iff.mpr fun k hk => one_div_ne_zero (hc k (Finset.mem_range.mp hk))
  have hDz : Ds ≠ 0 := by omega
  have h2W : (2 : ℂ) ^ (-W) ≠ 0 := zpow_ne_zero _ two_ne_zero
  -- the steps as functions of `w = exp(ilh)` and of its inverse
  obtain ⟨N, hN⟩ : ∃ N : ℂ → ℕ → Spec.M2, N = fun w n => !![1 / c n, h * qf n * (1 / c n) * w; h * rf n * (1 / c n) * w, 1 / c n * w ^ 2] := ⟨_, rfl⟩
  obtain ⟨N', hN'⟩ : ∃ N' : ℂ → ℕ → Spec.M2, N' = fun w n => !![1 / c n * w ^ 2, h * qf n * (1 / c n) * w; h * rf n * (1 / c n) * w, 1 / c n] := ⟨_, rfl⟩
  have key : ∀ w : ℂ, w ≠ 0 → (P v).eval (w ^ 2) = 2 ^ (-W) * (Spec.floquet (Spec.chain (N w) Ds) + v * w ^ Ds) := by
    intro w hw
    obtain ⟨l, hl⟩ : ∃ l : ℂ, exp (I * l * h) = w := ⟨log w / (I * h), by
      rw [show I * (log w / (I * h)) * h = log w by field_simp, exp_log hw]⟩
    have e1 : Spec.zOf .D2SPLIT2_MODAL h l = w ^ 2 := by
      rw [Spec.zOf, hd1, ← hl, ← exp_nat_mul]; congr 1; push_cast; ring
    have e2 : exp (I * l * T) = w ^ Ds := by rw [← hl, ← exp_nat_mul, hTh]; congr 1; push_cast; ring
    have e3 : S l = w⁻¹ ^ Ds • Spec.chain (N w) Ds := by
      rw [h6, ← chain_smul]
      congr 1
      funext n
      rw [c2, expA_diag, hN, ← hl]
      have q1 : exp (-I * l * h * (1 / 2)) * exp (-I * l * h * (1 / 2)) = (exp (I * l * h))⁻¹ := by rw [← exp_add, ← exp_neg]; congr 1; ring
      have q2 : exp (I * l * h * (1 / 2)) * exp (I * l * h * (1 / 2)) = exp (I * l * h) := by rw [← exp_add]; congr 1; ring
      have q3 : exp (-I * l * h * (1 / 2)) * exp (I * l * h * (1 / 2)) = 1 := by rw [← exp_add, ← exp_zero]; congr 1; ring
      have hE : exp (I * l * h) ≠ 0 := exp_ne_zero _
      have hB : (1 / c n) • (1 + Spec.akB h (qf n) (rf n)) = !![1 / c n, h * qf n * (1 / c n); h * rf n * (1 / c n), 1 / c n] := by
        ext i j; fin_cases i <;> fin_cases j <;> simp [Spec.akB] <;> ring
      rw [hB]
      exact modal_sandwich hE q1 q2 q3
    have := h7 v l
    rw [e1, e2, e3] at this
    rw [this]
    have q : Spec.floquet (w⁻¹ ^ Ds • Spec.chain (N w) Ds) = w⁻¹ ^ Ds * Spec.floquet (Spec.chain (N w) Ds) := by
      simp [Spec.floquet]; ring
    rw [q]
    have hwD : w ^ Ds ≠ 0 := pow_ne_zero _ hw
    rw [inv_pow]
    field_simp
  have hfl : ∀ X : ℂ → ℕ → Spec.M2, (∀ n i j, Continuous fun w => X w n i j) → Continuous fun w => Spec.floquet (Spec.chain (X w) Ds) := fun X hX =>
    (chain_cont hX Ds 0 0).add (chain_cont hX Ds 1 1)
  have hle := h2 v
  constructor
  · have key' : ∀ w : ℂ, w ≠ 0 → ((P v).reflect Ds).eval (w ^ 2) = 2 ^ (-W) * (Spec.floquet (Spec.chain (N' w) Ds) + v * w ^ Ds) := by
      intro w hw
      have hw2 : w ^ 2 ≠ 0 := pow_ne_zero _ hw
      have k1 := key w⁻¹ (inv_ne_zero hw)
      have k2 : N w⁻¹ = fun k => (w ^ 2)⁻¹ • N' w k := by
        rw [hN, hN']; funext n
        ext i j; fin_cases i <;> fin_cases j <;> simp <;> field_simp
      rw [k2, chain_smul] at k1
      let _ : Invertible (w ^ 2)⁻¹ := invertibleOfNonzero (inv_ne_zero hw2)
      have k3 := Polynomial.eval₂_reflect_mul_pow (RingHom.id ℂ) (w ^ 2)⁻¹ Ds (P v) (by rw [← h1]; exact hle)
      simp only [invOf_eq_inv, inv_inv, Polynomial.eval₂_id] at k3
      rw [inv_pow w 2, ← k3] at k1
      have q : Spec.floquet ((w ^ 2)⁻¹ ^ Ds • Spec.chain (N' w) Ds) = (w ^ 2)⁻¹ ^ Ds * Spec.floquet (Spec.chain (N' w) Ds) := by
        simp [Spec.floquet]; ring
      rw [q] at k1
      have hz : (w ^ 2)⁻¹ ^ Ds ≠ 0 := pow_ne_zero _ (inv_ne_zero hw2)
      refine mul_right_cancel₀ hz (k1.trans ?_)
      have : w⁻¹ ^ Ds = w ^ Ds * (w ^ 2)⁻¹ ^ Ds := by rw [← mul_pow]; congr 1; field_simp
      rw [this]; ring
    have e := Continuous.ext_on (dense_compl_singleton (0 : ℂ)) (f := fun w => ((P v).reflect Ds).eval (w ^ 2)) (g := fun w => 2 ^ (-W) * (Spec.floquet (Spec.chain (N' w) Ds) + v * w ^ Ds))
      (((P v).reflect Ds).continuous.comp (continuous_pow 2)) (continuous_const.mul ((hfl N' (by
        intro n i j; rw [hN']; fin_cases i <;> fin_cases j <;> simp <;> fun_prop)).add (by fun_prop))) (fun w hw => key' w hw)
    have e0 := congrFun e 0
    have hN0 : N' 0 = fun k => !![0, 0; 0, 1 / c k] := by rw [hN']; funext n; simp
    simp only [hN0] at e0
    rw [chain_diag (fun _ => 0) (fun k => 1 / c k), zero_pow two_ne_zero, ← Polynomial.coeff_zero_eq_eval_zero, Polynomial.coeff_reflect, Polynomial.revAt_le (Nat.zero_le _), Nat.sub_zero] at e0
    rw [h1]
    refine le_antisymm (by rw [← h1]; exact hle) (Polynomial.le_natDegree_of_ne_zero ?_)
    rw [e0]
    rw [zero_pow hDz, mul_zero, add_zero]
    refine mul_ne_zero h2W ?_
    rw [Spec.floquet]
    simpa [hDz, hDs] using hprod
  · have e := Continuous.ext_on (dense_compl_singleton (0 : ℂ)) (f := fun w => (P v).eval (w ^ 2)) (g := fun w => 2 ^ (-W) * (Spec.floquet (Spec.chain (N w) Ds) + v * w ^ Ds))
      ((P v).continuous.comp (continuous_pow 2)) (continuous_const.mul ((hfl N (by
        intro n i j; rw [hN]; fin_cases i <;> fin_cases j <;> simp <;> fun_prop)).add (by fun_prop))) (fun w hw => key w hw)
    have e0 := congrFun e 0
    have hN0 : N 0 = fun k => !![1 / c k, 0; 0, 0] := by rw [hN]; funext n; simp
    simp only [hN0] at e0
    rw [chain_diag (fun k => 1 / c k) (fun _ => 0)] at e0
    rw [Polynomial.coeff_zero_eq_eval_zero]
    simp only [zero_pow two_ne_zero] at e0
    rw [e0]
    rw [zero_pow hDz, mul_zero, add_zero]
    refine mul_ne_zero h2W ?_
    rw [Spec.floquet]
    simpa [hDz, hDs] using hprod

/-! ### The conditions can be met -/

/-- A constant signal (16 samples, four of which are used), with the Ablowitz-Ladik method, an exact root finder and no refinement. -/
example : ∃ (o : NsepOpts) (q : Buf ℂ) (roots : RootFinder) (R : ℕ → Polynomial ℂ → ℕ → ℂ) (Δ : ℂ → ℂ),
    Spec.Finder roots R ∧ Spec.ExactFinder R ∧ Spec.NsepArgs 16 q (fun _ => 1) 0 1 1 o .D2SPLIT2_MODAL ∧ o.loc = .SUBSAMPLE_AND_REFINE ∧ o.max_evals = 0 ∧ 0 < o.pps ∧
    D2SPLIT2_MODAL ∈ Spec.second ∧ akns_degree .D2SPLIT2_MODAL ≠ 0 ∧ Spec.SmoothPeriodic (fun _ => 1) (fun _ => 0) (1 - 0) 1 0 0 ∧
    (∀ n : ℕ, n < 16 → (1 : ℂ) * exp (2 * I * (Spec.lamShift 0 (1 - 0) : ℝ) * ((0 : ℝ) + ((1 - 0) / (16 : ℕ) : ℝ) * n)) = 1) ∧
    (∀ Ds s, Spec.SubPeriod 16 o.Dsub Ds s → s * ((1 - 0) / (16 : ℕ)) * 1 ≤ (1 / 2 : ℝ)) ∧
    (∀ l, ∃ M, Spec.Monodromy (fun _ => 1) (fun _ => -((1 : ℤ) : ℂ) * (starRingEnd ℂ) 1) 0 (1 - 0) l M ∧ Δ l = Spec.floquet M) ∧
    (∀ s : ℕ, 0 < s → Spec.ValidBox (Spec.nsepEffBox (Spec.frameOpts (Spec.lamShift 0 (1 - 0)) o) .D2SPLIT2_MODAL (s * ((1 - 0) / (16 : ℕ))))) ∧
    ∀ Ds s deg S P Pa, Spec.SubPeriod 16 o.Dsub Ds s →
      Spec.PeriodPolys .D2SPLIT2_MODAL 1 16 (1 - 0) (Spec.periodic (fun _ => 1) (Spec.lamShift 0 (1 - 0)) 0 ((1 - 0) / (16 : ℕ))) Ds s deg S P Pa →
      ∀ v, (P v).natDegree = deg ∧ (P v).coeff 0 ≠ 0 := by
  obtain ⟨roots, R, h1, -, h3⟩ := exists_finder fun z => z
  have hL : Spec.lamShift 0 (1 - 0) = 0 := by simp [Spec.lamShift]
  have hmon := fun l => C78_monodromy_exists (q := fun _ => 1) (r := fun _ => -((1 : ℤ) : ℂ) * (starRingEnd ℂ) 1) (t0 := 0) (T := 1 - 0) (by norm_num) continuousOn_const continuousOn_const l
  choose Mo hMo using hmon
  have hsub : ∀ Ds s, Spec.SubPeriod 16 4 Ds s → 0 < s ∧ 1 ≤ Ds ∧ s * ((1 - 0) / (16 : ℕ)) * 1 ≤ (1 / 2 : ℝ) := by
    intro Ds s hs
    have c1 := hs.cover
    have c2 := hs.two
    have c3 : s ≤ 8 := by nlinarith
    have c4 : (s : ℝ) ≤ 8 := by exact_mod_cast c3
    refine ⟨?_, by omega, by push_cast; linarith⟩
    rcases Nat.eq_zero_or_pos s with rfl | h0
    · omega
    · exact h0
  refine ⟨{ nsep_default_opts with Dsub := 4, max_evals := 0, disc := .D2SPLIT2_MODAL }, Buf.ofList (List.replicate 16 1), roots, R, fun l => Spec.floquet (Mo l), h1, h3 fun _ => rfl,
    ⟨rfl, ⟨4, by norm_num, by norm_num⟩, fun h => absurd h (by simp [Spec.isCF]), by decide, fun i hi => ?_, by norm_num, by norm_num⟩, rfl, rfl, by decide,
    by simp [Spec.second], by decide, ⟨fun _ => rfl, fun t => hasDerivAt_const t _, by simp, by simp, by simp⟩, fun n _ => by rw [hL]; simp, fun Ds s hs => (hsub Ds s hs).2.2,
    fun l => ⟨Mo l, (hMo l).1, rfl⟩, fun s hs => effBox_auto (by rw [frame_filt]; rfl) _ (by positivity), fun Ds s deg S P Pa hs hP v => ?_⟩
  · rcases i with _ | _ | _ | _ | _ | _ | _ | _ | _ | _ | _ | _ | _ | _ | _ | _ | i
    all_goals first | rfl | omega
  · obtain ⟨g1, g2, g3⟩ := hsub Ds s hs
    exact C78_modal_coeffs (by norm_num) (by norm_num) hP hs.cover g1 g2 (Q := 1) (fun n _ => by rw [hL]; simp [Spec.periodic]) g3 v

end FNFT

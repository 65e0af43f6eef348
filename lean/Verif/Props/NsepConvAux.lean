import Verif.Proofs.ConvAux
import Verif.Props.NsepConv
import Verif.Props.AknsBound
/-!
# The auxiliary spectrum computed by `fnft_nsep` converges to that of the continuous-time signal
-/
set_option linter.unusedSectionVars false
namespace FNFT
open Complex AknsDisc Set
open FNFT.Conv

attribute [local instance] Matrix.linftyOpNormedRing
noncomputable local instance m2AlgebraPA : NormedAlgebra ℂ Spec.M2 := Matrix.linftyOpNormedAlgebra

variable {D : ℕ} {q : Buf ℂ} {x : ℕ → ℂ} {T0 T1 : ℝ} {kappa : ℤ} {o : NsepOpts} {a : AknsDisc}

/-- C85. Let `p` be a function of period `T` with Lipschitz continuous derivative. For the second-order methods, each entry of the numerical monodromy matrix `S` differs by at most `C h²` from that
of the monodromy matrix of the continuous-time problem for the period that starts half a step before the first sample. Compared with the period that starts at the first sample, the difference is at most
`C h`. -/
theorem C85_entries {T : ℝ} (hT : 0 < T) (hk : |kappa| = 1) {Ds s deg : ℕ} {S P Pa} (hP : Spec.PeriodPolys a kappa D T x Ds s deg S P Pa) (hs : s * Ds = D) (hs0 : 0 < s) (hDs : 1 ≤ Ds)
    (ha : a ∈ Spec.second) {p p' : ℝ → ℂ} {Q K L t0 : ℝ} (hL : 0 ≤ L) (hp : Spec.SmoothPeriodic p p' T Q K L)
    {h : ℝ} (hh : h = s * (T / D)) (hmod : a = .D2SPLIT2_MODAL → h * Q ≤ 1 / 2) (hx : ∀ n, n < D → x n = p (t0 + n * (T / D))) {l : ℂ} {M' M : Spec.M2}
    (hM' : Spec.Monodromy p (fun t => -(kappa : ℂ) * (starRingEnd ℂ) (p t)) (t0 - h / 2) T l M') (hM : Spec.Monodromy p (fun t => -(kappa : ℂ) * (starRingEnd ℂ) (p t)) t0 T l M) (i j : Fin 2) :
    ‖S l i j - M' i j‖ ≤ Spec.err2 (T - h) Q K L h ‖l‖ ∧ ‖S l i j - M i j‖ ≤ Spec.err2 (T - h) Q K L h ‖l‖ + Spec.baseErr T Q h ‖l‖ := by
  obtain ⟨-, -, -, qf, rf, U, W, pp, h1, h2, h3, -, -⟩ := hP
  obtain ⟨u1, -⟩ := first_up (List.mem_cons_of_mem _ (List.mem_cons_of_mem _ ha))
  rw [Spec.Processed, if_pos u1] at h1
  rw [h3, u1, mul_one]
  rw [← hh] at h2
  have hDs' : (0 : ℝ) < Ds := by exact_mod_cast hDs
  have hDs1 : (1 : ℝ) ≤ Ds := by exact_mod_cast hDs
  have hs' : (s : ℝ) * Ds = D := by exact_mod_cast hs
  have hh' : h = T / Ds := by
    have hs0 : (0 : ℝ) < s := by exact_mod_cast hs0
    rw [hh, ← hs']
    field_simp
  have hpos : 0 < h := by rw [hh']; exact div_pos hT hDs'
  have hle : h ≤ T := by rw [hh']; exact div_le_self hT.le hDs1
  have hr := smoothPeriodic_conj hk hp
  have key : ‖Spec.chain (U l) Ds - M'‖ ≤ Spec.err2 (T - h) Q K L h ‖l‖ := by
    refine monodromy_half hDs hT hp hr hL hh' hM' fun n hn => ?_
    have hsn : s * n < D := by rw [← hs]; exact Nat.mul_lt_mul_of_pos_left hn hs0
    obtain ⟨g1, g2⟩ := h1 n hn
    have e1 : t0 + ((s * n : ℕ) : ℝ) * (T / D) = t0 + n * h := by rw [hh]; push_cast; ring
    rw [hx _ hsn, e1] at g1 g2
    have e2 : rf n = -(kappa : ℂ) * (starRingEnd ℂ) (p (t0 + n * h)) := g2
    have b1 : ‖qf n‖ ≤ Q := by rw [g1]; exact hp.bound _
    have b2 : ‖rf n‖ ≤ Q := by rw [e2]; exact hr.bound _
    rw [← g1]
    have e3 : rf n = -(kappa : ℂ) * (starRingEnd ℂ) (qf n) := by rw [e2, g1]
    rw [← e3]
    exact step_err2 h2 hpos.le ha hmod b1 b2 _
  have hpc : Continuous p := continuous_iff_continuousAt.mpr fun t => (hp.deriv t).continuousAt
  have hrc : Continuous (fun t => -(kappa : ℂ) * (starRingEnd ℂ) (p t)) := continuous_iff_continuousAt.mpr fun t => (hr.deriv t).continuousAt
  have base := monodromy_base (k := h / 2) (B := |‖l‖| + Q) hM hM' (by linarith) (by linarith) hpc hrc hp.period hr.period
    (fun t => by rw [abs_of_nonneg (norm_nonneg _)]; exact norm_aknsP (hp.bound t) (hr.bound t))
  refine ⟨(entry_le (Spec.chain (U l) Ds - M') i j).trans key, (entry_le (Spec.chain (U l) Ds - M) i j).trans ?_⟩
  have : Spec.chain (U l) Ds - M = (Spec.chain (U l) Ds - M') + (M' - M) := by abel
  rw [this]
  exact (norm_add_le _ _).trans (add_le_add key base)

theorem aux_diff {T : ℝ} {Ds s deg : ℕ} {S P Pa} (hP : Spec.PeriodPolys a kappa D T x Ds s deg S P Pa) : Differentiable ℂ fun l => S l 0 1 := by
  obtain ⟨-, -, -, qf, rf, U, W, pp, -, -, -, -, h5⟩ := hP
  have e : (fun l => S l 0 1) = fun l => Pa.eval (Spec.zOf a (s * (T / D)) l) * (2 ^ W * exp (-(I * l * T)) * exp (-(I * l * pp))) := by
    funext l
    rw [h5, zpow_neg, exp_neg, exp_neg]
    have := exp_ne_zero (I * l * (T : ℂ))
    have := exp_ne_zero (I * l * (pp : ℂ))
    have h2 : (2 : ℂ) ^ W ≠ 0 := zpow_ne_zero _ two_ne_zero
    field_simp
  rw [e]
  unfold Spec.zOf
  have h1 : Differentiable ℂ fun l : ℂ => exp (2 * I * l * ((s * (T / D) : ℝ) : ℂ) / Spec.degree1step a) := by fun_prop
  have h2 : Differentiable ℂ fun l : ℂ => Pa.eval (exp (2 * I * l * ((s * (T / D) : ℝ) : ℂ) / Spec.degree1step a)) := Pa.differentiable.comp h1
  exact h2.mul (by fun_prop)

/-- C85. If the polynomial in use has the right degree and no root at zero, the candidates for points of the auxiliary spectrum are approximate zeros of every function that differs from the `(1,2)` entry of
the numerical monodromy matrix by at most `C`, in the strip that the samples can resolve. -/
theorem C85_candidates {T : ℝ} {Ds s deg : ℕ} {S P Pa} (hP : Spec.PeriodPolys a kappa D T x Ds s deg S P Pa) (hdeg : akns_degree a ≠ 0) {h : ℝ} (hh : h = s * (T / D)) (hpos : 0 < h)
    {R : ℕ → Polynomial ℂ → ℕ → ℂ} (hR : Spec.ExactFinder R) (hn : Pa.natDegree = deg) (h0 : Pa.coeff 0 ≠ 0)
    {β : ℂ → ℂ} {C : ℝ → ℝ} (hC : ∀ r r', 0 ≤ r → r ≤ r' → C r ≤ C r') (hβ : ∀ l, ‖S l 0 1 - β l‖ ≤ C ‖l‖) :
    Spec.ApproxZeros β C (fun l => |2 * l.re * h / Spec.degree1step a| < Real.pi) (Spec.candidates R a h deg Pa) := by
  have hne : Pa ≠ 0 := fun e => h0 (by rw [e]; simp)
  have hz : ∀ k, k < deg → R deg Pa k ≠ 0 := by
    intro k hk hzk
    have := (finder_roots hR hn hne 0).mpr ⟨k, hk, hzk.symm⟩
    rw [← Polynomial.coeff_zero_eq_eval_zero] at this
    exact h0 this
  have hev : ∀ l, Pa.eval (Spec.zOf a h l) = 0 ↔ S l 0 1 = 0 := by
    obtain ⟨-, -, -, qf, rf, U, W, pp, -, -, -, -, h5⟩ := hP
    intro l
    rw [← hh] at h5
    rw [h5, mul_eq_zero, or_iff_right (mul_ne_zero (zpow_ne_zero _ two_ne_zero) (exp_ne_zero _)), mul_eq_zero, or_iff_right (exp_ne_zero _)]
  constructor
  · intro l hl
    obtain ⟨k, k1, k2⟩ := List.mem_map.mp hl
    have k1' := List.mem_range.mp k1
    have : S l 0 1 = 0 := by
      rw [← hev, ← k2, zOf_lamOf hdeg hpos (hz k k1')]
      exact (finder_roots hR hn hne _).mpr ⟨k, k1', rfl⟩
    have h2 := hβ l
    rwa [this, zero_sub, norm_neg] at h2
  · intro l0 δ m e1 e2 e3 e4 e5
    have hle' : ∀ l, ‖l - l0‖ ≤ δ → ‖S l 0 1 - β l‖ ≤ C (‖l0‖ + δ) := fun l hl => (hβ l).trans (hC _ _ (norm_nonneg _) (by
      have := norm_sub_norm_le l l0
      linarith))
    obtain ⟨l, n1, n2⟩ := zero_in_disk (aux_diff hP) (l0 := l0) (δ := δ) (m := m - C (‖l0‖ + δ)) e2
      (fun l hl => by
        have k3 := hle' l hl.le
        have k4 := norm_sub_norm_le (β l) (S l 0 1)
        rw [norm_sub_rev] at k4
        have := e3 l hl
        linarith)
      (by
        have := hle' l0 (by simpa using e2.le)
        rw [e1, sub_zero] at this
        linarith)
    exact ⟨l, (C62_aux_candidates hP hdeg hR hh hpos hn hne hz (e5 l n1.le)).mpr n2, n1⟩

/-- Without evaluations, nothing is refined. -/
theorem refinedAux_zero {S Y : ℂ → Spec.M2} {w : ℂ → ℤ} {o : NsepOpts} {box : Fin 4 → Dbl} {keep : List ℂ → List ℂ} {init : List ℂ} {code : ℤ} {out : List ℂ}
    (hmax : o.max_evals = 0) (h : Spec.RefinedList (Spec.auxMethod S Y w o box) keep init code out) : code = SUCCESS ∧ out = keep init := by
  obtain ⟨f, h1, h2⟩ := h
  have hm : ∀ z c y, Spec.auxMethod S Y w o box z c y → c = SUCCESS ∧ y = z := by
    intro z c y hy
    unfold Spec.auxMethod at hy
    rw [hmax] at hy
    obtain ⟨zz, k, g1, g2, g3, -, -, g4⟩ := hy
    have : k = 0 := by omega
    subst this
    refine ⟨?_, by rw [g3, g1]⟩
    rcases g4 with ⟨-, -, g⟩ | ⟨g, -⟩
    · omega
    · exact g
  have hc : code = SUCCESS := by
    by_contra hc
    obtain ⟨k, -, k2, -⟩ := h1.failed hc
    exact hc (hm _ _ _ k2).1
  refine ⟨hc, ?_⟩
  rw [h2]
  congr 1
  refine List.ext_getElem (by simp) fun i i1 i2 => ?_
  have := (hm _ _ _ (h1.ok hc i (by simpa using i1))).2
  simp only [List.getElem_map, List.getElem_range, this]
  rw [List.getD_eq_getElem?_getD, List.getElem?_eq_getElem i2, Option.getD_some]

theorem baseErr_mono {T Q h r r' : ℝ} (hT : 0 ≤ T) (hQ : 0 ≤ Q) (hh : 0 ≤ h) (hr : 0 ≤ r) (h' : r ≤ r') : Spec.baseErr T Q h r ≤ Spec.baseErr T Q h r' := by
  unfold Spec.baseErr
  rw [abs_of_nonneg hr, abs_of_nonneg (hr.trans h')]
  have h2 : 0 ≤ r' := hr.trans h'
  have h3 : (r + Q) * (h / 2) ≤ (r' + Q) * (h / 2) := by gcongr
  have h4 : 0 ≤ (r' + Q) * (h / 2) := by positivity
  gcongr

set_option maxHeartbeats 1000000 in
/-- C85. Let `p` be a signal of period `T1 - T0` with a Lipschitz continuous derivative (for a signal `u` with `u(t + T) = e^{iφ} u(t)`, it is `u(t) e^{2iLt}`), let the samples be its values. Let `fnft_nsep`
compute the auxiliary spectrum with the method of subsampling, no refinement (`max_evals` is zero), one of the polynomial methods of second order, and an exact root finder. Provided that the leading and the last
coefficient of the polynomials in use are different from zero, it succeeds; the points stored (shifted by `L`) are the first ones of `list` (all, if there is room), and these points are approximate zeros of
* the `(1,2)` entry `β` of the monodromy matrix of the continuous-time problem for the period that starts half a step before the first sample, up to errors `C h²`, `h` being the step of the subsampled signal;
* the `(1,2)` entry for the period `[T0, T1]`, up to errors `C h`,
for circles in the box used for filtering and in the strip that the samples can resolve. -/
theorem C85_aux_spectrum {roots : RootFinder} {R : ℕ → Polynomial ℂ → ℕ → ℂ} (hroots : Spec.Finder roots R) (hR : Spec.ExactFinder R)
    (h : Spec.NsepArgs D q x T0 T1 kappa o a) (hloc : o.loc = .SUBSAMPLE_AND_REFINE) (hmax : o.max_evals = 0) (ha : a ∈ Spec.second) (hdeg : akns_degree a ≠ 0)
    {ph L eps : ℝ} (hL : L = Spec.lamShift ph (T1 - T0)) (heps : eps = (T1 - T0) / D)
    {p p' : ℝ → ℂ} {Q K' Lp : ℝ} (hLp : 0 ≤ Lp) (hp : Spec.SmoothPeriodic p p' (T1 - T0) Q K' Lp)
    (hx : ∀ n : ℕ, n < D → x n * exp (2 * I * L * (T0 + eps * n)) = p (T0 + n * eps))
    (hmod : a = .D2SPLIT2_MODAL → ∀ Ds s, Spec.SubPeriod D o.Dsub Ds s → s * eps * Q ≤ 1 / 2) :
    ∃ (Ds s deg : ℕ) (S : ℂ → Spec.M2) (P : ℂ → Polynomial ℂ) (Pa : Polynomial ℂ),
      Spec.SubPeriod D o.Dsub Ds s ∧ Spec.PeriodPolys a kappa D (T1 - T0) (Spec.periodic x L T0 eps) Ds s deg S P Pa ∧
      ∀ (box : Fin 4 → Dbl), box = Spec.nsepEffBox (Spec.frameOpts L o) a (s * eps) → (o.filt = .NONE ∨ Spec.ValidBox box) →
      Pa.natDegree = deg → Pa.coeff 0 ≠ 0 →
      ∀ (K M : ℕ) (main : Option (Buf ℂ)) (aux : Buf ℂ), M ≤ aux.len → (∀ b, main = some b → K ≤ b.len) → (main = none → o.filt = .NONE) →
      (main ≠ none → ∀ n, n < o.pps → (P (-(Spec.spineVal o.range0 o.range1 o.pps n : ℝ))).natDegree = deg ∧ (P (-(Spec.spineVal o.range0 o.range1 o.pps n : ℝ))).coeff 0 ≠ 0) →
      ∃ list : List ℂ,
        (∀ junk, ∃ st, fnft_nsep roots junk D (some q) (some (T0, T1)) ph (some K) main (some M) (some aux) false kappa o = some (SUCCESS, some st) ∧
          Spec.ListOut 0 M (list.map (· + (L : ℂ))) 0 (some aux) st.M st.aux) ∧
        let region := fun l : ℂ => |2 * l.re * (s * eps) / Spec.degree1step a| < Real.pi ∧ (o.filt ≠ .NONE → Spec.InBoxC box l)
        (∀ β : ℂ → ℂ, (∀ l, ∃ M, Spec.Monodromy p (fun t => -(kappa : ℂ) * (starRingEnd ℂ) (p t)) (T0 - s * eps / 2) (T1 - T0) l M ∧ β l = M 0 1) →
          Spec.ApproxZeros β (Spec.err2 (T1 - T0 - s * eps) Q K' Lp (s * eps)) region list) ∧
        ∀ β : ℂ → ℂ, (∀ l, ∃ M, Spec.Monodromy p (fun t => -(kappa : ℂ) * (starRingEnd ℂ) (p t)) T0 (T1 - T0) l M ∧ β l = M 0 1) →
          Spec.ApproxZeros β (fun r => Spec.err2 (T1 - T0 - s * eps) Q K' Lp (s * eps) r + Spec.baseErr (T1 - T0) Q (s * eps) r) region list := by
  have hT : 0 < T1 - T0 := by linarith [h.hT]
  have hDpos : 0 < D := by
    obtain ⟨k, -, hk⟩ := h.hD
    rw [hk]; positivity
  have hx' : ∀ n, n < D → Spec.periodic x L T0 eps n = p (T0 + n * eps) := hx
  have hnx : ∀ n, n < D → ‖x n‖ ≤ Q := fun n hn => by rw [← periodic_norm x L T0 eps, hx' n hn]; exact hp.bound _
  have hepos : 0 < eps := by rw [heps]; exact div_pos hT (by exact_mod_cast hDpos)
  obtain ⟨Ds, s, deg, S, P, Pa, E, qf, rf, Y, e1, e2, -, -, -, e6⟩ := C62_subsample hroots h hloc hdeg hL heps
    (fun hm Ds s hs j hj => by
      have h1 := hmod hm Ds s hs
      have hs0 : 0 < s := by
        rcases Nat.eq_zero_or_pos s with rfl | h0
        · have := hs.cover; omega
        · exact h0
      have h2 := hnx (s * j) (by rw [← hs.cover]; exact Nat.mul_lt_mul_of_pos_left hj hs0)
      have h3 : (s : ℝ) * eps * ‖x (s * j)‖ ≤ 1 / 2 := (mul_le_mul_of_nonneg_left h2 (by positivity)).trans h1
      have h4 : 0 ≤ (s : ℝ) * eps * ‖x (s * j)‖ := by positivity
      have h5 : ((s : ℝ) * eps * ‖x (s * j)‖) ^ 2 ≤ 1 / 4 := by nlinarith
      have h6 : (0 : ℝ) ≤ ((s : ℝ) * eps * ‖x (s * j)‖) ^ 2 := sq_nonneg _
      rcases (abs_eq (by norm_num)).mp h.hk with hk | hk <;> rw [hk] <;> push_cast <;> linarith) rfl
  refine ⟨Ds, s, deg, S, P, Pa, e1, e2, ?_⟩
  intro box hbox hv hdg h0 K M main aux hroom hroomK hfm hdgm
  have hs0 : 0 < s := by
    rcases Nat.eq_zero_or_pos s with rfl | h0
    · have := e1.cover; omega
    · exact h0
  have hDs : 1 ≤ Ds := by have := e1.two; omega
  have hstep : (s : ℝ) * eps = s * ((T1 - T0) / D) := by rw [heps]
  have hspos : 0 < (s : ℝ) * eps := by have : (0 : ℝ) < s := by exact_mod_cast hs0
                                       positivity
  have hse : (s : ℝ) * eps ≤ T1 - T0 := by
    have k1 : (s : ℝ) * Ds = D := by exact_mod_cast e1.cover
    have k2 : (1 : ℝ) ≤ Ds := by exact_mod_cast hDs
    have k3 : (0 : ℝ) < D := by exact_mod_cast hDpos
    rw [hstep, mul_div_assoc', div_le_iff₀ k3, mul_comm]
    refine mul_le_mul_of_nonneg_left ?_ hT.le
    nlinarith [(Nat.cast_nonneg s : (0 : ℝ) ≤ s)]
  have hQ : 0 ≤ Q := (norm_nonneg _).trans (hp.bound 0)
  have hK : 0 ≤ K' := (norm_nonneg _).trans (hp.bound' 0)
  have hreq : Spec.NsepReq o K main M (some aux) := ⟨(by
    by_cases hm : main = none
    · exact Or.inl (hfm hm)
    · exact Or.inr (Or.inl hm)), hroomK, fun b hb => (by cases hb; exact hroom)⟩
  have hne : Pa ≠ 0 := fun e => h0 (by rw [e]; simp)
  have hnz : Spec.NoZero R o deg P Pa main (some aux) := by
    refine ⟨fun hm n hn k hk hzk => ?_, fun _ k hk hzk => ?_⟩
    · obtain ⟨g1, g2⟩ := hdgm (Option.isSome_iff_ne_none.mp hm) n hn
      have hne : P (-(Spec.spineVal o.range0 o.range1 o.pps n : ℝ)) ≠ 0 := fun e => g2 (by rw [e]; simp)
      have := (finder_roots hR g1 hne 0).mpr ⟨k, hk, hzk.symm⟩
      rw [← Polynomial.coeff_zero_eq_eval_zero] at this
      exact g2 this
    have := (finder_roots hR hdg hne 0).mpr ⟨k, hk, hzk.symm⟩
    rw [← Polynomial.coeff_zero_eq_eval_zero] at this
    exact h0 this
  obtain ⟨w, -, cm, outs, ca, outa, f1, f2, f3⟩ := e6 box _ hbox hv rfl K M main (some aux) hreq hnz
  have hcm : main.isSome → cm = SUCCESS := by
    intro hm
    by_contra hc
    rcases (f1 hm).2.2.2 with ⟨hc', -⟩ | ⟨-, -, -, l, hl⟩
    · exact hc hc'
    · exact hc (refinedList_zero hmax hl).1
  obtain ⟨hca, hl⟩ := refinedAux_zero hmax (f2 rfl)
  have hmem : ∀ z, z ∈ outa ↔ z ∈ Spec.candidates R a (s * eps) deg Pa ∧ (o.filt ≠ .NONE → Spec.InBoxC box z) := by
    intro z
    rw [hl, mem_kept, mem_kept]
    tauto
  have hfin : ∀ (β : ℂ → ℂ) (C : ℝ → ℝ), (∀ r r', 0 ≤ r → r ≤ r' → C r ≤ C r') → (∀ l, ‖S l 0 1 - β l‖ ≤ C ‖l‖) →
      Spec.ApproxZeros β C (fun l : ℂ => |2 * l.re * (s * eps) / Spec.degree1step a| < Real.pi ∧ (o.filt ≠ .NONE → Spec.InBoxC box l)) outa := by
    intro β C hC hβ
    obtain ⟨c1, c2⟩ := C85_candidates e2 hdeg hstep hspos hR hdg h0 hC hβ
    refine ⟨fun l hl => c1 l ((hmem l).mp hl).1, fun l0 δ m d1 d2 d3 d4 d5 => ?_⟩
    obtain ⟨l, l1, l2⟩ := c2 l0 δ m d1 d2 d3 d4 (fun l hl => (d5 l hl).1)
    exact ⟨l, (hmem l).mpr ⟨l1, (d5 l l2.le).2⟩, l2⟩
  have hC2 : ∀ r r', 0 ≤ r → r ≤ r' → Spec.err2 (T1 - T0 - s * eps) Q K' Lp (s * eps) r ≤ Spec.err2 (T1 - T0 - s * eps) Q K' Lp (s * eps) r' := fun r r' k1 k2 =>
    err2_mono (by linarith) hQ hK hLp hspos.le (by rw [abs_of_nonneg k1, abs_of_nonneg (k1.trans k2)]; exact k2)
  have hpc : Continuous p := continuous_iff_continuousAt.mpr fun t => (hp.deriv t).continuousAt
  have hrc : Continuous (fun t => -(kappa : ℂ) * (starRingEnd ℂ) (p t)) := continuous_iff_continuousAt.mpr fun t => ((smoothPeriodic_conj h.hk hp).deriv t).continuousAt
  have hent : ∀ l M' M, Spec.Monodromy p (fun t => -(kappa : ℂ) * (starRingEnd ℂ) (p t)) (T0 - s * eps / 2) (T1 - T0) l M' →
      Spec.Monodromy p (fun t => -(kappa : ℂ) * (starRingEnd ℂ) (p t)) T0 (T1 - T0) l M → _ := fun l M' M hM' hM =>
    C85_entries hT h.hk e2 e1.cover hs0 hDs ha hLp hp hstep (fun hm => hmod hm Ds s e1) (t0 := T0) (fun n hn => by rw [hx' n hn, heps]) hM' hM 0 1
  refine ⟨outa, fun junk => ?_, fun β hβ => hfin β _ hC2 fun l => ?_, fun β hβ => hfin β _ (fun r r' k1 k2 => add_le_add (hC2 r r' k1 k2) (baseErr_mono hT.le hQ hspos.le k1 k2)) fun l => ?_⟩
  · obtain ⟨K1, m, M', u, g1, -, g2⟩ := (f3 junk).2 ⟨hcm, fun _ => hca⟩
    exact ⟨_, g1, g2⟩
  · obtain ⟨M', m1, m2⟩ := hβ l
    obtain ⟨M, m3, -⟩ := C78_monodromy_exists hT.le hpc.continuousOn hrc.continuousOn l (t0 := T0)
    rw [m2]; exact (hent l M' M m1 m3).1
  · obtain ⟨M, m1, m2⟩ := hβ l
    obtain ⟨M', m3, -⟩ := C78_monodromy_exists hT.le hpc.continuousOn hrc.continuousOn l (t0 := T0 - s * eps / 2)
    rw [m2]; exact (hent l M' M m3 m1).2

/-! ### The coefficients of the polynomial -/

theorem chain_rank1 {N : Spec.M2} {t : ℂ} (h : N * N = t • N) (n : ℕ) : Spec.chain (fun _ => N) (n + 1) = t ^ n • N := by
  induction n with
  | zero => rw [chain_succ]; simp [Spec.chain]
  | succ n ih => rw [chain_succ, ih, mul_smul_comm, h, smul_smul, pow_succ]

theorem strangB_mat (c σ w z : ℂ) :
    !![c, σ; -σ, c] * !![w, 0; 0, w * z] * !![c, σ; -σ, c] = w • !![c ^ 2 - z * σ ^ 2, c * σ * (1 + z); -(c * σ * (1 + z)), z * c ^ 2 - σ ^ 2] := by
  ext i j; fin_cases i <;> fin_cases j <;> simp [Matrix.mul_apply, Fin.sum_univ_two] <;> ring

/-- C85. For a constant signal and the method 2SPLIT2B, the leading and the last coefficient of the polynomial for the auxiliary spectrum are different from zero. -/
theorem C85_const_coeffs {D : ℕ} {x : ℕ → ℂ} {T : ℝ} {Ds s deg : ℕ} {S P Pa} (hP : Spec.PeriodPolys .D2SPLIT2B 1 D T x Ds s deg S P Pa) (hs : s * Ds = D) (hs0 : 0 < s)
    (hDs : 1 ≤ Ds) (hx : ∀ n, n < D → x n = 1) (hl : 1e-7 ≤ s * (T / D)) (hu : s * (T / D) ≤ 1 / 2) : Pa.natDegree = deg ∧ Pa.coeff 0 ≠ 0 := by
  obtain ⟨h1, -, hle, qf, rf, U, W, p, h4, h5, h6, -, h7⟩ := hP
  have hd1 : Spec.degree1step .D2SPLIT2B = 1 := rfl
  have hu1 : akns_upsampling_factor .D2SPLIT2B = 1 := rfl
  rw [hd1, mul_one] at h1
  rw [Spec.Processed, if_pos hu1] at h4
  simp only [hu1, mul_one] at h6
  have hDs' : (0 : ℝ) < Ds := by exact_mod_cast hDs
  have hs' : (s : ℝ) * Ds = D := by exact_mod_cast hs
  have hs1 : (0 : ℝ) < s := by exact_mod_cast hs0
  obtain ⟨h, hh⟩ : ∃ h : ℝ, h = s * (T / D) := ⟨_, rfl⟩
  rw [← hh] at h5 h7 hl hu
  have hTh : T = Ds * h := by rw [hh, ← hs']; field_simp
  have hpos : 0 < h := by linarith [show (0:ℝ) < 1e-7 by norm_num]
  have hhc : (h : ℂ) ≠ 0 := by exact_mod_cast hpos.ne'
  obtain ⟨EB, -, g2, g3⟩ := h5.2.2 (by decide)
  rw [hu1] at g2 g3
  simp only [Nat.cast_one, div_one] at g2 g3
  obtain ⟨c, hc⟩ : ∃ c : ℝ, c = Real.cos (h / 2) := ⟨_, rfl⟩
  obtain ⟨σ, hσ⟩ : ∃ σ : ℝ, σ = Real.sin (h / 2) := ⟨_, rfl⟩
  have hpi := Real.two_le_pi
  have hc0 : 0 < c := by rw [hc]; exact Real.cos_pos_of_mem_Ioo ⟨by linarith, by linarith⟩
  have hσ0 : 0 < σ := by rw [hσ]; exact Real.sin_pos_of_pos_of_lt_pi (by linarith) (by linarith)
  have hcσ : 0 < c ^ 2 - σ ^ 2 := by
    have e : c ^ 2 - σ ^ 2 = Real.cos h := by
      rw [hc, hσ, show h = 2 * (h / 2) by ring, Real.cos_two_mul]
      have := Real.sin_sq_add_cos_sq (2 * (h / 2) / 2)
      rw [show 2 * (h / 2) / 2 = h / 2 by ring] at *
      linarith
    rw [e]; exact Real.cos_pos_of_mem_Ioo ⟨by linarith, by linarith⟩
  have hEB : ∀ n, n < Ds → EB n (1 / 2) = !![(c : ℂ), (σ : ℂ); -(σ : ℂ), (c : ℂ)] := by
    intro n hn
    obtain ⟨k1, k2⟩ := h4 n hn
    have hsn : s * n < D := by rw [← hs]; exact Nat.mul_lt_mul_of_pos_left hn hs0
    rw [hx _ hsn] at k1 k2
    have k2' : rf n = -1 := by rw [k2]; simp
    have := g2 n (1 / 2) (Or.inr (by
      rw [k1, k2']; push_cast
      rw [abs_of_nonneg (by positivity)]
      simp
      linarith [show (2:ℝ) * 1e-8 < 1e-7 by norm_num]))
    rw [this, k1, k2']
    have e : ((1 / 2 : ℚ) : ℂ) • Spec.akB h 1 (-1) = Spec.akB (h / 2) 1 (-1) := by
      ext i j; fin_cases i <;> fin_cases j <;> simp [Spec.akB] <;> ring
    rw [e, exp_akB]
    have e1 : csqrt (-1 * -1 : ℂ) = 1 := by
      rw [show (-1 * -1 : ℂ) = 1 by norm_num, csqrt]; simp
    have h2 : ((h / 2 : ℝ) : ℂ) ≠ 0 := by exact_mod_cast (by linarith : h / 2 ≠ 0)
    rw [e1, mul_one, csinc, if_neg h2, mul_div_cancel₀ _ h2, hc, hσ, ofReal_cos, ofReal_sin]
    simp
  obtain ⟨N, hN⟩ : ∃ N : ℂ → Spec.M2, N = fun z => !![(c : ℂ) ^ 2 - z * σ ^ 2, c * σ * (1 + z); -(c * σ * (1 + z)), z * c ^ 2 - σ ^ 2] := ⟨_, rfl⟩
  obtain ⟨N', hN'⟩ : ∃ N' : ℂ → Spec.M2, N' = fun z => !![z * (c : ℂ) ^ 2 - σ ^ 2, c * σ * (1 + z); -(c * σ * (1 + z)), c ^ 2 - z * σ ^ 2] := ⟨_, rfl⟩
  have key : ∀ l : ℂ, Pa.eval (exp (I * l * h) ^ 2) = 2 ^ (-W) * (exp (I * l * p) * Spec.chain (fun _ => N (exp (I * l * h) ^ 2)) Ds 0 1) := by
    intro l
    have e1 : Spec.zOf .D2SPLIT2B h l = exp (I * l * h) ^ 2 := by
      rw [Spec.zOf, hd1, ← exp_nat_mul]; congr 1; push_cast; ring
    have e2 : exp (I * l * T) = exp (I * l * h) ^ Ds := by rw [← exp_nat_mul, hTh]; congr 1; push_cast; ring
    have e3 : S l = (exp (I * l * h))⁻¹ ^ Ds • Spec.chain (fun _ => N (exp (I * l * h) ^ 2)) Ds := by
      rw [h6, ← chain_smul]
      refine chain_congr' _ fun n hn => ?_
      rw [g3]
      have e4 : Spec.combine (Spec.splitting D2SPLIT2B) (fun w : ℚ => NormedSpace.exp ((w : ℂ) • Spec.akA h l)) (EB n) =
          EB n (1 / 2) * NormedSpace.exp ((1 : ℂ) • Spec.akA h l) * EB n (1 / 2) := by
        simp [Spec.combine, Spec.splitting, Spec.strang, Spec.alternate, mul_assoc]
      rw [e4, hEB n hn, expA_diag, hN]
      have hE : exp (I * l * h) ≠ 0 := exp_ne_zero _
      have q1 : exp (-I * l * h * 1) = (exp (I * l * h))⁻¹ := by rw [← exp_neg]; congr 1; ring
      have q2 : exp (I * l * h * 1) = (exp (I * l * h))⁻¹ * exp (I * l * h) ^ 2 := by rw [mul_one]; field_simp
      rw [q1, q2]
      exact strangB_mat _ _ _ _
    have := h7 l
    rw [e1, e2, e3] at this
    rw [this]
    have hwD : exp (I * l * h) ^ Ds ≠ 0 := pow_ne_zero _ (exp_ne_zero _)
    rw [inv_pow, Matrix.smul_apply, smul_eq_mul]
    field_simp
  have h2W : (2 : ℂ) ^ (-W) ≠ 0 := zpow_ne_zero _ two_ne_zero
  have hprod : ∀ z : ℂ, z ≠ 0 → Pa.eval z * (Pa.reflect Ds).eval z = (2 ^ (-W)) ^ 2 * (Spec.chain (fun _ => N z) Ds 0 1 * Spec.chain (fun _ => N' z) Ds 0 1) := by
    intro z hz
    obtain ⟨l, hl⟩ : ∃ l : ℂ, exp (I * l * h) ^ 2 = z := ⟨log z / (2 * I * h), by
      rw [← exp_nat_mul]; push_cast
      rw [show 2 * (I * (log z / (2 * I * h)) * h) = log z by field_simp, exp_log hz]⟩
    have k1 := key l
    have k2 := key (-l)
    have e5 : exp (I * -l * h) ^ 2 = z⁻¹ := by rw [← hl, ← inv_pow, ← exp_neg]; congr 2; ring
    have e6 : exp (I * -l * p) = (exp (I * l * p))⁻¹ := by rw [← exp_neg]; congr 1; ring
    rw [hl] at k1
    rw [e5, e6] at k2
    have k3 : N z⁻¹ = z⁻¹ • N' z := by
      rw [hN, hN']
      ext i j; fin_cases i <;> fin_cases j <;> simp <;> field_simp <;> ring
    rw [k3, chain_smul (z⁻¹) (fun _ => N' z), Matrix.smul_apply, smul_eq_mul] at k2
    let _ : Invertible z⁻¹ := invertibleOfNonzero (inv_ne_zero hz)
    have k4 := Polynomial.eval₂_reflect_mul_pow (RingHom.id ℂ) z⁻¹ Ds Pa (by rw [← h1]; exact hle)
    simp only [invOf_eq_inv, inv_inv, Polynomial.eval₂_id] at k4
    rw [← k4] at k2
    have hz' : z⁻¹ ^ Ds ≠ 0 := pow_ne_zero _ (inv_ne_zero hz)
    have hE : exp (I * l * p) ≠ 0 := exp_ne_zero _
    have k5 : (Pa.reflect Ds).eval z = 2 ^ (-W) * ((exp (I * l * p))⁻¹ * Spec.chain (fun _ => N' z) Ds 0 1) := by
      refine mul_right_cancel₀ hz' (k2.trans ?_)
      ring
    rw [k1, k5]
    field_simp
  have hcN : ∀ X : ℂ → Spec.M2, (∀ i j, Continuous fun z => X z i j) → Continuous fun z => Spec.chain (fun _ => X z) Ds 0 1 := fun X hX =>
    chain_cont (fun _ => hX) Ds 0 1
  have e := Continuous.ext_on (dense_compl_singleton (0 : ℂ)) (f := fun z => Pa.eval z * (Pa.reflect Ds).eval z)
    (g := fun z => (2 ^ (-W)) ^ 2 * (Spec.chain (fun _ => N z) Ds 0 1 * Spec.chain (fun _ => N' z) Ds 0 1))
    (Pa.continuous.mul (Pa.reflect Ds).continuous) (continuous_const.mul ((hcN N (by
      intro i j; rw [hN]; fin_cases i <;> fin_cases j <;> simp <;> fun_prop)).mul (hcN N' (by
      intro i j; rw [hN']; fin_cases i <;> fin_cases j <;> simp <;> fun_prop)))) (fun z hz => hprod z hz)
  have e0 := congrFun e 0
  obtain ⟨m, rfl⟩ : ∃ m, Ds = m + 1 := ⟨Ds - 1, by omega⟩
  have r1 : N 0 * N 0 = ((c : ℂ) ^ 2 - σ ^ 2) • N 0 := by
    rw [hN]; ext i j; fin_cases i <;> fin_cases j <;> simp [Matrix.mul_apply, Fin.sum_univ_two] <;> ring
  have r2 : N' 0 * N' 0 = ((c : ℂ) ^ 2 - σ ^ 2) • N' 0 := by
    rw [hN']; ext i j; fin_cases i <;> fin_cases j <;> simp [Matrix.mul_apply, Fin.sum_univ_two] <;> ring
  have hcc : (c : ℂ) ≠ 0 := by exact_mod_cast hc0.ne'
  have hss : (σ : ℂ) ≠ 0 := by exact_mod_cast hσ0.ne'
  have htt : (c : ℂ) ^ 2 - σ ^ 2 ≠ 0 := by exact_mod_cast hcσ.ne'
  have hne : Pa.eval 0 * (Pa.reflect (m + 1)).eval 0 ≠ 0 := by
    refine fun h0 => ?_
    have e0' : Pa.eval 0 * (Pa.reflect (m + 1)).eval 0 = (2 ^ (-W)) ^ 2 * (Spec.chain (fun _ => N 0) (m + 1) 0 1 * Spec.chain (fun _ => N' 0) (m + 1) 0 1) := e0
    rw [chain_rank1 r1, chain_rank1 r2, h0] at e0'
    refine absurd e0'.symm ?_
    have n1 : N 0 0 1 = c * σ := by rw [hN]; simp
    have n2 : N' 0 0 1 = c * σ := by rw [hN']; simp
    rw [Matrix.smul_apply, Matrix.smul_apply, n1, n2]
    simp only [smul_eq_mul]
    exact mul_ne_zero (pow_ne_zero _ h2W) (mul_ne_zero (mul_ne_zero (pow_ne_zero _ htt) (mul_ne_zero hcc hss)) (mul_ne_zero (pow_ne_zero _ htt) (mul_ne_zero hcc hss)))
  rw [← Polynomial.coeff_zero_eq_eval_zero, ← Polynomial.coeff_zero_eq_eval_zero, Polynomial.coeff_reflect, Polynomial.revAt_le (Nat.zero_le _), Nat.sub_zero] at hne
  refine ⟨le_antisymm hle ?_, left_ne_zero_of_mul hne⟩
  rw [h1]
  exact Polynomial.le_natDegree_of_ne_zero (right_ne_zero_of_mul hne)
/-! ### The conditions can be met -/

/-- A constant signal (16 samples, four of which are used), with the method 2SPLIT2B, an exact root finder and no refinement. -/
example : ∃ (o : NsepOpts) (q : Buf ℂ) (roots : RootFinder) (R : ℕ → Polynomial ℂ → ℕ → ℂ) (β : ℂ → ℂ),
    Spec.Finder roots R ∧ Spec.ExactFinder R ∧ Spec.NsepArgs 16 q (fun _ => 1) 0 1 1 o .D2SPLIT2B ∧ o.loc = .SUBSAMPLE_AND_REFINE ∧ o.max_evals = 0 ∧
    D2SPLIT2B ∈ Spec.second ∧ akns_degree .D2SPLIT2B ≠ 0 ∧ Spec.SmoothPeriodic (fun _ => 1) (fun _ => 0) (1 - 0) 1 0 0 ∧
    (∀ n : ℕ, n < 16 → (1 : ℂ) * exp (2 * I * (Spec.lamShift 0 (1 - 0) : ℝ) * ((0 : ℝ) + ((1 - 0) / (16 : ℕ) : ℝ) * n)) = 1) ∧
    (∀ l, ∃ M, Spec.Monodromy (fun _ => 1) (fun _ => -((1 : ℤ) : ℂ) * (starRingEnd ℂ) 1) 0 (1 - 0) l M ∧ β l = M 0 1) ∧
    (∀ s : ℕ, 0 < s → Spec.ValidBox (Spec.nsepEffBox (Spec.frameOpts (Spec.lamShift 0 (1 - 0)) o) .D2SPLIT2B (s * ((1 - 0) / (16 : ℕ))))) ∧
    ∀ Ds s deg S P Pa, Spec.SubPeriod 16 o.Dsub Ds s →
      Spec.PeriodPolys .D2SPLIT2B 1 16 (1 - 0) (Spec.periodic (fun _ => 1) (Spec.lamShift 0 (1 - 0)) 0 ((1 - 0) / (16 : ℕ))) Ds s deg S P Pa →
      Pa.natDegree = deg ∧ Pa.coeff 0 ≠ 0 := by
  obtain ⟨roots, R, h1, -, h3⟩ := exists_finder fun z => z
  have hL : Spec.lamShift 0 (1 - 0) = 0 := by simp [Spec.lamShift]
  have hmon := fun l => C78_monodromy_exists (q := fun _ => 1) (r := fun _ => -((1 : ℤ) : ℂ) * (starRingEnd ℂ) 1) (t0 := 0) (T := 1 - 0) (by norm_num) continuousOn_const continuousOn_const l
  choose Mo hMo using hmon
  have hsub : ∀ Ds s, Spec.SubPeriod 16 4 Ds s → 0 < s ∧ 1 ≤ Ds ∧ 1e-7 ≤ s * ((1 - 0) / (16 : ℕ) : ℝ) ∧ s * ((1 - 0) / (16 : ℕ)) ≤ (1 / 2 : ℝ) := by
    intro Ds s hs
    have c1 := hs.cover
    have c2 := hs.two
    have c3 : s ≤ 8 := by nlinarith
    have c4 : (s : ℝ) ≤ 8 := by exact_mod_cast c3
    have c5 : 0 < s := by
      rcases Nat.eq_zero_or_pos s with rfl | h0
      · omega
      · exact h0
    have c6 : (1 : ℝ) ≤ s := by exact_mod_cast c5
    exact ⟨c5, by omega, by push_cast; linarith [show (1e-7 : ℝ) ≤ 1 / 16 by norm_num], by push_cast; linarith⟩
  refine ⟨{ nsep_default_opts with Dsub := 4, max_evals := 0, disc := .D2SPLIT2B }, Buf.ofList (List.replicate 16 1), roots, R, fun l => Mo l 0 1, h1, h3 fun _ => rfl,
    ⟨rfl, ⟨4, by norm_num, by norm_num⟩, fun h => absurd h (by simp [Spec.isCF]), by decide, fun i hi => ?_, by norm_num, by norm_num⟩, rfl, rfl,
    by simp [Spec.second], by decide, ⟨fun _ => rfl, fun t => hasDerivAt_const t _, by simp, by simp, by simp⟩, fun n _ => by rw [hL]; simp,
    fun l => ⟨Mo l, (hMo l).1, rfl⟩, fun s hs => effBox_auto (by rw [frame_filt]; rfl) _ (by positivity), fun Ds s deg S P Pa hs hP => ?_⟩
  · rcases i with _ | _ | _ | _ | _ | _ | _ | _ | _ | _ | _ | _ | _ | _ | _ | _ | i
    all_goals first | rfl | omega
  · obtain ⟨g1, g2, g3, g4⟩ := hsub Ds s hs
    exact C85_const_coeffs hP hs.cover g1 g2 (fun n _ => by rw [hL]; simp [Spec.periodic]) g3 g4

end FNFT

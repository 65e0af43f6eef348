import Verif.Props.NsevConv
import Verif.Props.NsevBound
import Mathlib.Analysis.Complex.AbsMax
import Mathlib.Tactic.IntervalCases
/-!
# The bound states computed by `fnft_nsev` converge to the eigenvalues of the continuous-time signal
-/
set_option linter.unusedSectionVars false
namespace FNFT
open Complex AknsDisc Set
open FNFT.Conv

/-- A function that is small in the centre of a disk and large on its boundary has a zero in it. -/
theorem zero_in_disk {f : ℂ → ℂ} (hf : Differentiable ℂ f) {l0 : ℂ} {δ m : ℝ} (hδ : 0 < δ) (hm : ∀ l, ‖l - l0‖ = δ → m ≤ ‖f l‖) (h0 : ‖f l0‖ < m) :
    ∃ l, ‖l - l0‖ < δ ∧ f l = 0 := by
  by_contra hc
  push Not at hc
  have hm0 : 0 < m := (norm_nonneg _).trans_lt h0
  have hne : ∀ l ∈ closure (Metric.ball l0 δ), f l ≠ 0 := by
    intro l hl
    rw [closure_ball l0 hδ.ne', Metric.mem_closedBall, dist_eq_norm] at hl
    rcases hl.lt_or_eq with h | h
    · exact hc l h
    · exact norm_pos_iff.mp (hm0.trans_le (hm l h))
  have hd : DiffContOnCl ℂ (fun l => (f l)⁻¹) (Metric.ball l0 δ) := hf.diffContOnCl.inv hne
  have key := norm_le_of_forall_mem_frontier_norm_le Metric.isBounded_ball hd (C := m⁻¹) (fun z hz => ?_)
    (subset_closure (Metric.mem_ball_self hδ))
  · rw [norm_inv, inv_le_inv₀ (norm_pos_iff.mpr (hne l0 (subset_closure (Metric.mem_ball_self hδ)))) hm0] at key
    exact absurd h0 (not_lt.mpr key)
  · rw [frontier_ball l0 hδ.ne', mem_sphere_iff_norm] at hz
    rw [norm_inv]
    exact inv_anti₀ hm0 (hm z hz)

theorem err2_mono {T Q K L h x y : ℝ} (hT : 0 ≤ T) (hQ : 0 ≤ Q) (hK : 0 ≤ K) (hL : 0 ≤ L) (hh : 0 ≤ h) (hxy : |x| ≤ |y|) :
    Spec.err2 T Q K L h x ≤ Spec.err2 T Q K L h y := by
  unfold Spec.err2
  have := abs_nonneg x
  gcongr

theorem err2_nonneg {T Q K L h x : ℝ} (hT : 0 ≤ T) (hQ : 0 ≤ Q) (hK : 0 ≤ K) (hL : 0 ≤ L) (hh : 0 ≤ h) : 0 ≤ Spec.err2 T Q K L h x := by
  unfold Spec.err2
  have := abs_nonneg x
  positivity

theorem bsBox_congr (o : NsevOpts) {a : AknsDisc} (T0 T1 eps : ℝ) {D : ℕ} {qf x : ℕ → ℂ} (h : ∀ n, n < D → qf n = x n) :
    Spec.bsBoxOf o a D T0 T1 eps qf = Spec.bsBoxOf o a D T0 T1 eps x := by
  have e : Spec.bsNorm2 a D T0 T1 eps qf = Spec.bsNorm2 a D T0 T1 eps x := by
    unfold Spec.bsNorm2
    split
    · rw [Finset.sum_congr rfl fun i hi => by rw [h (3 * i) (by have := Finset.mem_range.mp hi; omega)]]
    · rw [Finset.sum_congr rfl fun i hi => by rw [h i (Finset.mem_range.mp hi)]]
  unfold Spec.bsBoxOf
  rw [e]

variable {D : ℕ} {qb : Buf ℂ} {x : ℕ → ℂ} {T0 T1 : ℝ} {o : NsevOpts} {a : AknsDisc}

/-- C76. Let `q` be a signal with a Lipschitz continuous derivative that is zero outside of `[T0, T1]`, let the samples be its values, and let `fnft_nsev` compute the bound
states of the focusing NSE with one of the polynomial methods of second order, with an exact root finder. If it succeeds, there is a list of points, the first ones of which
it has stored, such that
* at each of these points in the closed upper half plane, `|a(λ)|` is at most `C h²`, `a` being the coefficient of the continuous-time problem;
* if `λ0` is an eigenvalue, `a(λ0) = 0`, then there is a point of the list closer than `δ`, provided that `|a| ≥ m` on the circle with radius `δ` around `λ0`, `2 C h² < m`, and that
  the disk lies in the upper half plane, in the part of it that is covered by the filter, and in the strip that `D` samples can resolve. (If the values are filtered, values
  with a distance of less than `√(2^-52)` are merged, which adds at most `D degree √(2^-52)`.) -/
theorem C76_bound_states (h : Spec.NsevArgs D qb x T0 T1 1 o a) (hf : Spec.FiltOK o) (hloc : o.loc = .FAST_EIGENVALUE) (hrich : o.rich ≠ 1)
    (ha : a ∈ Spec.second) (hdeg : akns_degree a ≠ 0) {roots : RootFinder} (hroots : Spec.RootsOK roots Spec.ExactRoots)
    {M : ℕ} {XI : Option (ℝ × ℝ)} {K0 : ℕ} {bs : Buf ℂ} (hb : K0 ≤ bs.len) {nc : Option (Buf ℂ)} (hnc : Spec.NcReq o K0 nc)
    (hnc0 : ∀ n, nc = some n → ∀ i, i < K0 → ∃ y, n.rd i = some y)
    {q q' : ℝ → ℂ} {Q K L : ℝ} (hL : 0 ≤ L) (hq : Spec.Smooth q q' T0 T1 Q K L) {eps : ℝ} (heps : eps = (T1 - T0) / (D - 1))
    (hmod : a = .D2SPLIT2_MODAL → eps * Q ≤ 1 / 2) (hx : ∀ n, n < D → x n = q (T0 + n * eps)) {g : ℕ → Garbage} {s' : NsevSt} {o' : NsevOpts}
    (hrun : fnft_nsev roots D (some qb) (some (T0, T1)) M XI 1 o g ⟨none, some K0, some bs, nc⟩ = some (SUCCESS, s', o'))
    {A : ℂ → ℂ} (hA : ∀ l, 0 ≤ l.im → ∃ B, Spec.Scattering q (fun t => -(starRingEnd ℂ) (q t)) T0 T1 l (A l) B) :
    ∃ out K' bs', s'.K = some K' ∧ s'.bs = some bs' ∧ Spec.BsWritten out K0 K' bs bs' ∧
      (∀ l ∈ out, 0 ≤ l.im → ‖A l‖ ≤ Spec.err2 (T1 - T0) Q K L eps ‖l‖) ∧
      ∀ l0 δ m, A l0 = 0 → 0 < δ → (∀ l, ‖l - l0‖ = δ → m ≤ ‖A l‖) → 2 * Spec.err2 (T1 - T0) Q K L eps (‖l0‖ + δ) < m →
        (∀ l, ‖l - l0‖ ≤ δ → 0 ≤ l.im ∧ |2 * l.re * eps / akns_degree a| < Real.pi ∧
          (o.filt ≠ .NONE → Spec.InBoxC (Spec.bsBoxOf o a D T0 T1 eps x) l)) →
        ∃ l ∈ out, ‖l - l0‖ < δ ∨ o.filt ≠ .NONE ∧ ‖l - l0‖ < δ + (D * akns_degree a : ℕ) * Real.sqrt ((2 : ℝ)⁻¹ ^ 52) := by
  have hD' : (2 : ℝ) ≤ D := by exact_mod_cast h.hD
  have hpos : 0 < eps := by rw [heps]; exact div_pos (by linarith [h.hT]) (by linarith)
  obtain ⟨u1, u2⟩ := first_up (List.mem_cons_of_mem _ (List.mem_cons_of_mem _ ha))
  obtain ⟨qf, rf, U, W, y, E, A', h1, h2, h3, -, -, h4⟩ := C43_fast_eigenvalue h hf hloc hrich hdeg hroots (M := M) (XI := XI) (c := none) (by simp) hb hnc
  rw [← heps] at h1 h2 h3
  rw [Spec.Processed, if_pos u1] at h1
  obtain ⟨c', -, h5⟩ := h4 g (fun cb hcb => by cases hcb)
  have hds : Spec.degree1step a = akns_degree a := by rw [Spec.degree1step, u1, mul_one]
  have hqf : ∀ n, n < D → qf n = q (T0 + n * eps) := fun n hn => by rw [(h1 n hn).1, one_mul, hx n hn]
  have hrf : ∀ n, n < D → rf n = -(starRingEnd ℂ) (q (T0 + n * eps)) := fun n hn => by rw [(h1 n hn).2, one_mul, hx n hn]; simp
  rcases h5 with ⟨code, bs', f1, -, f2⟩ | ⟨z, hz, hz0, h6⟩
  · rw [f2] at hrun
    have := congrArg Prod.fst (Option.some.inj hrun)
    exact absurd this (E_SUBROUTINE_ne f1.1)
  · have h0 : ∀ k, k < D * akns_upsampling_factor a * akns_degree a → z k ≠ 0 := by
      intro k hk hk0
      rw [hz0 ⟨k, hk, hk0⟩] at hrun
      cases hrun
    obtain ⟨out, g1, K', bs', g2, g3, g4⟩ := h6 h0
    rw [← heps] at g1
    simp only [u1, mul_one] at h3 g1 hz h0
    rw [u2] at h3
    have hbox : Spec.bsBoxOf o a D T0 T1 eps qf = Spec.bsBoxOf o a D T0 T1 eps x := bsBox_congr o T0 T1 eps fun n hn => by rw [(h1 n hn).1, one_mul]
    rw [hbox] at g1
    obtain ⟨k1, k2⟩ := C43_exact_roots (o := o) (a := a) (A := fun l => Spec.jostA (Spec.chain (U l) D) T0 T1 eps l) hpos hdeg h3 hz h0 g1
    have hQ : 0 ≤ Q := (norm_nonneg _).trans (hq.bound 0)
    have hK : 0 ≤ K := (norm_nonneg _).trans (hq.bound' 0)
    have hT := h.hT
    have hr' : Spec.Smooth (fun t => -(starRingEnd ℂ) (q t)) (fun t => -(starRingEnd ℂ) (q' t)) T0 T1 Q K L := by
      refine ⟨fun t => ?_, fun t ht => ?_, fun t => ?_, fun t => ?_, fun t u => ?_⟩
      · exact (Complex.conjCLE.toContinuousLinearMap.hasFDerivAt.comp_hasDerivAt t (hq.deriv t)).neg
      · rw [hq.supp t ht]; simp
      · rw [norm_neg, RCLike.norm_conj]; exact hq.bound t
      · rw [norm_neg, RCLike.norm_conj]; exact hq.bound' t
      · rw [← neg_sub_neg, neg_neg, neg_neg, ← map_sub, RCLike.norm_conj, norm_sub_rev]; exact hq.lip t u
    have conv : ∀ l : ℂ, 0 ≤ l.im → ‖Spec.jostA (Spec.chain (U l) D) T0 T1 eps l - A l‖ ≤ Spec.err2 (T1 - T0) Q K L eps ‖l‖ := by
      intro l hl
      obtain ⟨B, hB⟩ := hA l hl
      have key := conv_two (U := U l) h.hD h.hT hq hr' hL hB heps (fun n hn => ?_)
      · refine key.1.trans (mul_le_of_le_one_right (err2_nonneg (by linarith) hQ hK hL hpos.le) ?_)
        rw [Real.exp_le_one_iff]
        have : 0 ≤ l.im * (T1 - T0 + eps) := mul_nonneg hl (by linarith)
        linarith
      · rw [← hqf n hn]
        have e := hrf n hn
        rw [← hqf n hn] at e
        rw [← e]
        refine step_err2 h2 hpos.le ha hmod ?_ ?_ _
        · rw [hqf n hn]; exact hq.bound _
        · rw [hrf n hn, norm_neg, RCLike.norm_conj]; exact hq.bound _
    have hdiff : Differentiable ℂ fun l => Spec.jostA (Spec.chain (U l) D) T0 T1 eps l := by
      have : (fun l => Spec.jostA (Spec.chain (U l) D) T0 T1 eps l) = fun l => (2 : ℂ) ^ W * ∑ k ∈ Finset.range (D * akns_degree a + 1), y k * exp (2 * I * l * eps / (Spec.degree1step a : ℕ)) ^ (D * akns_degree a - k) := funext h3
      rw [this]
      fun_prop
    have hs' : s'.K = some K' ∧ s'.bs = some bs' := by
      cases hncc : nc with
      | none =>
        rw [g3 hncc] at hrun
        have e := congrArg (fun p => p.2.1) (Option.some.inj hrun)
        dsimp only at e
        rw [← e]
        exact ⟨rfl, rfl⟩
      | some n0 =>
        obtain ⟨code, nc1, b, r1, -⟩ := g4 n0 hncc (fun i hi _ => hnc0 n0 hncc i (by have := g2.1; omega))
        rw [r1] at hrun
        have e := congrArg (fun p => p.2.1) (Option.some.inj hrun)
        dsimp only at e
        rw [← e]
        exact ⟨rfl, rfl⟩
    refine ⟨out, K', bs', hs'.1, hs'.2, g2, fun l hl him => ?_, fun l0 δ m e1 e2 e3 e4 e5 => ?_⟩
    · have := conv l him
      rwa [(k1 l hl).1, zero_sub, norm_neg] at this
    · have hle : ∀ l, ‖l - l0‖ ≤ δ → ‖Spec.jostA (Spec.chain (U l) D) T0 T1 eps l - A l‖ ≤ Spec.err2 (T1 - T0) Q K L eps (‖l0‖ + δ) := by
        intro l hl
        refine (conv l (e5 l hl).1).trans (err2_mono (by linarith) hQ hK hL hpos.le ?_)
        rw [abs_of_nonneg (norm_nonneg _), abs_of_nonneg (by positivity)]
        have := norm_sub_norm_le l l0
        linarith
      obtain ⟨l, n1, n2⟩ := zero_in_disk hdiff (l0 := l0) (δ := δ) (m := m - Spec.err2 (T1 - T0) Q K L eps (‖l0‖ + δ)) e2
        (fun l hl => by
          have k3 := hle l hl.le
          have k4 := norm_sub_norm_le (A l) (Spec.jostA (Spec.chain (U l) D) T0 T1 eps l)
          rw [norm_sub_rev] at k4
          have := e3 l hl
          linarith)
        (by
          have := hle l0 (by simpa using e2.le)
          rw [e1, sub_zero] at this
          linarith)
      have hy : y 0 ≠ 0 := by
        intro hy0
        have h7 : ∀ l, Spec.jostA (Spec.chain (U l) D) T0 T1 eps l = 0 := by
          intro l
          rw [h3 l, hz, hy0, zero_mul, mul_zero]
        have k3 := hle (l0 + δ) (by simp [abs_of_pos e2])
        have k4 := e3 (l0 + δ) (by simp [abs_of_pos e2])
        rw [h7, zero_sub, norm_neg] at k3
        have := err2_nonneg (T := T1 - T0) (Q := Q) (K := K) (L := L) (h := eps) (x := ‖l0‖ + δ) (by linarith) hQ hK hL hpos.le
        linarith
      obtain ⟨p1, p2, p3⟩ := e5 l n1.le
      obtain ⟨l', k3, k4⟩ := k2 hy l n2 (by rw [hds]; exact p2) p3
      refine ⟨l', k3, ?_⟩
      rcases k4 with rfl | ⟨k4, k5⟩
      · exact Or.inl n1
      · right
        refine ⟨k4, ?_⟩
        have := norm_sub_le_norm_sub_add_norm_sub l' l l0
        linarith

/-! ### The conditions can be met -/

/-- The samples of the signal `(1 - t²)²` on `[-1, 1]` (see the example for C75), the localisation by eigenvalues with the discretization `2SPLIT2A` and an exact root finder. The coefficient
`a` of the signal exists. -/
example : let o := { nsev_default_opts with loc := .FAST_EIGENVALUE, disc := .D2SPLIT2A }
    let q := fun t : ℝ => ((max 0 (1 - t ^ 2) ^ 2 : ℝ) : ℂ)
    Spec.NsevArgs 5 (Buf.ofList [0, 9 / 16, 1, 9 / 16, 0]) (fun i => [0, 9 / 16, 1, 9 / 16, 0].getD i 0) (-1) 1 1 o .D2SPLIT2A ∧ Spec.FiltOK o ∧
      o.loc = .FAST_EIGENVALUE ∧ o.rich ≠ 1 ∧ .D2SPLIT2A ∈ Spec.second ∧ akns_degree .D2SPLIT2A ≠ 0 ∧ Spec.NcReq o 16 (some (Buf.malloc 16)) ∧
      (∃ roots, Spec.RootsOK roots Spec.ExactRoots) ∧ (∀ n : ℕ, n < 5 → ([0, 9 / 16, 1, 9 / 16, 0] : List ℂ).getD n 0 = q (-1 + n * (1 / 2))) ∧
      ∃ A : ℂ → ℂ, ∀ l, 0 ≤ l.im → ∃ B, Spec.Scattering q (fun t => -(starRingEnd ℂ) (q t)) (-1) 1 l (A l) B := by
  intro o q
  refine ⟨{ hd := rfl, hD := by norm_num, hCF := fun h => (by norm_num), hsize := by decide
            hq := by intro i hi; have : i < 5 := by omega
                     interval_cases i <;> rfl
            hT := by norm_num, hk := rfl, hal := fun h => by cases h }, trivial, rfl, by decide, by simp [Spec.second], by decide, ?_, ?_, ?_, ?_⟩
  · rintro n ⟨rfl⟩
    exact ⟨by decide, fun k => by show DsType.NORMING_CONSTANTS ≠ _; intro h; cases h⟩
  · obtain ⟨r, h, -⟩ := exactRoots_finder
    exact ⟨r, h⟩
  · intro n hn
    interval_cases n <;> simp only [q, ← ofReal_ofNat] <;> norm_num
  · have hq : Continuous q := by fun_prop
    have h := fun l : ℂ => C75_scattering_exists (q := q) (r := fun t => -(starRingEnd ℂ) (q t)) (T0 := -1) (T1 := 1) (by norm_num) hq.continuousOn
      (Complex.continuous_conj.comp hq).neg.continuousOn l
    choose A B h _ using h
    exact ⟨A, fun l _ => ⟨B l, h l⟩⟩

end FNFT

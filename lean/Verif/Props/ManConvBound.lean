import Verif.Props.ManConv
import Verif.Props.ManBound
import Verif.Props.NsevConvBound
/-!
# The bound states computed by `fnft_manakovv` converge to the eigenvalues of the continuous-time signal
-/
set_option linter.unusedSectionVars false
namespace FNFT
open Complex Set
open FNFT.Conv

theorem manFloor_mono {T Q h x y : ℝ} (hT : 0 ≤ T) (hQ : 0 ≤ Q) (hh : 0 ≤ h) (hxy : |x| ≤ |y|) : Spec.manFloor T Q h x ≤ Spec.manFloor T Q h y := by
  have hd : Spec.manDelta Q h x ≤ Spec.manDelta Q h y := by
    unfold Spec.manDelta
    gcongr
  have h0 := manDelta_nonneg (h := h) hQ x
  have h1 := h0.trans hd
  have h2 : 0 ≤ T + h := by linarith
  unfold Spec.manFloor
  gcongr

theorem manFloor_nonneg {T Q h x : ℝ} (hT : 0 ≤ T) (hQ : 0 ≤ Q) (hh : 0 ≤ h) : 0 ≤ Spec.manFloor T Q h x := by
  have h0 := manDelta_nonneg (h := h) hQ x
  unfold Spec.manFloor
  positivity

/-- The error of `a(λ)`: a term of second order in the step `h`, and a term of the order of the machine precision. -/
noncomputable def Spec.manErrA (T Q K L h x : ℝ) : ℝ := Spec.err2 T (2 * Q) (2 * K) (2 * L) h x + Spec.manFloor T Q h x

/-- What is stored and what the stored values have to do with the zeros of `A`, the coefficient `a(λ)` of the continuous-time problem. `out` is the list of all
values found; the first ones are stored.
* At each value in the closed upper half plane, `|A| ≤ E`.
* If `A(λ0) = 0`, then a value in the list is closer to `λ0` than `δ`, provided that `|A| ≥ m > 2E` on the circle with radius `δ` around `λ0`, and that the disk lies in the upper half plane
  and in the strip that the sampling can resolve. (If the values are filtered, values with a distance of less than `√(2^-52)` are merged, which adds at most `deg √(2^-52)`.) -/
def Spec.ManBsClose (o : ManvOpts) (deg : ℕ) (h : ℝ) (A : ℂ → ℂ) (E : ℝ → ℝ) (K0 : ℕ) (bs : Buf ℂ) (s' : ManvSt) : Prop :=
  ∃ out K' bs', s'.K = some K' ∧ s'.bs = some bs' ∧ Spec.BsWritten out K0 K' bs bs' ∧
    (∀ l ∈ out, 0 ≤ l.im → ‖A l‖ ≤ E ‖l‖) ∧
    ∀ l0 δ m, A l0 = 0 → 0 < δ → (∀ l, ‖l - l0‖ = δ → m ≤ ‖A l‖) → 2 * E (‖l0‖ + δ) < m →
      (∀ l, ‖l - l0‖ ≤ δ → 0 ≤ l.im ∧ |l.re * h * Spec.manRate o.disc| < Real.pi) →
      ∃ l ∈ out, ‖l - l0‖ < δ ∨ o.filt ≠ .NONE ∧ ‖l - l0‖ < δ + deg * Real.sqrt ((2 : ℝ)⁻¹ ^ 52)

variable {D : ℕ} {u1 u2 : Buf ℂ} {x1 x2 : ℕ → ℂ} {T0 T1 : ℝ} {o : ManvOpts}

theorem man_bs_conv (h : Spec.ManvArgs D u1 u2 x1 x2 T0 T1 1 o) (hs : o.Dsub ≤ 2 * D) (hrich : o.rich ≠ 1) (hd : o.disc ∈ Spec.manSecond)
    (hf : Spec.manSplitting o.disc ≠ []) {Ds s : ℕ} (hgrid : ∀ Ds' s', Spec.SubGrid D o.Dsub Ds' s' → Ds' = Ds ∧ s' = s)
    {roots : RootFinder} (hroots : Spec.RootsOK roots Spec.ExactRoots) {M : ℕ} {XI : Option (ℝ × ℝ)} {K0 : ℕ} {bs : Buf ℂ} (hb : K0 ≤ bs.len)
    {q1 q2 q1' q2' : ℝ → ℂ} {Q K L : ℝ} (hL : 0 ≤ L) (hq1 : Spec.Smooth q1 q1' T0 T1 Q K L) (hq2 : Spec.Smooth q2 q2' T0 T1 Q K L) {eps : ℝ}
    (heps : eps = (T1 - T0) / (Ds - 1)) (hx : ∀ j, j < Ds → x1 (s * j) = q1 (T0 + j * eps) ∧ x2 (s * j) = q2 (T0 + j * eps)) {s' : ManvSt} {o' : ManvOpts}
    (hrun : fnft_manakovv roots D (some u1) (some u2) (some (T0, T1)) M XI 1 o ⟨none, some K0, some bs⟩ = some (SUCCESS, s', o'))
    {A : ℂ → ℂ} (hA : ∀ l, 0 ≤ l.im → ∃ B1 B2, Spec.ManScattering 1 q1 q2 T0 T1 l (A l) B1 B2) :
    Spec.ManBsClose o (Ds * man_degree o.disc) eps A (Spec.manErrA (T1 - T0) Q K L eps) K0 bs s' := by
  have hu := manSecond_up hd
  have hdeg : man_degree o.disc ≠ 0 := by
    simp only [Spec.manSecond, List.mem_cons, List.not_mem_nil, or_false] at hd
    rcases hd with e | e | e | e | e | e <;> rw [e] at hf ⊢ <;> first | exact absurd rfl hf | decide
  obtain ⟨Ds', sb, g1, g2⟩ := C58_bound_states h hf hs hrich
  obtain ⟨rfl, rfl⟩ := hgrid _ _ g1
  have hD' : (2 : ℝ) ≤ Ds' := by exact_mod_cast g1.2.1
  have hT := h.hT
  have hpos : 0 < eps := by rw [heps]; exact div_pos (by linarith) (by linarith)
  obtain ⟨p1, p2, U, y, h1, h2, h3, h4, h5⟩ := g2 (fun hc => by rw [hu] at hc; cases hc)
  have h5 := h5 roots _ hroots M XI K0 bs hb
  rw [← heps] at h3 h4 h5
  rw [Spec.ManProcessed, if_pos hu] at h1 h2
  simp only [hu, mul_one] at h3 h4 h5
  rcases h5 with ⟨code, bs', f1, -, f2⟩ | ⟨z, hz, h6, hz0⟩
  · rw [f2] at hrun
    exact absurd (congrArg Prod.fst (Option.some.inj hrun)) (E_SUBROUTINE_ne f1.1)
  have h0 : ∀ k, k < Ds' * man_degree o.disc → z k ≠ 0 := by
    intro k hk hk0
    rw [hz0 ⟨k, hk, hk0⟩] at hrun
    cases hrun
  obtain ⟨out, K', bs', w1, w2, w3⟩ := h6 h0
  rw [w3] at hrun
  have hs' : s' = ⟨none, some K', some bs'⟩ := (congrArg (fun p => p.2.1) (Option.some.inj hrun)).symm
  obtain ⟨k1, k2⟩ := C58_exact_roots hdeg hpos h4 hz h0 w1
  simp only [hu, mul_one] at k1 k2
  have hQ : 0 ≤ Q := (norm_nonneg _).trans (hq1.bound 0)
  have hK : 0 ≤ K := (norm_nonneg _).trans (hq1.bound' 0)
  have hT0 : 0 ≤ T1 - T0 := by linarith
  have hE0 : ∀ x, 0 ≤ Spec.manErrA (T1 - T0) Q K L eps x := fun x =>
    add_nonneg (err2_nonneg hT0 (by positivity) (by positivity) (by positivity) hpos.le) (manFloor_nonneg hT0 hQ hpos.le)
  have hEm : ∀ x y : ℝ, |x| ≤ |y| → Spec.manErrA (T1 - T0) Q K L eps x ≤ Spec.manErrA (T1 - T0) Q K L eps y := fun x y hxy =>
    add_le_add (err2_mono hT0 (by positivity) (by positivity) (by positivity) hpos.le hxy) (manFloor_mono hT0 hQ hpos.le hxy)
  have conv : ∀ l : ℂ, 0 ≤ l.im → ‖Spec.manCoefA o.disc (Spec.chain (U l) Ds') T0 T1 eps l - A l‖ ≤ Spec.manErrA (T1 - T0) Q K L eps ‖l‖ := by
    intro l hl
    obtain ⟨B1, B2, hB⟩ := hA l hl
    refine man_two_upper (d := o.disc) (U := U l) hl (by norm_num) hu g1.2.1 hT hq1 hq2 hL hB heps (fun n hn => ?_)
    have e1 : p1 n = q1 (T0 + n * eps) := (h1 n hn).trans (hx n hn).1
    have e2 : p2 n = q2 (T0 + n * eps) := (h2 n hn).trans (hx n hn).2
    rw [← e1, ← e2]
    exact man_step_errC hd (by norm_num) hpos.le h3 (by rw [e1]; exact hq1.bound _) (by rw [e2]; exact hq2.bound _) _
  obtain ⟨W, h4⟩ := h4
  simp only [hu, mul_one] at h4
  have hdiff : Differentiable ℂ fun l => Spec.manCoefA o.disc (Spec.chain (U l) Ds') T0 T1 eps l := by
    have : (fun l => Spec.manCoefA o.disc (Spec.chain (U l) Ds') T0 T1 eps l) = fun l => 2 ^ W * exp (I * l * eps * Ds' * (1 - Spec.manPhase o.disc)) *
      ∑ k ∈ Finset.range (Ds' * man_degree o.disc + 1), y k * exp (I * l * eps * Spec.manRate o.disc) ^ (Ds' * man_degree o.disc - k) := funext h4
    rw [this]
    fun_prop
  rw [hs']
  refine ⟨out, K', bs', rfl, rfl, w2, fun l hl him => ?_, fun l0 δ m e1 e2 e3 e4 e5 => ?_⟩
  · have := conv l him
    rwa [(k1 l hl).1, zero_sub, norm_neg] at this
  · have hle : ∀ l, ‖l - l0‖ ≤ δ → ‖Spec.manCoefA o.disc (Spec.chain (U l) Ds') T0 T1 eps l - A l‖ ≤ Spec.manErrA (T1 - T0) Q K L eps (‖l0‖ + δ) := by
      intro l hl
      refine (conv l (e5 l hl).1).trans (hEm _ _ ?_)
      rw [abs_of_nonneg (norm_nonneg _), abs_of_nonneg (by positivity)]
      have := norm_sub_norm_le l l0
      linarith
    obtain ⟨l, n1, n2⟩ := zero_in_disk hdiff (l0 := l0) (δ := δ) (m := m - Spec.manErrA (T1 - T0) Q K L eps (‖l0‖ + δ)) e2
      (fun l hl => by
        have k3 := hle l hl.le
        have k4 := norm_sub_norm_le (A l) (Spec.manCoefA o.disc (Spec.chain (U l) Ds') T0 T1 eps l)
        rw [norm_sub_rev] at k4
        have := e3 l hl
        linarith)
      (by
        have := hle l0 (by simpa using e2.le)
        rw [e1, sub_zero] at this
        linarith)
    have hy : y 0 ≠ 0 := by
      intro hy0
      have h7 : ∀ l, Spec.manCoefA o.disc (Spec.chain (U l) Ds') T0 T1 eps l = 0 := by
        intro l
        rw [h4 l, hz, hy0, zero_mul, mul_zero]
      have k3 := hle (l0 + δ) (by simp [abs_of_pos e2])
      have k4 := e3 (l0 + δ) (by simp [abs_of_pos e2])
      rw [h7, zero_sub, norm_neg] at k3
      have := hE0 (‖l0‖ + δ)
      linarith
    obtain ⟨p1, p2⟩ := e5 l n1.le
    obtain ⟨l', k3, k4⟩ := k2 hy l n2 p2 (fun _ => p1)
    refine ⟨l', k3, ?_⟩
    rcases k4 with rfl | ⟨k4, k5⟩
    · exact Or.inl n1
    · right
      refine ⟨k4, ?_⟩
      have := norm_sub_le_norm_sub_add_norm_sub l' l l0
      linarith

/-- C86. Let `(q1, q2)` be a signal with Lipschitz continuous derivatives that is zero outside of `[T0, T1]`, let the samples be its values, and let `fnft_manakovv` compute the bound
states (focusing case) from all samples with one of the polynomial methods of second order and an exact root finder. If it reports success, the values found are close to the zeros of
`a(λ)` in the sense of `Spec.ManBsClose`, with the step `h = (T1 - T0)/(D - 1)`. -/
theorem C86_bound_states (h : Spec.ManvArgs D u1 u2 x1 x2 T0 T1 1 o) (hs1 : D ≤ o.Dsub) (hs : o.Dsub ≤ 2 * D) (hrich : o.rich ≠ 1) (hd : o.disc ∈ Spec.manSecond)
    (hf : Spec.manSplitting o.disc ≠ []) {roots : RootFinder} (hroots : Spec.RootsOK roots Spec.ExactRoots) {M : ℕ} {XI : Option (ℝ × ℝ)} {K0 : ℕ} {bs : Buf ℂ} (hb : K0 ≤ bs.len)
    {q1 q2 q1' q2' : ℝ → ℂ} {Q K L : ℝ} (hL : 0 ≤ L) (hq1 : Spec.Smooth q1 q1' T0 T1 Q K L) (hq2 : Spec.Smooth q2 q2' T0 T1 Q K L) {eps : ℝ} (heps : eps = (T1 - T0) / (D - 1))
    (hx : ∀ n, n < D → x1 n = q1 (T0 + n * eps) ∧ x2 n = q2 (T0 + n * eps)) {s' : ManvSt} {o' : ManvOpts}
    (hrun : fnft_manakovv roots D (some u1) (some u2) (some (T0, T1)) M XI 1 o ⟨none, some K0, some bs⟩ = some (SUCCESS, s', o'))
    {A : ℂ → ℂ} (hA : ∀ l, 0 ≤ l.im → ∃ B1 B2, Spec.ManScattering 1 q1 q2 T0 T1 l (A l) B1 B2) :
    Spec.ManBsClose o (D * man_degree o.disc) eps A (Spec.manErrA (T1 - T0) Q K L eps) K0 bs s' :=
  man_bs_conv h hs hrich hd hf (Ds := D) (s := 1) (fun _ _ hg => hg.2.2.2.2.2 hs1) hroots hb hL hq1 hq2 heps (fun j hj => by rw [one_mul]; exact hx j hj) hrun hA

/-- C86, subsampling. If `Dsub` divides `D`, only every `s`-th sample is used, `s = D/Dsub`, and the eigenvalues found are those of a signal that has these samples at `Dsub` equidistant
points of the whole interval `[T0, T1]` (and not at the times of the samples: the last one that is used is that for `T1 - (s - 1)(T1 - T0)/(D - 1)`). -/
theorem C86_subsampled (h : Spec.ManvArgs D u1 u2 x1 x2 T0 T1 1 o) (hs1 : 2 ≤ o.Dsub) (hdvd : o.Dsub ∣ D) (hrich : o.rich ≠ 1) (hd : o.disc ∈ Spec.manSecond)
    (hf : Spec.manSplitting o.disc ≠ []) {roots : RootFinder} (hroots : Spec.RootsOK roots Spec.ExactRoots) {M : ℕ} {XI : Option (ℝ × ℝ)} {K0 : ℕ} {bs : Buf ℂ} (hb : K0 ≤ bs.len)
    {q1 q2 q1' q2' : ℝ → ℂ} {Q K L : ℝ} (hL : 0 ≤ L) (hq1 : Spec.Smooth q1 q1' T0 T1 Q K L) (hq2 : Spec.Smooth q2 q2' T0 T1 Q K L) {eps : ℝ} (heps : eps = (T1 - T0) / (o.Dsub - 1))
    (hx : ∀ j, j < o.Dsub → x1 (D / o.Dsub * j) = q1 (T0 + j * eps) ∧ x2 (D / o.Dsub * j) = q2 (T0 + j * eps)) {s' : ManvSt} {o' : ManvOpts}
    (hrun : fnft_manakovv roots D (some u1) (some u2) (some (T0, T1)) M XI 1 o ⟨none, some K0, some bs⟩ = some (SUCCESS, s', o'))
    {A : ℂ → ℂ} (hA : ∀ l, 0 ≤ l.im → ∃ B1 B2, Spec.ManScattering 1 q1 q2 T0 T1 l (A l) B1 B2) :
    Spec.ManBsClose o (o.Dsub * man_degree o.disc) eps A (Spec.manErrA (T1 - T0) Q K L eps) K0 bs s' := by
  have hD := h.hD
  refine man_bs_conv h ((Nat.le_of_dvd (by omega) hdvd).trans (by omega)) hrich hd hf (Ds := o.Dsub) (s := D / o.Dsub) (fun Ds' s' hg => ?_) hroots hb hL hq1 hq2 heps hx hrun hA
  obtain ⟨e1, e2⟩ := hg.2.2.2.2.1 hs1 hdvd
  refine ⟨e1, ?_⟩
  rw [e1] at e2
  rw [← e2]
  exact (Nat.mul_div_cancel _ (by omega)).symm

/-! ### The conditions can be met -/

/-- The samples of the signals `(1 - t²)²` and `i (1 - t²)²` on `[-1, 1]`; all samples are used. The coefficient `a` exists. -/
example : let o := { manakovv_default_opts with Dsub := 5, disc := .D2SPLIT3B }
    let q := fun t : ℝ => ((max 0 (1 - t ^ 2) ^ 2 : ℝ) : ℂ)
    let x := fun i => ([0, 9 / 16, 1, 9 / 16, 0] : List ℂ).getD i 0
    Spec.ManvArgs 5 (Buf.ofList [0, 9 / 16, 1, 9 / 16, 0]) (Buf.ofFn 5 fun i => I * x i) x (fun i => I * x i) (-1) 1 1 o ∧ 5 ≤ o.Dsub ∧ o.Dsub ≤ 2 * 5 ∧ o.rich ≠ 1 ∧
      o.disc ∈ Spec.manSecond ∧ Spec.manSplitting o.disc ≠ [] ∧ (∃ roots, Spec.RootsOK roots Spec.ExactRoots) ∧
      Spec.Smooth q (fun t => ((2 * max 0 (1 - t ^ 2) * (-(2 * t)) : ℝ) : ℂ)) (-1) 1 1 4 8 ∧
      Spec.Smooth (fun t => I * q t) (fun t => I * ((2 * max 0 (1 - t ^ 2) * (-(2 * t)) : ℝ) : ℂ)) (-1) 1 1 4 8 ∧
      (∀ n : ℕ, n < 5 → x n = q (-1 + n * (1 / 2)) ∧ I * x n = I * q (-1 + n * (1 / 2))) ∧
      ∃ A : ℂ → ℂ, ∀ l, 0 ≤ l.im → ∃ B1 B2, Spec.ManScattering 1 q (fun t => I * q t) (-1) 1 l (A l) B1 B2 := by
  intro o q x
  refine ⟨⟨by norm_num, by simp [o, man_upsampling_factor], fun _ => by norm_num, ?_, Buf.holds_ofFn _ _, by norm_num, by norm_num,
    by right; right; simp [o, Spec.manSplitting]⟩, by simp [o], by simp [o], by simp [o, manakovv_default_opts], by simp [o, Spec.manSecond], by simp [o, Spec.manSplitting], ?_, smooth_bump, ?_, ?_, ?_⟩
  · intro i hi
    have : i < 5 := by omega
    interval_cases i <;> rfl
  · obtain ⟨r, h, -⟩ := exactRoots_finder
    exact ⟨r, h⟩
  · refine ⟨fun t => (smooth_bump.deriv t).const_mul I, fun t ht => ?_, fun t => ?_, fun t => ?_, fun t u => ?_⟩
    · simp only [q, smooth_bump.supp t ht, mul_zero]
    · rw [norm_mul, norm_I, one_mul]; exact smooth_bump.bound t
    · rw [norm_mul, norm_I, one_mul]; exact smooth_bump.bound' t
    · rw [← mul_sub, norm_mul, norm_I, one_mul]; exact smooth_bump.lip t u
  · intro n hn
    have e : x n = q (-1 + n * (1 / 2)) := by
      interval_cases n <;> simp only [x, q, ← ofReal_ofNat] <;> norm_num
    exact ⟨e, by rw [e]⟩
  · have hq : Continuous q := by fun_prop
    have h := fun l : ℂ => C80_scattering_exists 1 (q1 := q) (q2 := fun t => I * q t) (T0 := -1) (T1 := 1) (by norm_num) hq.continuousOn (by fun_prop) l
    choose A B1 B2 h _ using h
    exact ⟨A, fun l _ => ⟨B1 l, B2 l, h l⟩⟩

end FNFT

import Verif.Proofs.Selected
import Verif.Proofs.NsevDisc
import Mathlib.Analysis.Complex.Polynomial.Basic
import Mathlib.Algebra.Polynomial.Splits
/-!
# Properties of `fnft_nsev`: bound states, norming constants and residues
-/
namespace FNFT
open Complex AknsDisc

local notation "mexp" => NormedSpace.exp

variable {D : ℕ} {q : Buf ℂ} {x : ℕ → ℂ} {T0 T1 : ℝ} {kappa : ℤ} {o : NsevOpts} {a : AknsDisc}

/-- C42. Bound states with Newton's method. `init 0, ..., init (K0-1)` are the guesses of the user. Let `A` be the coefficient `a(λ)` of the base
method of the discretization (computed with the slow algorithm) and `A'` its derivative. The guesses are replaced by final iterates of Newton's
method (`cand`); after filtering and merging, the first of the remaining ones are in the array and `*K_ptr` is their number. The call
only fails if `A'` vanishes at an iterate (or, see `DiscDone`, at a bound state, if residues are requested). -/
theorem C42_newton (h : Spec.NsevArgs D q x T0 T1 1 o a) (hf : Spec.FiltOK o) (hloc : o.loc = .NEWTON) (hrich : o.rich ≠ 1)
    {M : ℕ} {XI : Option (ℝ × ℝ)} {c : Option (Buf ℂ)} (hXI : c.isSome → ∃ X, XI = some X ∧ X.1 < X.2)
    {K0 : ℕ} {bs : Buf ℂ} {init : ℕ → ℂ} (hb : bs.Holds 0 K0 init) {nc : Option (Buf ℂ)} (hnc : Spec.NcReq o K0 nc) :
    let eps := (T1 - T0) / (D - 1)
    let D' := D * akns_upsampling_factor a
    let d := Spec.baseOf a
    ∃ qf rf U E A', Spec.Processed a 1 D eps x D 1 qf rf ∧ Spec.NseSteps a eps qf rf U ∧ Spec.NearExp E ∧
      (∀ l, Spec.DerivA E d D' T0 T1 eps qf rf l (A' l)) ∧
      ∀ (roots : RootFinder) (g : ℕ → Garbage), Spec.ContOK D T0 T1 eps M XI o a U c →
        ∃ w cand fail c', (o.nrm = false → ∀ l, w l = 0) ∧
          Spec.NewtonAll (Spec.slowA E d D' T0 T1 eps qf rf) A' w (Spec.tolOf o.tol) (Spec.bsBoxOf o a D' T0 T1 eps qf) o.niter K0 init cand fail ∧
          Spec.ContDone D T0 T1 eps M XI o a U c c' ∧
          (fail ≠ none → ∃ bs', bs'.len = bs.len ∧ fnft_nsev roots D (some q) (some (T0, T1)) M XI 1 o g ⟨c, some K0, some bs, nc⟩ =
            some (E_SUBROUTINE EC_DIV_BY_ZERO, ⟨c', some K0, some bs', nc⟩, o)) ∧
          (fail = none → ∃ out, Spec.Filtered o (Spec.bsBoxOf o a D' T0 T1 eps qf) K0 cand out ∧
            Spec.DiscDone E A' o d D' D T0 T1 eps qf rf out K0 bs nc (fun code K b n =>
              fnft_nsev roots D (some q) (some (T0, T1)) M XI 1 o g ⟨c, some K0, some bs, nc⟩ =
                some (code, ⟨c', some K, some b, n⟩, o))) := by
  intro eps D' d
  have hr : Spec.NsevReq 1 o XI ⟨c, some K0, some bs, nc⟩ := ⟨hXI, fun _ => by simp, fun _ _ _ => hloc⟩
  obtain ⟨qp, rp, qf, rf, deg, W, tm, U, h1, h2, h3, h4⟩ := nsev_direct h hr hrich (by rw [hloc]; rintro ⟨-, -, hc⟩; cases hc)
  refine ⟨qf, rf, U, expS, slowA' d D' T0 T1 eps qf rf, h1, h3.steps, nearExp_expS, fun l => slowA'_deriv _ _ _ _ _ _ _ l, ?_⟩
  intro roots g hc
  obtain ⟨c', e1, e2⟩ := h4 roots M g hc
  obtain ⟨w, cand, fail, code, K', bs', f1, f2, f3, f4, f5, f6⟩ := boundstates_newton h2 hf hloc roots deg tm (g 1) hb
  refine ⟨w, cand, fail, c', f1, f2, e1, fun hfail => ?_, fun hfail => ?_⟩
  · obtain ⟨g1, g2, g3⟩ := f6 hfail
    refine ⟨bs', f4, ?_⟩
    rw [e2]
    unfold baseDisc
    simp only [if_true, Option.bind_eq_bind, Option.bind_some, f3, ne_eq, g1]
    rw [if_pos (by decide)]
    simp only [Option.pure_def, Option.map_some, g2]
    rfl
  · obtain ⟨g1, out, g2, g3⟩ := f5 hfail
    refine ⟨out, g2, ?_⟩
    rw [g1] at f3
    refine (baseDisc_finish h2 (g 1) (s := ⟨c', some K0, some bs, nc⟩) rfl rfl hnc f3 g3).mono ?_
    intro code K b n hcode hret
    rw [e2, hret]
    simp only [Option.map_some, chk_idem hcode]

/-- C43. Bound states as roots of a polynomial. The coefficients `y` are those of the coefficient `a(λ)` of the chosen discretization, as polynomial
in `z = e^(2iλ eps/degree)`. If the root finder fails, the call fails with its code and no bound states are reported. Otherwise let `z_k` be the
values that the root finder delivers. Unless one of them is zero (then the program takes the logarithm of zero), the candidates are the corresponding `λ_k` (principal branch); they are
filtered and merged, and the first of the remaining ones are in the array. -/
theorem C43_fast_eigenvalue (h : Spec.NsevArgs D q x T0 T1 1 o a) (hf : Spec.FiltOK o) (hloc : o.loc = .FAST_EIGENVALUE) (hrich : o.rich ≠ 1)
    (hdeg : akns_degree a ≠ 0) {roots : RootFinder} {P : ℕ → (ℕ → ℂ) → (ℕ → ℂ) → Prop} (hroots : Spec.RootsOK roots P)
    {M : ℕ} {XI : Option (ℝ × ℝ)} {c : Option (Buf ℂ)} (hXI : c.isSome → ∃ X, XI = some X ∧ X.1 < X.2)
    {K0 : ℕ} {bs : Buf ℂ} (hb : K0 ≤ bs.len) {nc : Option (Buf ℂ)} (hnc : Spec.NcReq o K0 nc) :
    let eps := (T1 - T0) / (D - 1)
    let D' := D * akns_upsampling_factor a
    let d := Spec.baseOf a
    let deg := D' * akns_degree a
    ∃ (qf rf : ℕ → ℂ) (U : ℂ → ℕ → Spec.M2) (W : ℤ) (y : ℕ → ℂ) (E : Spec.M2 → Spec.M2) (A' : ℂ → ℂ),
      Spec.Processed a 1 D eps x D 1 qf rf ∧ Spec.NseSteps a eps qf rf U ∧
      (∀ l, Spec.jostA (Spec.chain (U l) (Spec.slowCount a D')) T0 T1 eps l =
        2 ^ W * ∑ k ∈ Finset.range (deg + 1), y k * exp (2 * I * l * eps / (Spec.degree1step a : ℕ)) ^ (deg - k)) ∧
      Spec.NearExp E ∧ (∀ l, Spec.DerivA E d D' T0 T1 eps qf rf l (A' l)) ∧
      ∀ (g : ℕ → Garbage), Spec.ContOK D T0 T1 eps M XI o a U c → ∃ c', Spec.ContDone D T0 T1 eps M XI o a U c c' ∧
        ((∃ code bs', Spec.RootsFail roots deg y code ∧ bs'.len = bs.len ∧
            fnft_nsev roots D (some q) (some (T0, T1)) M XI 1 o g ⟨c, some K0, some bs, nc⟩ =
              some (E_SUBROUTINE code, ⟨c', some K0, some bs', nc⟩, o)) ∨
          ∃ z, P deg y z ∧ ((∃ k, k < deg ∧ z k = 0) →
              fnft_nsev roots D (some q) (some (T0, T1)) M XI 1 o g ⟨c, some K0, some bs, nc⟩ = none) ∧ ((∀ k, k < deg → z k ≠ 0) →
            ∃ out, Spec.Filtered o (Spec.bsBoxOf o a D' T0 T1 eps qf) deg (fun k => log (z k) / (2 * I * eps / Spec.degree1step a)) out ∧
              Spec.DiscDone E A' o d D' D T0 T1 eps qf rf out K0 bs nc (fun code K b n =>
                fnft_nsev roots D (some q) (some (T0, T1)) M XI 1 o g ⟨c, some K0, some bs, nc⟩ =
                  some (code, ⟨c', some K, some b, n⟩, o)))) := by
  intro eps D' d deg
  have hr : Spec.NsevReq 1 o XI ⟨c, some K0, some bs, nc⟩ := by
    refine ⟨hXI, fun _ => by simp, fun _ _ h0 => ?_⟩
    rw [nse_degree, h.hd] at h0
    exact absurd h0 hdeg
  obtain ⟨qp, rp, qf, rf, deg', W, tm, U, h1, h2, h3, h4⟩ := nsev_direct h hr hrich (by rw [hloc]; rintro ⟨-, -, hc⟩; cases hc)
  obtain ⟨-, rfl, t, y, rfl, hy, hE⟩ := h3.fast (fun hs => hdeg (slow_degree hs))
  refine ⟨qf, rf, U, W, y, expS, slowA' d D' T0 T1 eps qf rf, h1, h3.steps, fun l => ?_, nearExp_expS,
    fun l => slowA'_deriv _ _ _ _ _ _ _ l, ?_⟩
  · have e := (hE l).1
    have e2 : (Spec.pmat 2 deg (deg + 1) 0 y 0 0).eval (exp (2 * I * l * eps / (Spec.degree1step a : ℕ))) =
        ∑ k ∈ Finset.range (deg + 1), y k * (exp (2 * I * l * eps / (Spec.degree1step a : ℕ))) ^ (deg - k) := by
      simp [Spec.pmat, Spec.poly, Polynomial.eval_finsetSum]
    rw [e2] at e
    rw [slowA_alt, mul_comm, mul_comm ((2 : ℂ) ^ W), e, mul_comm]
    congr 2
    have : (D : ℝ) - 1 ≠ 0 := by
      have : (2 : ℝ) ≤ D := by exact_mod_cast h.hD
      linarith
    have : T1 - T0 + eps = eps * D := by
      show T1 - T0 + (T1 - T0) / ((D : ℝ) - 1) = (T1 - T0) / ((D : ℝ) - 1) * D
      field_simp
      ring
    rw [this]
    show I * l * ((eps * D : ℝ) : ℂ) = I * l * (((eps : ℝ) : ℂ) * D)
    push_cast; ring
  · intro g hc
    obtain ⟨c', e1, e2⟩ := h4 roots M g hc
    refine ⟨c', e1, ?_⟩
    rcases boundstates_fast h2 hf hloc hdeg hroots hy (g 1) hb with ⟨code, K', bs', f1, f2, f3, rfl⟩ | ⟨z, hz, fz, f⟩
    · refine Or.inl ⟨code, bs', f1, f3, ?_⟩
      rw [e2]
      unfold baseDisc
      simp only [if_true, Option.bind_eq_bind, Option.bind_some, f2, ne_eq]
      rw [if_pos (E_SUBROUTINE_ne f1.1)]
      simp only [Option.pure_def, Option.map_some, chk_sub]
      congr 2
      unfold E_SUBROUTINE; simp
    · refine Or.inr ⟨z, hz, fun h0 => ?_, fun h0 => ?_⟩
      · rw [e2]
        unfold baseDisc
        simp only [if_true, Option.bind_eq_bind, Option.bind_some, fz h0, Option.bind_none, Option.map_none]
      obtain ⟨out, K', bs', g1, g2, g3⟩ := f h0
      refine ⟨out, g2, ?_⟩
      refine (baseDisc_finish h2 (g 1) (s := ⟨c', some K0, some bs, nc⟩) rfl rfl hnc g1 g3).mono ?_
      intro code K b n hcode hret
      rw [e2, hret]
      simp only [Option.map_some, chk_idem hcode]

/-- C43, exact roots. If the root finder delivers the exact roots, all reported bound states are zeros of `a`. If the leading coefficient is not zero, then every zero of `a`
in the strip `|Re λ| < π degree/(2 eps)` (and in the bounding box) is reported, or (if values are filtered) a reported value is closer than `deg √(2^-52)`, `deg` being the degree of the polynomial: values that are closer than
`√(2^-52)` to others are merged, and the removed values can form a chain. -/
theorem C43_exact_roots {eps : ℝ} (heps : 0 < eps) (hdeg : akns_degree a ≠ 0) {A : ℂ → ℂ} {W : ℤ} {deg : ℕ} {y z : ℕ → ℂ}
    (hA : ∀ l, A l = 2 ^ W * ∑ k ∈ Finset.range (deg + 1), y k * exp (2 * I * l * eps / (Spec.degree1step a : ℕ)) ^ (deg - k))
    (hz : Spec.ExactRoots deg y z) (h0 : ∀ k, k < deg → z k ≠ 0) {box : Fin 4 → Dbl} {out : List ℂ}
    (hout : Spec.Filtered o box deg (fun k => log (z k) / (2 * I * eps / Spec.degree1step a)) out) :
    (∀ l ∈ out, A l = 0 ∧ (o.filt ≠ .NONE → Spec.InBoxC box l)) ∧
    (y 0 ≠ 0 → ∀ l, A l = 0 → |2 * l.re * eps / Spec.degree1step a| < Real.pi → (o.filt ≠ .NONE → Spec.InBoxC box l) →
      ∃ l' ∈ out, l' = l ∨ o.filt ≠ .NONE ∧ ‖l' - l‖ < deg * Real.sqrt ((2 : ℝ)⁻¹ ^ 52)) := by
  obtain ⟨cand, hcand⟩ : ∃ cand : ℕ → ℂ, cand = fun k => log (z k) / (2 * I * eps / Spec.degree1step a) := ⟨_, rfl⟩
  obtain ⟨k1, k2⟩ := exact_zeros heps hdeg hA hz
  rw [← hcand] at hout
  have k1' : ∀ k, k < deg → A (cand k) = 0 := fun k hk => by rw [hcand]; exact k1 k hk (h0 k hk)
  by_cases hN : o.filt = .NONE
  · have ho := hout.1 hN
    refine ⟨fun l hl => ?_, fun hy l hl him _ => ⟨l, ?_, Or.inl rfl⟩⟩
    · rw [ho, List.mem_map] at hl
      obtain ⟨k, hk, rfl⟩ := hl
      exact ⟨k1' k (List.mem_range.mp hk), fun hc => absurd hN hc⟩
    · obtain ⟨k, hk, e⟩ := k2 hy l hl him
      rw [ho, List.mem_map]
      exact ⟨k, List.mem_range.mpr hk, by rw [hcand]; exact e.symm⟩
  · obtain ⟨S, s1, s2, s3, s4, s5⟩ := hout.2 hN
    refine ⟨fun l hl => ?_, fun hy l hl him hbox => ?_⟩
    · rw [s5, List.mem_map] at hl
      obtain ⟨k, hk, rfl⟩ := hl
      exact ⟨k1' k (s2 k hk).1, fun _ => (s2 k hk).2⟩
    · obtain ⟨k, hk, e⟩ := k2 hy l hl him
      have e : l = cand k := by rw [hcand]; exact e
      obtain ⟨l', e1, e2⟩ := selected_near (by positivity) (hout.2 hN) hk (by rw [← e]; exact hbox hN)
      rw [← e] at e2
      exact ⟨l', e1, e2.imp_right fun h => ⟨hN, h⟩⟩

/-- C44. If `λ` is an exact zero of `a` (and all exponents are outside of the region in which Taylor polynomials are used), the reported norming constant is
the factor between the two Jost solutions at all sample boundaries, and equal to the coefficient `b(λ)`. Exception: there is no boundary at which
all components are different from zero. -/
theorem C44_norming_constant {E : Spec.M2 → Spec.M2} (hE : Spec.NearExp E) {d : AknsDisc} (hd : Spec.slow d) {D Dg : ℕ}
    (hD : D = Dg * akns_upsampling_factor d) {eps : ℝ} {qf rf : ℕ → ℂ} {l : ℂ} {old : Option ℂ} {b : ℂ}
    (hb : Spec.NormConst E d D Dg T0 T1 eps qf rf l old b) (hreg : Spec.Regular d eps (Spec.cfWeight d) qf rf l (Spec.slowCount d D))
    (ha : Spec.slowA mexp d D T0 T1 eps qf rf l = 0) :
    let U := Spec.slowStep mexp d eps (Spec.cfWeight d) qf rf l
    Spec.NoBoundary mexp d D Dg T0 T1 eps qf rf l ∧ some b = old ∨
      b = Spec.jostB (Spec.chain U (Spec.slowCount d D)) T0 T1 eps l ∧
      ∀ n, n ≤ Dg → Spec.jostPhi 1 U (T0 - eps / 2) l (n * Spec.perSample d) =
        b • Spec.jostPsi 1 U (Spec.slowCount d D) (T1 + eps / 2) l (n * Spec.perSample d) := by
  intro U
  have hN : Spec.slowCount d D = Dg * Spec.perSample d := count_eq hd hD
  have hU : ∀ n, n < Spec.slowCount d D → Spec.slowStep E d eps (Spec.cfWeight d) qf rf l n = U n := fun n hn => slowStep_exact hE hreg hn
  have hU' : ∀ n, n < Spec.slowCount d D → Spec.slowStep expS d eps (Spec.cfWeight d) qf rf l n = U n :=
    fun n hn => slowStep_exact nearExp_expS hreg hn
  have hdet : ∀ n, n < Spec.slowCount d D → (U n).det = 1 := fun n hn => by
    rw [← hU' n hn]; exact step_det_one (hreg n hn)
  have hle : ∀ n, n ≤ Dg → n * Spec.perSample d ≤ Spec.slowCount d D := fun n hn => by rw [hN]; exact Nat.mul_le_mul_right _ hn
  have hΦN : Spec.jostPhi 1 U (T0 - eps / 2) l (Spec.slowCount d D) 0 = 0 := by
    have := jostA_phi U (Spec.slowCount d D) T0 T1 eps l
    rw [show Spec.jostA (Spec.chain U (Spec.slowCount d D)) T0 T1 eps l = 0 from ha] at this
    exact (mul_eq_zero.mp this).resolve_left (exp_ne_zero _)
  obtain ⟨β, hβ⟩ := jost_proportional (tb := T1 + eps / 2) (B := 1) (by simp) hdet hΦN
  obtain ⟨v, v1, v2⟩ := hb
  have hc : ∀ n, n ≤ Dg → (Spec.jostPhi 1 (Spec.slowStep E d eps (Spec.cfWeight d) qf rf l) (T0 - eps / 2) l (n * Spec.perSample d) =
      Spec.jostPhi 1 U (T0 - eps / 2) l (n * Spec.perSample d)) ∧
      (Spec.jostPsi 1 (Spec.slowStep E d eps (Spec.cfWeight d) qf rf l) (Spec.slowCount d D) (T1 + eps / 2) l (n * Spec.perSample d) =
        Spec.jostPsi 1 U (Spec.slowCount d D) (T1 + eps / 2) l (n * Spec.perSample d)) :=
    fun n hn => jost_congr hU 1 _ _ l (hle n hn)
  have hcand : ∀ n, n ≤ Dg → (Spec.Cand false
      (fun n => Spec.jostPhi 1 (Spec.slowStep E d eps (Spec.cfWeight d) qf rf l) (T0 - eps / 2) l (n * Spec.perSample d))
      (fun n => Spec.jostPsi 1 (Spec.slowStep E d eps (Spec.cfWeight d) qf rf l) (Spec.slowCount d D) (T1 + eps / 2) l (n * Spec.perSample d)) n ↔
      Spec.Cand false (fun n => Spec.jostPhi 1 U (T0 - eps / 2) l (n * Spec.perSample d))
      (fun n => Spec.jostPsi 1 U (Spec.slowCount d D) (T1 + eps / 2) l (n * Spec.perSample d)) n) := by
    intro n hn
    simp only [Spec.Cand, Spec.proj, (hc n hn).1, (hc n hn).2, Bool.false_eq_true, if_false, false_imp_iff]
  cases v with
  | none =>
    left
    exact ⟨fun n hn hcc => v1 n hn ((hcand n hn).mpr hcc), v2⟩
  | some v =>
    right
    obtain ⟨n, n1, n2, n3, -⟩ := v1
    have hbv : b = v := Option.some.inj v2
    have hbβ : b = β := by
      rw [hbv, n3]
      have h0 := (((hcand n n1).mp n2).1 0).2
      simp only [Spec.proj, Bool.false_eq_true, if_false] at h0
      simp only [Spec.ratio, Spec.proj, Bool.false_eq_true, if_false, (hc n n1).1, (hc n n1).2]
      rw [hβ _ (hle n n1), Pi.smul_apply, smul_eq_mul, mul_div_assoc, div_self h0, mul_one]
    refine ⟨?_, fun n hn => by rw [hbβ]; exact hβ _ (hle n hn)⟩
    rw [hbβ]
    have e := congrFun (hβ _ le_rfl) 1
    have hpsi : Spec.jostPsi 1 U (Spec.slowCount d D) (T1 + eps / 2) l (Spec.slowCount d D) 1 = exp (I * l * (T1 + eps / 2 : ℝ)) := by
      unfold Spec.jostPsi Spec.tail
      simp [Spec.chain]
    rw [Pi.smul_apply, smul_eq_mul, hpsi] at e
    unfold Spec.jostB
    rw [eq_div_iff (exp_ne_zero _), ← e]
    unfold Spec.jostPhi
    simp

/-! ## The hypotheses can be met -/

/-- Every polynomial with nonzero leading coefficient has exact roots. -/
theorem exactRoots_exist (deg : ℕ) (y : ℕ → ℂ) (hy : y 0 ≠ 0) : ∃ z, Spec.ExactRoots deg y z := by
  obtain ⟨p, hp⟩ : ∃ p : Polynomial ℂ, p = ∑ k ∈ Finset.range (deg + 1), Polynomial.C (y k) * Polynomial.X ^ (deg - k) := ⟨_, rfl⟩
  have hc : p.coeff deg = y 0 := by
    rw [hp, Polynomial.finsetSum_coeff, Finset.sum_eq_single 0]
    · simp
    · intro k hk h0
      rw [Polynomial.coeff_C_mul, Polynomial.coeff_X_pow, if_neg (by have := Finset.mem_range.mp hk; omega), mul_zero]
    · simp
  have hle : p.natDegree ≤ deg := by
    rw [hp]
    refine Polynomial.natDegree_sum_le_of_forall_le _ _ fun k _ => ?_
    exact (Polynomial.natDegree_C_mul_X_pow_le _ _).trans (Nat.sub_le _ _)
  have hn : p.natDegree = deg := le_antisymm hle (Polynomial.le_natDegree_of_ne_zero (by rw [hc]; exact hy))
  have hs := IsAlgClosed.splits p
  have hcard : p.roots.card = deg := by rw [← hs.natDegree_eq_card_roots, hn]
  have hprod := hs.eq_prod_roots
  refine ⟨fun k => p.roots.toList.getD k 0, fun x => ?_⟩
  have e1 : ∑ k ∈ Finset.range (deg + 1), y k * x ^ (deg - k) = p.eval x := by
    rw [hp]; simp [Polynomial.eval_finsetSum]
  have hl : p.leadingCoeff = y 0 := by rw [Polynomial.leadingCoeff, hn, hc]
  have hlen : p.roots.toList.length = deg := by rw [Multiset.length_toList, hcard]
  have e2 : p.eval x = y 0 * (Multiset.map (fun t => x - t) p.roots).prod := by
    conv_lhs => rw [hprod]
    rw [hl, Polynomial.eval_mul, Polynomial.eval_C, Polynomial.eval_multiset_prod, Multiset.map_map]
    simp [Function.comp_def]
  rw [e1, e2]
  congr 1
  conv_lhs => rw [← Multiset.coe_toList p.roots, Multiset.map_coe, Multiset.prod_coe]
  rw [← hlen, ← Fin.prod_univ_eq_prod_range (fun k => x - p.roots.toList.getD k 0)]
  rw [← List.prod_ofFn]
  congr 1
  apply List.ext_getElem
  · simp
  · intro i h1 h2
    simp only [List.length_map] at h1
    simp [List.getD_eq_getElem?_getD, h1]

/-- There is a root finder that always returns the exact roots if the leading coefficient is not zero. -/
theorem exactRoots_finder : ∃ roots : RootFinder, Spec.RootsOK roots Spec.ExactRoots ∧
    ∀ deg c y buf, Buf.Holds c 0 (deg + 1) y → deg ≤ buf.len → y 0 ≠ 0 → ∃ b, roots deg c buf = some (SUCCESS, b) := by
  classical
  refine ⟨fun deg c buf => if h : ∃ p : (ℕ → ℂ) × (ℕ → ℂ), c.Holds 0 (deg + 1) p.1 ∧ Spec.ExactRoots deg p.1 p.2 then
    some (SUCCESS, ⟨buf.len, fun i => if i < deg then some (h.choose.2 i) else buf.cell i⟩) else some (EC_SANITY_CHECK_FAILED, buf), ?_, ?_⟩
  · intro deg c y buf hc hl
    dsimp only
    split_ifs with h
    · refine ⟨SUCCESS, _, rfl, rfl, fun _ => ⟨h.choose.2, ?_, ?_⟩⟩
      · intro i hi
        rw [Nat.zero_add]
        unfold Buf.rd
        simp only [hi, if_true]
        rw [if_pos (by omega)]
      · obtain ⟨h1, h2⟩ := h.choose_spec
        have e : ∀ k, k < deg + 1 → h.choose.1 k = y k := fun k hk => by
          have := (h1 k hk).symm.trans (hc k hk)
          exact Option.some.inj this
        intro x
        rw [← e 0 (by omega), ← h2 x]
        exact Finset.sum_congr rfl fun k hk => by rw [e k (Finset.mem_range.mp hk)]
    · exact ⟨_, _, rfl, rfl, fun h => (by cases h)⟩
  · intro deg c y buf hc hl hy
    obtain ⟨z, hz⟩ := exactRoots_exist deg y hy
    exact ⟨_, dif_pos ⟨(y, z), hc, hz⟩⟩

/-- Newton's method for two initial guesses with the slow discretization `CF4_2` and all outputs. -/
example : let o := { nsev_default_opts with disc := .CF4_2, loc := .NEWTON, ds := .BOTH }
    Spec.NsevArgs 4 (Buf.ofList [1, 2, 2 * I, 4]) (fun i => [1, 2, 2 * I, 4].getD i 0) (-1) 1 1 o .CF4_2 ∧ Spec.FiltOK o ∧ o.loc = .NEWTON ∧
      o.rich ≠ 1 ∧ (Buf.ofList [I, 2 * I] : Buf ℂ).Holds 0 2 (fun i => [I, 2 * I].getD i 0) ∧ Spec.NcReq o 2 (some (Buf.malloc 4)) := by
  intro o
  refine ⟨{ hd := rfl, hD := by norm_num, hCF := fun h => (by norm_num), hsize := by decide
            hq := by intro i hi; have : i < 4 := by omega
                     interval_cases i <;> rfl
            hT := by norm_num, hk := rfl, hal := fun h => by cases h }, trivial, rfl, by decide, ?_, ?_⟩
  · intro i hi
    interval_cases i <;> rfl
  · rintro n ⟨rfl⟩
    exact ⟨by decide, fun k => by show DsType.BOTH ≠ _; intro h; cases h⟩

/-- The default options with the localisation by eigenvalues, and an exact root finder. -/
example : let o := { nsev_default_opts with loc := .FAST_EIGENVALUE }
    Spec.NsevArgs 4 (Buf.ofList [1, 2, 2 * I, 4]) (fun i => [1, 2, 2 * I, 4].getD i 0) (-1) 1 1 o .D2SPLIT4B ∧ Spec.FiltOK o ∧
      o.loc = .FAST_EIGENVALUE ∧ o.rich ≠ 1 ∧ akns_degree .D2SPLIT4B ≠ 0 ∧ Spec.NcReq o 16 (some (Buf.malloc 16)) ∧
      ∃ roots, Spec.RootsOK roots Spec.ExactRoots := by
  intro o
  refine ⟨{ hd := rfl, hD := by norm_num, hCF := fun h => (by norm_num), hsize := by decide
            hq := by intro i hi; have : i < 4 := by omega
                     interval_cases i <;> rfl
            hT := by norm_num, hk := rfl, hal := fun h => by cases h }, trivial, rfl, by decide, by decide, ?_, ?_⟩
  · rintro n ⟨rfl⟩
    exact ⟨by decide, fun k => by show DsType.NORMING_CONSTANTS ≠ _; intro h; cases h⟩
  · obtain ⟨r, h, -⟩ := exactRoots_finder
    exact ⟨r, h⟩

end FNFT

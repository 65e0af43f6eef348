import Verif.Proofs.KdvNormc
import Verif.Proofs.KdvDeriv
import Verif.Props.NsevBound
/-!
# Properties of `fnft_kdvv`: bound states, norming constants, residues
-/
namespace FNFT
open Complex Matrix AknsDisc

local notation "mexp" => NormedSpace.exp

variable {D : ℕ} {q : Buf ℂ} {x : ℕ → ℝ} {T0 T1 : ℝ} {o : KdvvOpts} {a : AknsDisc} {v : ℕ}

/-- `κ ↦ Re a(iκ)` for the slow method that belongs to the discretization `a`, for the processed samples `qf`, `rf`; `v` selects the order of the
samples in the AKNS system. -/
noncomputable def Spec.kdvF (E : Spec.M2 → Spec.M2) (a : AknsDisc) (v D' : ℕ) (T0 T1 eps : ℝ) (qf rf : ℕ → ℂ) : ℝ → ℝ :=
  Spec.kdvReA E (Spec.baseOf a) (v ≠ 0) D' T0 T1 eps (swapIf v qf rf) (swapIf v rf qf)

/-- The first entry of the scattering matrix at `iκ`. -/
noncomputable def Spec.kdvP11 (E : Spec.M2 → Spec.M2) (a : AknsDisc) (v D' : ℕ) (eps : ℝ) (qf rf : ℕ → ℂ) : ℝ → ℂ :=
  Spec.kdvS11 E (Spec.baseOf a) (v ≠ 0) D' eps (swapIf v qf rf) (swapIf v rf qf)

/-- `A'` is the derivative of `κ ↦ Re a(iκ)`, see `KdvDerivA`. -/
def Spec.KdvF' (E : Spec.M2 → Spec.M2) (a : AknsDisc) (v D' : ℕ) (T0 T1 eps : ℝ) (qf rf : ℕ → ℂ) (A' : ℝ → ℝ) : Prop :=
  ∀ k, k ≠ 0 → Spec.KdvDerivA E (Spec.baseOf a) (v ≠ 0) D' T0 T1 eps (swapIf v qf rf) (swapIf v rf qf) k (A' k)

/-- The norming constant at `iκ`. -/
def Spec.KdvNC (E : Spec.M2 → Spec.M2) (a : AknsDisc) (v D' D : ℕ) (T0 T1 eps : ℝ) (qf rf : ℕ → ℂ) : ℝ → Option ℂ → ℂ → Prop :=
  Spec.KdvNormConst E (Spec.baseOf a) (v ≠ 0) D' D T0 T1 eps (swapIf v qf rf) (swapIf v rf qf)

/-- The array for norming constants is only read where it has been written or was initialised: at a bound state for which there is no usable
boundary the old value must exist. -/
def Spec.KdvNcInit (E : Spec.M2 → Spec.M2) (a : AknsDisc) (v D' D : ℕ) (T0 T1 eps : ℝ) (qf rf : ℕ → ℂ) (K : ℕ) (y : ℕ → ℝ)
    (nc : Option (Buf ℂ)) : Prop :=
  ∀ n0, nc = some n0 → ∀ i, i < K → y i ≠ 0 ∧
    (Spec.KdvNoBoundary E (Spec.baseOf a) (v ≠ 0) D' D T0 T1 eps (swapIf v qf rf) (swapIf v rf qf) (y i) → ∃ u, n0.rd i = some u)

/-- The code is passed on, when the bound states cannot be computed. -/
theorem kdvBaseDisc_fail {D : ℕ} {q r : Buf ℂ} {eps : ℝ} {next : NextToward} {g : Garbage} {s : NsevSt} {bs : Buf ℂ} {K0 : ℕ}
    (hbs : s.bs = some bs) (hK : s.K = some K0) (hK0 : K0 ≠ 0) {R : ℤ × ℕ × Buf ℂ}
    (hR : kdvv_compute_boundstates next D q r T0 T1 eps K0 bs o g = some R) (hc : R.1 ≠ SUCCESS) :
    kdvBaseDisc next D q r T0 T1 eps o g s = some (E_SUBROUTINE R.1, { s with K := some R.2.1, bs := some R.2.2 }) := by
  unfold kdvBaseDisc
  rw [hbs, hK]
  simp only [Option.bind_eq_bind, Option.bind_some, hK0, hR, ne_eq, not_false_eq_true, if_true, hc]
  rfl

theorem kdvBaseDisc_empty {D : ℕ} {q r : Buf ℂ} {eps : ℝ} {next : NextToward} {g : Garbage} {s : NsevSt} {bs bs' : Buf ℂ} {K0 : ℕ}
    (hbs : s.bs = some bs) (hK : s.K = some K0) (hK0 : K0 ≠ 0)
    (hR : kdvv_compute_boundstates next D q r T0 T1 eps K0 bs o g = some (SUCCESS, 0, bs')) :
    kdvBaseDisc next D q r T0 T1 eps o g s = some (SUCCESS, { s with K := some 0, bs := some bs' }) := by
  unfold kdvBaseDisc
  rw [hbs, hK]
  simp only [Option.bind_eq_bind, Option.bind_some, hK0, hR, ne_eq, not_false_eq_true, if_true, not_true_eq_false, if_false]
  unfold kdvBaseNorm
  cases s.nc <;> simp

/-- C49. Bound states of the KdV with Newton's method. `i·init 0, ..., i·init (K0-1)` are the guesses of the user. Let `F(κ) = Re a(iκ)` for the slow method
that belongs to the chosen discretization, `A'` its derivative, and `m` the square of the bound. If `m = 0`, no bound states are
reported. Otherwise each guess is replaced by the final iterate of Newton's method for `F` in the interval `[0, √m]`; `*K_ptr` is unchanged. The call
only fails if an iterate is zero or `A'` vanishes at an iterate (or, see `KdvNormOut`, if `A'` vanishes at a bound state and residues are
requested). -/
theorem C49_newton (h : Spec.KdvvArgs D q x T0 T1 o a v) (hloc : o.loc = .NEWTON) (hrich : o.rich ≠ 1)
    {M : ℕ} {XI : Option (ℝ × ℝ)} {c : Option (Buf ℂ)} {K0 : ℕ} (hK0 : K0 ≠ 0) {bs : Buf ℂ} {init : ℕ → ℝ} {nc : Option (Buf ℂ)}
    (hr : Spec.KdvvReq o M XI ⟨c, some K0, some bs, nc⟩)
    (hb : bs.Holds 0 K0 (fun i => I * (init i : ℂ))) (hnc : Spec.KdvNcReq o K0 nc) :
    let eps := (T1 - T0) / (D - 1)
    let D' := D * akns_upsampling_factor a
    ∃ qf rf U E A' m, Spec.KdvProcessed a D eps (fun i => (x i : ℂ)) D 1 qf rf ∧
      (if v ≠ 0 then Spec.NseSteps a eps qf rf U else Spec.NseSteps a eps rf qf U) ∧ Spec.NearExp E ∧
      Spec.KdvF' E a v D' T0 T1 eps qf rf A' ∧ Spec.KdvBoundSq a D' qf m ∧ 0 ≤ m ∧
      ∀ (next : NextToward) (g : ℕ → Garbage), Spec.KdvContOK D T0 T1 eps M XI o a v U c →
        let run := fnft_kdvv next D (some q) (some (T0, T1)) M XI o g ⟨c, some K0, some bs, nc⟩
        ∃ c', Spec.KdvContDone D T0 T1 eps M XI o a v U c c' ∧
          (m = 0 → run = some (SUCCESS, ⟨c', some 0, some bs, nc⟩, o)) ∧
          (0 < m → ∃ out fail bs', Spec.RealNewtonAll (Spec.kdvF E a v D' T0 T1 eps qf rf) A' (EPSILON * 100) (Real.sqrt m) o.niter K0 init out fail ∧
            bs'.len = bs.len ∧ bs'.Holds 0 K0 (fun i => I * (out i : ℂ)) ∧ (∀ j, K0 ≤ j → bs'.rd j = bs.rd j) ∧
            (fail ≠ none → run = some (E_SUBROUTINE EC_DIV_BY_ZERO, ⟨c', some K0, some bs', nc⟩, o)) ∧
            (fail = none → Spec.KdvNcInit E a v D' D T0 T1 eps qf rf K0 out nc →
              ∃ code nc', run = some (code, ⟨c', some K0, some bs', nc'⟩, o) ∧
                Spec.KdvNormOut o.ds A' (Spec.KdvNC E a v D' D T0 T1 eps qf rf) K0 out nc code nc')) := by
  intro eps D'
  obtain ⟨qp, rp, qf, rf, U, h1, h2, h3, h4⟩ := kdvv_direct h hr hrich
  obtain ⟨d', -, -, -, hsl, -⟩ := kdvSlow_ok h.hd h.hv
  obtain ⟨m, -, hm, hm0⟩ := kdvBoundSq_ok h.hd h3.hq
  refine ⟨qf, rf, U, expS, kdvReA' (Spec.baseOf a) (v ≠ 0) D' T0 T1 eps (swapIf v qf rf) (swapIf v rf qf), m, h1, h2, nearExp_expS,
    fun k hk => kdvReA'_spec hsl _ _ _ _ _ _ _ hk, hm, hm0, fun next g hc => ?_⟩
  intro run
  obtain ⟨c', e1, e2⟩ := h4 next g hc
  have hKl : K0 ≤ bs.len := by
    have := hb (K0 - 1) (by omega)
    have := Buf.rd_lt this
    omega
  obtain ⟨R, r1, r2⟩ := kdv_boundstates_ok h3 (g 0) (next := next) hm (fun _ c => by rw [hloc] at c; cases c) (fun n c => by rw [hloc] at c; cases c) hKl
    (fun _ _ => ⟨init, hb⟩)
  refine ⟨c', e1, fun h0 => ?_, fun hp => ?_⟩
  · rw [r2.zero h0] at r1
    show fnft_kdvv _ _ _ _ _ _ _ _ _ = _
    rw [e2, kdvBaseDisc_empty rfl rfl hK0 r1]
    rfl
  · obtain ⟨out, fail, w1, w2, w3, w4⟩ := r2.newton hp hloc init hb
    refine ⟨out, fail, R.2.2, w1, r2.len, w4, r2.frame, fun hf => ?_, fun hf hi => ?_⟩
    · rw [if_neg hf] at w2
      show fnft_kdvv _ _ _ _ _ _ _ _ _ = _
      rw [e2, kdvBaseDisc_fail rfl rfl hK0 r1 (by rw [w2]; decide), w2, w3]
      rfl
    · rw [if_pos hf] at w2
      have hR : R = (SUCCESS, K0, R.2.2) := by rw [← w2, ← w3]
      rw [hR] at r1
      obtain ⟨code, nc', k1, k2⟩ := kdvBaseDisc_finish h3 (g 0) (s := ⟨c', some K0, some bs, nc⟩) rfl rfl hK0 hnc le_rfl (out := out) r1
        w4 (fun hn i hi' => by
          obtain ⟨n0, hn0⟩ := Option.ne_none_iff_exists'.mp hn
          exact (hi n0 hn0 i hi').1) (fun n0 hn0 i hi' => (hi n0 hn0 i hi').2)
      refine ⟨code, nc', ?_, k2⟩
      show fnft_kdvv _ _ _ _ _ _ _ _ _ = _
      rw [e2, k1, Option.map_some, chk_idem k2.code_eq]

/-- C50. Bound states of the KdV with the grid search. Let `F`, `A'`, `m` be as in C49, `s` the grid spacing, and `M = ⌈√m / s⌉` the number of grid points
in the interval `(0, √m)`. If `m = 0` or `√m ≤ s`, no bound states are reported. If `s ≤ 0` (the default!) and `m > 0`, the call fails.
Otherwise the guesses are the zeros and sign changes of `p(κ) = S₁₁(iκ)` on the grid (see `KdvGuesses`). If there are more than `*K_ptr`, the call fails; else they are
refined with Newton's method and reported. -/
theorem C50_grid_search (h : Spec.KdvvArgs D q x T0 T1 o a v) (hloc : o.loc = .GRIDSEARCH_AND_REFINE) (hrich : o.rich ≠ 1)
    {M : ℕ} {XI : Option (ℝ × ℝ)} {c : Option (Buf ℂ)} {K0 : ℕ} (hK0 : K0 ≠ 0) {bs : Buf ℂ} {nc : Option (Buf ℂ)}
    (hr : Spec.KdvvReq o M XI ⟨c, some K0, some bs, nc⟩) (hb : K0 ≤ bs.len) (hnc : Spec.KdvNcReq o K0 nc) :
    let eps := (T1 - T0) / (D - 1)
    let D' := D * akns_upsampling_factor a
    ∃ qf rf U E A' m, Spec.KdvProcessed a D eps (fun i => (x i : ℂ)) D 1 qf rf ∧
      (if v ≠ 0 then Spec.NseSteps a eps qf rf U else Spec.NseSteps a eps rf qf U) ∧ Spec.NearExp E ∧
      Spec.KdvF' E a v D' T0 T1 eps qf rf A' ∧ Spec.KdvBoundSq a D' qf m ∧ 0 ≤ m ∧
      ∀ (next : NextToward) (g : ℕ → Garbage), Spec.KdvContOK D T0 T1 eps M XI o a v U c →
        let run := fnft_kdvv next D (some q) (some (T0, T1)) M XI o g ⟨c, some K0, some bs, nc⟩
        let Mg := ⌈Real.sqrt m / o.grid_spacing⌉₊
        let y := Spec.kdvGridY next (Real.sqrt m) Mg
        ∃ c', Spec.KdvContDone D T0 T1 eps M XI o a v U c c' ∧
          (m = 0 ∨ 0 < o.grid_spacing ∧ Real.sqrt m ≤ o.grid_spacing → run = some (SUCCESS, ⟨c', some 0, some bs, nc⟩, o)) ∧
          (0 < m → o.grid_spacing ≤ 0 → run = some (E_SUBROUTINE EC_INVALID_ARGUMENT, ⟨c', some K0, some bs, nc⟩, o)) ∧
          (0 < m → 0 < o.grid_spacing → o.grid_spacing < Real.sqrt m → Spec.NextOK next (Real.sqrt m) Mg →
            ∃ guesses, Spec.KdvGuesses o.nrm Mg y (fun i => Spec.kdvP11 E a v D' eps qf rf (y i)) guesses ∧
              (K0 < guesses.length → ∃ bs', bs'.len = bs.len ∧ run = some (E_SUBROUTINE EC_OTHER, ⟨c', some K0, some bs', nc⟩, o)) ∧
              (guesses.length ≤ K0 → ∃ out fail bs',
                Spec.RealNewtonAll (Spec.kdvF E a v D' T0 T1 eps qf rf) A' (EPSILON * 100) (Real.sqrt m) o.niter guesses.length
                  (fun i => guesses.getD i 0) out fail ∧
                bs'.len = bs.len ∧ bs'.Holds 0 guesses.length (fun i => I * (out i : ℂ)) ∧ (∀ j, guesses.length ≤ j → bs'.rd j = bs.rd j) ∧
                (fail ≠ none → run = some (E_SUBROUTINE EC_DIV_BY_ZERO, ⟨c', some K0, some bs', nc⟩, o)) ∧
                (fail = none → Spec.KdvNcInit E a v D' D T0 T1 eps qf rf guesses.length out nc →
                  ∃ code nc', run = some (code, ⟨c', some guesses.length, some bs', nc'⟩, o) ∧
                    Spec.KdvNormOut o.ds A' (Spec.KdvNC E a v D' D T0 T1 eps qf rf) guesses.length out nc code nc'))) := by
  intro eps D'
  obtain ⟨qp, rp, qf, rf, U, h1, h2, h3, h4⟩ := kdvv_direct h hr hrich
  obtain ⟨d', -, -, -, hsl, -⟩ := kdvSlow_ok h.hd h.hv
  obtain ⟨m, -, hm, hm0⟩ := kdvBoundSq_ok h.hd h3.hq
  refine ⟨qf, rf, U, expS, kdvReA' (Spec.baseOf a) (v ≠ 0) D' T0 T1 eps (swapIf v qf rf) (swapIf v rf qf), m, h1, h2, nearExp_expS,
    fun k hk => kdvReA'_spec hsl _ _ _ _ _ _ _ hk, hm, hm0, fun next g hc => ?_⟩
  intro run Mg y
  obtain ⟨c', e1, e2⟩ := h4 next g hc
  have hbs := fun hn => kdv_boundstates_ok h3 (g 0) (next := next) hm hn (fun n c => by rw [hloc] at c; cases c) hb
    (fun _ c => by rw [hloc] at c; cases c)
  have hne : ¬ (o.grid_spacing < Real.sqrt m) → ∃ R, _ := fun hn => hbs fun _ _ _ c => absurd c hn
  have hne' : ¬ (0 < o.grid_spacing) → ∃ R, _ := fun hn => hbs fun _ _ c _ => absurd c hn
  refine ⟨c', e1, fun h0 => ?_, fun hp hs => ?_, fun hp hs hs' hn => ?_⟩
  · have hR : kdvv_compute_boundstates next D' qp rp T0 T1 eps K0 bs o (g 0) = some (SUCCESS, 0, bs) := by
      rcases h0 with h0 | ⟨h0, h0'⟩
      · obtain ⟨R, r1, r2⟩ := hbs fun c _ _ _ => absurd h0 c.ne'
        rw [r1, r2.zero h0]
      · obtain ⟨R, r1, r2⟩ := hne (not_lt.mpr h0')
        rcases hm0.eq_or_lt with hm1 | hm1
        · rw [r1, r2.zero hm1.symm]
        · rw [r1, r2.coarse hm1 hloc h0 h0']
    show fnft_kdvv _ _ _ _ _ _ _ _ _ = _
    rw [e2, kdvBaseDisc_empty rfl rfl hK0 hR]
    rfl
  · obtain ⟨R, r1, r2⟩ := hne' (not_lt.mpr hs)
    rw [r2.spacing hp hloc hs] at r1
    show fnft_kdvv _ _ _ _ _ _ _ _ _ = _
    rw [e2, kdvBaseDisc_fail rfl rfl hK0 r1 (show EC_INVALID_ARGUMENT ≠ SUCCESS by decide)]
    rfl
  · obtain ⟨R, r1, r2⟩ := hbs fun _ _ _ _ => hn
    obtain ⟨gs, g1, g2, g3⟩ := r2.grid hp hloc hs hs'
    refine ⟨gs, g1, fun hl => ?_, fun hl => ?_⟩
    · obtain ⟨w1, w2⟩ := g2 hl
      refine ⟨R.2.2, r2.len, ?_⟩
      show fnft_kdvv _ _ _ _ _ _ _ _ _ = _
      rw [e2, kdvBaseDisc_fail rfl rfl hK0 r1 (by rw [w1]; decide), w1, w2]
      rfl
    · obtain ⟨out, fail, w1, w2, w3, w4, w5⟩ := g3 hl
      refine ⟨out, fail, R.2.2, w1, r2.len, w4, w5, fun hf => ?_, fun hf hi => ?_⟩
      · rw [if_neg hf] at w2 w3
        show fnft_kdvv _ _ _ _ _ _ _ _ _ = _
        rw [e2, kdvBaseDisc_fail rfl rfl hK0 r1 (by rw [w2]; decide), w2, w3]
        rfl
      · rw [if_pos hf] at w2 w3
        have hR : R = (SUCCESS, gs.length, R.2.2) := by rw [← w2, ← w3]
        rw [hR] at r1
        obtain ⟨code, nc', k1, k2⟩ := kdvBaseDisc_finish h3 (g 0) (s := ⟨c', some K0, some bs, nc⟩) rfl rfl hK0 hnc hl (out := out) r1
          w4 (fun hn i hi' => by
            obtain ⟨n0, hn0⟩ := Option.ne_none_iff_exists'.mp hn
            exact (hi n0 hn0 i hi').1) (fun n0 hn0 i hi' => (hi n0 hn0 i hi').2)
        refine ⟨code, nc', ?_, k2⟩
        show fnft_kdvv _ _ _ _ _ _ _ _ _ = _
        rw [e2, k1, Option.map_some, chk_idem k2.code_eq]

/-! ## The guesses -/

/-- C50, the guesses. On a strictly increasing grid the guesses are strictly increasing. Each one is a zero at a grid point, or lies strictly between two
neighbouring grid points between which the real part changes its sign; and for each zero at a grid point and each such pair of points there is a guess. -/
theorem C50_guesses {nrm : Bool} {M : ℕ} {y : ℕ → ℝ} (hy : ∀ i, i + 1 < M → y i < y (i + 1)) {p : ℕ → ℂ} {gs : List ℝ}
    (h : Spec.KdvGuesses nrm M y p gs) :
    gs.Pairwise (· < ·) ∧
    (∀ k ∈ gs, (∃ i, i < M ∧ p i = 0 ∧ k = y i) ∨
      ∃ i, i + 1 < M ∧ (p i).re * (p (i + 1)).re < 0 ∧ y i < k ∧ k < y (i + 1)) ∧
    (∀ i, i < M → p i = 0 → y i ∈ gs) ∧
    (∀ i, i + 1 < M → (p i).re * (p (i + 1)).re < 0 → ∃ k ∈ gs, y i < k ∧ k < y (i + 1)) := by
  classical
  obtain ⟨c, hc, rfl⟩ := h
  have hc0 : ∀ i, 0 < c i := fun i => by rcases hc i with h | ⟨-, h | h⟩ <;> rw [h] <;> norm_num
  have hmono : ∀ i j, i < j → j < M → y i < y j := by
    intro i j hij
    induction j with
    | zero => omega
    | succ j ih =>
      intro hj
      rcases Nat.lt_succ_iff_lt_or_eq.mp hij with h | rfl
      · exact (ih h (by omega)).trans (hy j hj)
      · exact hy i hj
  have hval : ∀ i, i < M → ∀ k, Spec.kdvGuessAt c y p i = some k → (p i = 0 ∧ k = y i) ∨
      (p i ≠ 0 ∧ 0 < i ∧ (p (i - 1)).re * (p i).re < 0 ∧ y (i - 1) < k ∧ k < y i) := by
    intro i hi k hk
    unfold Spec.kdvGuessAt at hk
    split_ifs at hk with c1 c2
    · left; exact ⟨c1, (Option.some.inj hk).symm⟩
    · right
      have hlt : y (i - 1) < y i := hmono _ _ (by omega) hi
      have := falsi_between (hc0 i) hlt c2.2
      rw [← Option.some.inj hk]
      exact ⟨c1, c2.1, c2.2, this.1, this.2⟩
  refine ⟨?_, ?_, ?_, ?_⟩
  · rw [List.pairwise_filterMap]
    refine List.Pairwise.imp_of_mem (R := (· < ·)) ?_ List.pairwise_lt_range
    intro i j hi hj hij k hk l hl
    have hi' := List.mem_range.mp hi
    have hj' := List.mem_range.mp hj
    have hk1 : k ≤ y i := by
      rcases hval i hi' k hk with h | h
      · exact h.2.le
      · exact h.2.2.2.2.le
    rcases hval j hj' l hl with h | h
    · rw [h.2]; exact lt_of_le_of_lt hk1 (hmono i j hij hj')
    · refine lt_of_le_of_lt hk1 (lt_of_le_of_lt ?_ h.2.2.2.1)
      rcases (show i ≤ j - 1 by omega).eq_or_lt with e | e
      · rw [e]
      · exact (hmono _ _ e (by omega)).le
  · intro k hk
    obtain ⟨i, hi, hk⟩ := List.mem_filterMap.mp hk
    have hi' := List.mem_range.mp hi
    rcases hval i hi' k hk with h | h
    · left; exact ⟨i, hi', h⟩
    · right
      refine ⟨i - 1, by omega, ?_⟩
      rw [show i - 1 + 1 = i by omega]
      exact h.2.2
  · intro i hi h0
    refine List.mem_filterMap.mpr ⟨i, List.mem_range.mpr hi, ?_⟩
    unfold Spec.kdvGuessAt
    rw [if_pos h0]
  · intro i hi h0
    have hne : p (i + 1) ≠ 0 := by
      intro hz; rw [hz] at h0; simp at h0
    have hk : Spec.kdvGuessAt c y p (i + 1) = some (Spec.falsi (c (i + 1)) (y i) (y (i + 1)) (p i).re (p (i + 1)).re) := by
      unfold Spec.kdvGuessAt
      rw [if_neg hne, if_pos ⟨by omega, h0⟩]
      rfl
    refine ⟨_, List.mem_filterMap.mpr ⟨i + 1, List.mem_range.mpr hi, hk⟩, ?_⟩
    exact falsi_between (hc0 _) (hy i hi) h0

/-- The grid is strictly increasing and inside of the interval. -/
theorem C50_grid {next : NextToward} {b : ℝ} {M : ℕ} (hM : 2 ≤ M) (hn : Spec.NextOK next b M) (hb : 0 < b) :
    (∀ i, i + 1 < M → Spec.kdvGridY next b M i < Spec.kdvGridY next b M (i + 1)) ∧
      ∀ i, i < M → 0 < Spec.kdvGridY next b M i ∧ Spec.kdvGridY next b M i < b :=
  ⟨fun _ hi => kdvGridY_lt hM hn hb hi, fun _ hi => ⟨kdvGridY_pos hM hn hb, kdvGridY_lt_b hM hn hb hi⟩⟩

end FNFT

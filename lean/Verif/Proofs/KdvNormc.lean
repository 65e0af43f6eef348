import Verif.Proofs.KdvLocal
import Verif.Proofs.NsevDisc
/-!
# Proofs: norming constants and residues of the KdV; the discrete part of `fnft_kdvv`
-/
namespace FNFT
open Complex AknsDisc

variable {D Dg : ℕ} {q r : Buf ℂ} {qf rf : ℕ → ℂ} {T0 T1 eps : ℝ} {o : KdvvOpts} {a : AknsDisc} {v : ℕ}

/-- The Jost solution from the left at `λ = iκ` in the S basis, at the boundary after sample `n`. -/
noncomputable def Spec.kdvPhi (E : Spec.M2 → Spec.M2) (d : AknsDisc) (vanilla : Bool) (T0 eps : ℝ) (qf rf : ℕ → ℂ) (y : ℝ) (n : ℕ) : Fin 2 → ℂ :=
  Spec.jostPhi (Spec.fromS true vanilla (I * y)) (Spec.slowStep E d eps (Spec.cfWeight d) qf rf (I * y)) (T0 - eps / 2) (I * y) (n * Spec.perSample d)

/-- The Jost solution from the right. -/
noncomputable def Spec.kdvPsi (E : Spec.M2 → Spec.M2) (d : AknsDisc) (vanilla : Bool) (D : ℕ) (T1 eps : ℝ) (qf rf : ℕ → ℂ) (y : ℝ) (n : ℕ) :
    Fin 2 → ℂ :=
  Spec.jostPsi (Spec.fromS true vanilla (I * y)) (Spec.slowStep E d eps (Spec.cfWeight d) qf rf (I * y)) (Spec.slowCount d D) (T1 + eps / 2) (I * y)
    (n * Spec.perSample d)

/-- The value that is taken as norming constant at `λ = iκ`: the ratio of the Jost solutions at the boundary where the two
components agree best; if there is no usable boundary, what the array contained. -/
def Spec.KdvNormConst (E : Spec.M2 → Spec.M2) (d : AknsDisc) (vanilla : Bool) (D Dg : ℕ) (T0 T1 eps : ℝ) (qf rf : ℕ → ℂ) (y : ℝ) (old : Option ℂ)
    (b : ℂ) : Prop :=
  ∃ u, Spec.Best true (Spec.kdvPhi E d vanilla T0 eps qf rf y) (Spec.kdvPsi E d vanilla D T1 eps qf rf y) Dg u ∧
    some b = match u with | none => old | some x => some x

/-- There is no usable boundary. -/
def Spec.KdvNoBoundary (E : Spec.M2 → Spec.M2) (d : AknsDisc) (vanilla : Bool) (D Dg : ℕ) (T0 T1 eps : ℝ) (qf rf : ℕ → ℂ) (y : ℝ) : Prop :=
  ∀ n, n ≤ Dg → ¬ Spec.Cand true (Spec.kdvPhi E d vanilla T0 eps qf rf y) (Spec.kdvPsi E d vanilla D T1 eps qf rf y) n

theorem kdv_normconsts_ok (h : KdvBaseArgs D Dg q r qf rf T0 T1 eps o a v) (hds : ∀ n, o.ds ≠ .other n) (g : Garbage)
    {K : ℕ} (hK : K ≠ 0) {bs nc : Buf ℂ} {yf : ℕ → ℝ} (hb : bs.Holds 0 K (fun i => I * (yf i : ℂ))) (hy : ∀ i, i < K → yf i ≠ 0)
    (hl : Spec.dsLen o.ds * K ≤ nc.len)
    (hinit : ∀ i, i < K → Spec.KdvNoBoundary expS (Spec.baseOf a) (v ≠ 0) D Dg T0 T1 eps (swapIf v qf rf) (swapIf v rf qf) (yf i) →
      ∃ x, nc.rd i = some x) :
    let apf := fun i => -I * (kdvReA' (Spec.baseOf a) (v ≠ 0) D T0 T1 eps (swapIf v qf rf) (swapIf v rf qf) (yf i) : ℂ)
    ∃ code nc' b, kdvv_normconsts D q r T0 T1 K bs nc o g = some (code, nc') ∧ nc'.len = nc.len ∧
      (∀ j, Spec.dsLen o.ds * K ≤ j → nc'.rd j = nc.rd j) ∧
      (∀ i, i < K → Spec.KdvNormConst expS (Spec.baseOf a) (v ≠ 0) D Dg T0 T1 eps (swapIf v qf rf) (swapIf v rf qf) (yf i) (nc.rd i) (b i)) ∧
      (o.ds = .NORMING_CONSTANTS ∨ (∀ i, i < K → apf i ≠ 0) → code = SUCCESS ∧ nc'.Holds 0 (Spec.dsLen o.ds * K) (Spec.dsOut o.ds K b apf)) ∧
      (o.ds ≠ .NORMING_CONSTANTS → (∃ i, i < K ∧ apf i = 0) → code = EC_DIV_BY_ZERO) := by
  intro apf
  obtain ⟨d', s1, s2, s3, s4, s5⟩ := kdvSlow_ok h.hd h.hv
  have hKl : K ≤ nc.len := by
    refine le_trans ?_ hl
    have : 1 ≤ Spec.dsLen o.ds := by cases o.ds <;> simp [Spec.dsLen]
    nlinarith
  have hup : kdv_upsampling_factor o.disc ≠ 0 := by rw [h.up_eq]; exact h.up_ne
  have hD0 : D ≠ 0 := by
    rw [h.hDg]; exact mul_ne_zero (by have := h.hDg2; omega) h.up_ne
  have hq' : (swapIf v q r).Holds 0 D (swapIf v qf rf) := by unfold swapIf; split_ifs; exacts [h.hq, h.hr]
  have hr' : (swapIf v r q).Holds 0 D (swapIf v rf qf) := by unfold swapIf; split_ifs; exacts [h.hr, h.hq]
  have hargs : Spec.BoundArgs D Dg (swapIf v q r) (swapIf v r q) (swapIf v qf rf) (swapIf v rf qf) K bs (fun i => I * (yf i : ℂ))
      (Buf.malloc K) (Buf.malloc K) (some nc) (if o.nrm then some (Buf.malloc K) else none) (Spec.baseOf a) .KdV 0 :=
    { hDg := h.hDg2, hD := by rw [s5]; exact h.hDg, hq := hq', hr := hr', hK := by omega, hl := hb,
      hd := s4, hp := Or.inl rfl, hx := fun _ i hi => by
        have := hy i hi
        simp [this]
      ha := le_rfl, hap := le_rfl, hb := fun _ => ⟨nc, rfl, hKl⟩,
      hW := fun V hV => by
        cases hn : o.nrm
        · rw [hn] at hV; cases hV
        · rw [hn] at hV; cases hV; simp }
  obtain ⟨res, wt, u, e1, e2, e3, e4, e5, e6, e7⟩ := kdv_bound_ok hargs s2 s3 T0 T1 (g 0) (g 1)
  rw [← h.heps] at e3 e7
  obtain ⟨nc1, n1, n2, n3, n4⟩ := e4 rfl nc rfl
  have hval : ∀ i, i < K → ∃ x, nc1.rd i = some x ∧ Spec.KdvNormConst expS (Spec.baseOf a) (v ≠ 0) D Dg T0 T1 eps (swapIf v qf rf)
      (swapIf v rf qf) (yf i) (nc.rd i) x := by
    intro i hi
    have hB := e7 i hi rfl
    have hn := n3 i hi
    cases hv : u i with
    | none =>
      rw [hv] at hB hn
      obtain ⟨x, hx⟩ := hinit i hi hB
      exact ⟨x, hn.trans hx, none, hB, hx.symm⟩
    | some x =>
      rw [hv] at hB hn
      exact ⟨x, hn, some x, hB, rfl⟩
  choose! b hb1 hb2 using hval
  have hap : ∀ i, i < K → ∃ x, res.aprime.rd i = some x ∧ (2 : ℂ) ^ wt i * x = apf i := by
    intro i hi
    obtain ⟨-, x, x1, x2⟩ := e3 i hi
    refine ⟨_, x1, ?_⟩
    have x3 : (((2 : ℝ) ^ wt i * x : ℝ) : ℂ) =
        (((kdvSlowA' (Spec.baseOf a) (v ≠ 0) D T0 T1 eps (swapIf v qf rf) (swapIf v rf qf) (I * (yf i : ℂ))).im : ℝ) : ℂ) := by rw [x2]
    push_cast at x3
    show (2 : ℂ) ^ wt i * (I * x) = -I * ((-(kdvSlowA' _ _ _ _ _ _ _ _ _).im : ℝ) : ℂ)
    rw [ofReal_neg]
    linear_combination I * x3
  choose! x hx using hap
  obtain ⟨code, nc', r1, r2, r3, r4, r5⟩ := residues_ok (ds := o.ds) hds (K := K) (ap := res.aprime) (Ws := res.Ws) (x := x) (b := b)
    (apf := apf) (wt := wt) (nc := nc1) hx
    (fun V hV i hi => by
      cases hn : o.nrm
      · rw [hn] at e6
        rw [(e6 rfl).1] at hV; cases hV
      · rw [hn] at e5
        obtain ⟨V', v1, -, v2⟩ := e5 _ rfl
        rw [v1] at hV; cases hV
        exact v2 i hi)
    (fun hV i hi => by
      cases hn : o.nrm
      · rw [hn] at e6
        exact (e6 rfl).2 i
      · rw [hn] at e5
        obtain ⟨V', v1, -, v2⟩ := e5 _ rfl
        rw [v1] at hV; cases hV)
    (fun i hi => by rw [Nat.zero_add]; exact hb1 i hi) (by rw [n2]; exact hl)
  refine ⟨code, nc', b, ?_, r2.trans n2, fun j hj => ?_, hb2, r4, r5⟩
  · unfold kdvv_normconsts
    rw [if_neg hK, if_neg hD0, if_neg hup, s1]
    dsimp only
    rw [if_neg (by simp), e1]
    simp only [Option.bind_eq_bind, Option.bind_some, n1, e2, ne_eq, not_true_eq_false, if_false]
    exact r1
  · rw [r3 j hj]
    refine n4 j (le_trans ?_ hj)
    have : 1 ≤ Spec.dsLen o.ds := by cases o.ds <;> simp [Spec.dsLen]
    nlinarith

/-- The array for norming constants and residues is large enough. -/
def Spec.KdvNcReq (o : KdvvOpts) (K0 : ℕ) (nc : Option (Buf ℂ)) : Prop :=
  ∀ n, nc = some n → Spec.dsLen o.ds * K0 ≤ n.len ∧ ∀ k, o.ds ≠ .other k

/-- What happens to the array `nc` after bound states `i y 0, ..., i y (K-1)` were found: `ret code nc'` are the possible final
values. `A'` is the derivative of `Re a(iκ)`, `N` the relation between a bound state, the old value and the norming constant. -/
structure Spec.KdvNormOut (ds : DsType) (A' : ℝ → ℝ) (N : ℝ → Option ℂ → ℂ → Prop) (K : ℕ) (y : ℕ → ℝ) (nc : Option (Buf ℂ))
    (code : ℤ) (nc' : Option (Buf ℂ)) : Prop where
  none : nc = none → code = SUCCESS ∧ nc' = none
  some : ∀ n0, nc = some n0 → ∃ n1 b, nc' = some n1 ∧ n1.len = n0.len ∧ (∀ j, Spec.dsLen ds * K ≤ j → n1.rd j = n0.rd j) ∧
    (∀ i, i < K → N (y i) (n0.rd i) (b i)) ∧
    (ds = .NORMING_CONSTANTS ∨ (∀ i, i < K → A' (y i) ≠ 0) → code = SUCCESS ∧
      n1.Holds 0 (Spec.dsLen ds * K) (Spec.dsOut ds K b (fun i => -I * (A' (y i) : ℂ)))) ∧
    (ds ≠ .NORMING_CONSTANTS → (∃ i, i < K ∧ A' (y i) = 0) → code = E_SUBROUTINE EC_DIV_BY_ZERO)

theorem Spec.KdvNormOut.code_eq {ds : DsType} {A' : ℝ → ℝ} {N : ℝ → Option ℂ → ℂ → Prop} {K : ℕ} {y : ℕ → ℝ} {nc nc' : Option (Buf ℂ)}
    {code : ℤ} (h : Spec.KdvNormOut ds A' N K y nc code nc') : code = SUCCESS ∨ code = E_SUBROUTINE EC_DIV_BY_ZERO := by
  cases nc with
  | none => exact Or.inl (h.none rfl).1
  | some n0 =>
    obtain ⟨n1, b, -, -, -, -, e5, e6⟩ := h.some n0 rfl
    by_cases hc : ds = .NORMING_CONSTANTS ∨ (∀ i, i < K → A' (y i) ≠ 0)
    · exact Or.inl (e5 hc).1
    · push Not at hc
      exact Or.inr (e6 hc.1 hc.2)

/-- After the localisation. -/
theorem kdvBaseDisc_finish (h : KdvBaseArgs D Dg q r qf rf T0 T1 eps o a v) (g : Garbage) {next : NextToward}
    {s : NsevSt} {bs : Buf ℂ} {K0 : ℕ} (hbs : s.bs = some bs) (hK : s.K = some K0) (hK0 : K0 ≠ 0) (hnc : Spec.KdvNcReq o K0 s.nc)
    {K' : ℕ} (hK' : K' ≤ K0) {bs' : Buf ℂ} {out : ℕ → ℝ}
    (hc : kdvv_compute_boundstates next D q r T0 T1 eps K0 bs o g = some (SUCCESS, K', bs'))
    (hw : bs'.Holds 0 K' (fun i => I * (out i : ℂ))) (hy : s.nc ≠ none → ∀ i, i < K' → out i ≠ 0)
    (hinit : ∀ n0, s.nc = some n0 → ∀ i, i < K' →
      Spec.KdvNoBoundary expS (Spec.baseOf a) (v ≠ 0) D Dg T0 T1 eps (swapIf v qf rf) (swapIf v rf qf) (out i) → ∃ x, n0.rd i = some x) :
    ∃ code nc', kdvBaseDisc next D q r T0 T1 eps o g s = some (code, { s with K := some K', bs := some bs', nc := nc' }) ∧
      Spec.KdvNormOut o.ds (kdvReA' (Spec.baseOf a) (v ≠ 0) D T0 T1 eps (swapIf v qf rf) (swapIf v rf qf))
        (Spec.KdvNormConst expS (Spec.baseOf a) (v ≠ 0) D Dg T0 T1 eps (swapIf v qf rf) (swapIf v rf qf)) K' out s.nc code nc' := by
  have hrun : kdvBaseDisc next D q r T0 T1 eps o g s =
      kdvBaseNorm D q r T0 T1 o g K' bs' { s with K := some K', bs := some bs' } := by
    unfold kdvBaseDisc
    rw [hbs, hK]
    simp only [Option.bind_eq_bind, Option.bind_some, hK0, hc, ne_eq, not_false_eq_true, if_true, not_true_eq_false, if_false]
  rw [hrun]
  unfold kdvBaseNorm
  dsimp only
  cases hn : s.nc with
  | none =>
    exact ⟨SUCCESS, none, rfl, fun _ => ⟨rfl, rfl⟩, fun n0 h0 => by cases h0⟩
  | some n0 =>
    dsimp only
    obtain ⟨hl, hds⟩ := hnc n0 hn
    by_cases hK'0 : K' = 0
    · subst hK'0
      refine ⟨SUCCESS, some n0, rfl, fun h => (by cases h), fun n1 h1 => ?_⟩
      cases h1
      exact ⟨n0, fun _ => 0, rfl, rfl, fun _ _ => rfl, fun i hi => by omega, fun _ => ⟨rfl, fun i hi => by simp at hi⟩,
        fun _ ⟨i, hi, _⟩ => by omega⟩
    · obtain ⟨code, nc1, b, n1, n2, n3, n4, n5, n6⟩ := kdv_normconsts_ok h hds g hK'0 hw (hy (by rw [hn]; simp))
        (le_trans (Nat.mul_le_mul_left _ hK') hl) (hinit n0 hn)
      rw [if_pos hK'0, n1]
      have hz : ∀ y : ℝ, -I * (y : ℂ) = 0 ↔ y = 0 := fun y => by simp
      refine ⟨chk code, some nc1, rfl, fun h => (by cases h), fun n1 h1 => ?_⟩
      cases h1
      refine ⟨nc1, b, rfl, n2, n3, n4, fun hh => ?_, fun h1 h2 => ?_⟩
      · obtain ⟨z1, z2⟩ := n5 (hh.imp id fun hh i hi => (not_congr (hz _)).mpr (hh i hi))
        exact ⟨by rw [z1]; rfl, z2⟩
      · obtain ⟨i, hi, h2⟩ := h2
        rw [n6 h1 ⟨i, hi, (hz _).mpr h2⟩]
        rfl

/-! ## The continuous spectrum in the same call -/

/-- A valid request for a continuous spectrum. The frequency zero must not be on the grid. -/
structure Spec.KdvContReq (D M : ℕ) (XI0 XI1 : ℝ) (o : KdvvOpts) (a : AknsDisc) (c : Buf ℂ) : Prop where
  hM : 2 ≤ M
  hXI : XI0 < XI1
  hgrid : ∀ i, i < M → Spec.grid XI0 XI1 M i ≠ 0
  hsz : D * akns_upsampling_factor a * akns_degree a + M < 3 ^ 32
  hcs : ∀ n, o.cs ≠ .other n
  hlen : Spec.csLen o.cs * M ≤ c.len

/-- `a` on the frequency grid. -/
noncomputable def Spec.kdvGridA (a : AknsDisc) (v D' : ℕ) (T0 T1 eps XI0 XI1 : ℝ) (M : ℕ) (U : ℂ → ℕ → Spec.M2) (i : ℕ) : ℂ :=
  Spec.kdvA (v ≠ 0) U (Spec.slowCount a D') T0 T1 eps (Spec.grid XI0 XI1 M i)
/-- `b` on the frequency grid. -/
noncomputable def Spec.kdvGridB (a : AknsDisc) (v D' : ℕ) (T0 T1 eps XI0 XI1 : ℝ) (M : ℕ) (U : ℂ → ℕ → Spec.M2) (i : ℕ) : ℂ :=
  Spec.kdvB (v ≠ 0) U (Spec.slowCount a D') T0 T1 eps (Spec.grid XI0 XI1 M i)

/-- A request for the continuous spectrum that can be fulfilled: nothing is requested, or the request is valid and `a` has no zero on the grid
(needed for the reflection coefficient only). -/
def Spec.KdvContOK (D : ℕ) (T0 T1 eps : ℝ) (M : ℕ) (XI : Option (ℝ × ℝ)) (o : KdvvOpts) (a : AknsDisc) (v : ℕ) (U : ℂ → ℕ → Spec.M2)
    (c : Option (Buf ℂ)) : Prop :=
  ∀ cb, c = some cb → M = 0 ∨ ∃ XI0 XI1, XI = some (XI0, XI1) ∧ Spec.KdvContReq D M XI0 XI1 o a cb ∧
    (o.cs = .AB ∨ ∀ i, i < M → Spec.kdvGridA a v (D * akns_upsampling_factor a) T0 T1 eps XI0 XI1 M U i ≠ 0)

/-- `c'` contains the continuous spectrum, if it was requested. -/
def Spec.KdvContDone (D : ℕ) (T0 T1 eps : ℝ) (M : ℕ) (XI : Option (ℝ × ℝ)) (o : KdvvOpts) (a : AknsDisc) (v : ℕ) (U : ℂ → ℕ → Spec.M2)
    (c c' : Option (Buf ℂ)) : Prop :=
  (c = none ∨ M = 0 → c' = c) ∧ ∀ cb, c = some cb → M ≠ 0 → ∃ XI0 XI1 cb', XI = some (XI0, XI1) ∧ c' = some cb' ∧
    Spec.ContWritten o.cs M (Spec.kdvGridA a v (D * akns_upsampling_factor a) T0 T1 eps XI0 XI1 M U)
      (Spec.kdvGridB a v (D * akns_upsampling_factor a) T0 T1 eps XI0 XI1 M U) cb cb'

theorem kdvBaseCont_any {D : ℕ} (h : KdvBaseArgs (D * akns_upsampling_factor a) Dg q r qf rf T0 T1 eps o a v) {U : ℂ → ℕ → Spec.M2} {deg : ℕ}
    {W : ℤ} {tm : Option (Buf ℂ)} (ht : KdvTransferData a (D * akns_upsampling_factor a) Dg eps (swapIf v qf rf) (swapIf v rf qf) U deg W tm)
    {M : ℕ} {XI : Option (ℝ × ℝ)} {s : NsevSt} (hc : Spec.KdvContOK D T0 T1 eps M XI o a v U s.contspec) :
    ∃ c', kdvBaseCont (D * akns_upsampling_factor a) q r T0 T1 M XI o deg W tm s = some (SUCCESS, { s with contspec := c' }) ∧
      Spec.KdvContDone D T0 T1 eps M XI o a v U s.contspec c' := by
  cases hs : s.contspec with
  | none =>
    refine ⟨none, ?_, fun _ => rfl, fun cb h => by cases h⟩
    rw [kdvBaseCont_none (Or.inl hs)]
    congr 2
    cases s; cases hs; rfl
  | some cb =>
    have hX := hc cb hs
    by_cases hM : M = 0
    · refine ⟨some cb, ?_, fun _ => rfl, fun cb h h0 => absurd hM h0⟩
      rw [kdvBaseCont_none (Or.inr hM)]
      congr 2
      cases s; cases hs; rfl
    · rcases hX with h0 | ⟨XI0, XI1, rfl, hr, hz⟩
      · exact absurd h0 hM
      · obtain ⟨c', e1, e2⟩ := (kdvBaseCont_ok h ht hr.hM hr.hsz XI0 XI1 hr.hgrid hr.hcs hs hr.hlen).1 hz
        refine ⟨some c', e1, fun hh => ?_, fun cb' hcb _ => ?_⟩
        · rcases hh with hh | hh
          · cases hh
          · exact absurd hh hM
        · cases hcb
          exact ⟨XI0, XI1, c', rfl, rfl, e2⟩

/-- `fnft_kdvv` without Richardson extrapolation: the continuous spectrum, then the discrete spectrum. -/
theorem kdvv_direct {D : ℕ} {q : Buf ℂ} {x : ℕ → ℝ} (h : Spec.KdvvArgs D q x T0 T1 o a v) {M : ℕ} {XI : Option (ℝ × ℝ)} {s : NsevSt}
    (hr : Spec.KdvvReq o M XI s) (hrich : o.rich ≠ 1) :
    let eps := (T1 - T0) / (D - 1)
    let D' := D * akns_upsampling_factor a
    ∃ qp rp qf rf U, Spec.KdvProcessed a D eps (fun i => (x i : ℂ)) D 1 qf rf ∧
      (if v ≠ 0 then Spec.NseSteps a eps qf rf U else Spec.NseSteps a eps rf qf U) ∧
      KdvBaseArgs D' D qp rp qf rf T0 T1 eps o a v ∧
      ∀ (next : NextToward) (g : ℕ → Garbage), Spec.KdvContOK D T0 T1 eps M XI o a v U s.contspec →
        ∃ c', Spec.KdvContDone D T0 T1 eps M XI o a v U s.contspec c' ∧
          fnft_kdvv next D (some q) (some (T0, T1)) M XI o g s =
            (kdvBaseDisc next D' qp rp T0 T1 eps o (g 0) { s with contspec := c' }).map fun R => (chk R.1, R.2, o) := by
  intro eps D'
  obtain ⟨qp, rp, qf, rf, h1, h2, h3⟩ := kdvv_run h hr hrich
  obtain ⟨deg, W, tm, U, h4, h5⟩ := kdv_base_run h2
  refine ⟨qp, rp, qf, rf, U, h1, ?_, h2, fun next g hc => ?_⟩
  · have := h4.steps
    unfold swapIf at this
    split_ifs at this ⊢ <;> exact this
  obtain ⟨c', e1, e2⟩ := kdvBaseCont_any h2 h4 hc
  refine ⟨c', e2, ?_⟩
  rw [h3, h5 next M _ (g 0) _ hr.hXI hr.hK, e1]
  simp only [Option.bind_eq_bind, Option.bind_some, ne_eq, not_true_eq_false, if_false]
  cases kdvBaseDisc next D' qp rp T0 T1 eps o (g 0) { s with contspec := c' } <;> rfl

end FNFT

import Verif.Proofs.KdvGrid
import Verif.Proofs.KdvNewton
import Mathlib.Order.ConditionallyCompleteLattice.Basic
/-!
# Proofs: bounding box, grid search and refinement of bound states of the KdV
-/
namespace FNFT
open Complex AknsDisc

/-- Sample `i` is a sample of the potential (and not of one of its derivatives). -/
def Spec.kdvPotential (a : AknsDisc) (i : ℕ) : Prop := a = ES4 ∨ a = TES4 → i % 3 = 0

/-- The square of the length of the bounding interval: the largest (processed) sample of the potential, but at least zero; for
discretizations with more than two processed samples per sample it is multiplied by two. -/
def Spec.KdvBoundSq (a : AknsDisc) (D : ℕ) (qf : ℕ → ℂ) (m : ℝ) : Prop :=
  IsGreatest (insert 0 {u | ∃ i, i < D ∧ Spec.kdvPotential a i ∧ u = (qf i).re}) (if akns_upsampling_factor a ≤ 2 then m else m / 2)

theorem kdvMax_loop {q : Buf ℂ} {qf : ℕ → ℂ} {D stride : ℕ} (hq : q.Holds 0 D qf) (n : ℕ) (hn : ∀ j, j < n → stride * j < D) :
    ∃ m, forLoop n (kdvMaxBody q stride) 0 = some m ∧ IsGreatest (insert 0 {u | ∃ j, j < n ∧ u = (qf (stride * j)).re}) m := by
  have key := forLoop_inv (n := n) (body := kdvMaxBody q stride) (s := 0)
    (fun k m => IsGreatest (insert 0 {u | ∃ j, j < k ∧ u = (qf (stride * j)).re}) m) ?_ ?_
  · exact key
  · refine ⟨Or.inl rfl, ?_⟩
    rintro u (rfl | ⟨j, hj, -⟩)
    · exact le_rfl
    · omega
  · intro k m hk hm
    have hrd := hq (stride * k) (hn k hk)
    rw [Nat.zero_add] at hrd
    refine ⟨if m > (qf (stride * k)).re then m else (qf (stride * k)).re, ?_, ?_, ?_⟩
    · unfold kdvMaxBody
      rw [hrd]; rfl
    · split_ifs with c
      · rcases hm.1 with h0 | ⟨j, hj, h0⟩
        · exact Or.inl h0
        · exact Or.inr ⟨j, by omega, h0⟩
      · exact Or.inr ⟨k, by omega, rfl⟩
    · rintro u (rfl | ⟨j, hj, rfl⟩)
      · have := hm.2 (Or.inl rfl)
        split_ifs with c
        · exact this
        · linarith [not_lt.mp c]
      · rcases Nat.lt_succ_iff_lt_or_eq.mp hj with hj | rfl
        · have := hm.2 (Or.inr ⟨j, hj, rfl⟩)
          split_ifs with c
          · exact this
          · linarith [not_lt.mp c]
        · split_ifs with c
          · exact le_of_lt c
          · exact le_rfl

theorem kdvBoundSq_ok {d : KdvDisc} {a : AknsDisc} (hd : kdv_to_akns d = .ok a) {q : Buf ℂ} {qf : ℕ → ℂ} {D : ℕ} (hq : q.Holds 0 D qf) :
    ∃ m, kdvBoundSq D (akns_upsampling_factor a) q d = some m ∧ Spec.KdvBoundSq a D qf m ∧ 0 ≤ m := by
  have hes : ∀ {n : ℕ}, (d = .ES4_VANILLA ∨ d = .TES4_VANILLA ∨ d = .ES4 ∨ d = .TES4) ↔ (a = ES4 ∨ a = TES4) := by
    intro n
    cases d <;> simp only [kdv_to_akns] at hd <;> cases hd <;> simp
  by_cases hup : akns_upsampling_factor a ≤ 2
  · obtain ⟨m, h1, h2⟩ := kdvMax_loop hq (stride := 1) D (fun j hj => by omega)
    have hne : ¬ (a = ES4 ∨ a = TES4) := by
      rintro (rfl | rfl) <;> simp [akns_upsampling_factor] at hup
    refine ⟨m, ?_, ?_, h2.2 (Or.inl rfl)⟩
    · unfold kdvBoundSq; rw [if_pos hup, h1]
    · unfold Spec.KdvBoundSq
      rw [if_pos hup]
      convert h2 using 3
      ext u
      simp only [Nat.one_mul]
      exact ⟨fun ⟨i, c1, _, c3⟩ => ⟨i, c1, c3⟩, fun ⟨i, c1, c3⟩ => ⟨i, c1, fun h => absurd h hne, c3⟩⟩
  · by_cases hE : a = ES4 ∨ a = TES4
    · obtain ⟨m, h1, h2⟩ := kdvMax_loop hq (stride := 3) ((D + 2) / 3) (fun j hj => by omega)
      refine ⟨m * 2, ?_, ?_, by linarith [h2.2 (Or.inl rfl)]⟩
      · have := (hes (n := 0)).mpr hE
        unfold kdvBoundSq; rw [if_neg hup]
        rcases this with rfl | rfl | rfl | rfl <;> (dsimp only; rw [h1]; rfl)
      · unfold Spec.KdvBoundSq
        rw [if_neg hup, mul_div_cancel_right₀ _ (two_ne_zero)]
        convert h2 using 3
        ext u
        constructor
        · rintro ⟨i, c1, c2, c3⟩
          have := c2 hE
          exact ⟨i / 3, by omega, by rw [c3, show 3 * (i / 3) = i by omega]⟩
        · rintro ⟨j, c1, c3⟩
          exact ⟨3 * j, by omega, fun _ => by omega, c3⟩
    · obtain ⟨m, h1, h2⟩ := kdvMax_loop hq (stride := 1) D (fun j hj => by omega)
      refine ⟨m * 2, ?_, ?_, by linarith [h2.2 (Or.inl rfl)]⟩
      · have := (not_congr (hes (n := 0))).mpr hE
        unfold kdvBoundSq; rw [if_neg hup]
        revert this
        cases d <;> intro this <;> (first | (simp at this; done) | (dsimp only; rw [h1]; rfl))
      · unfold Spec.KdvBoundSq
        rw [if_neg hup, mul_div_cancel_right₀ _ (two_ne_zero)]
        convert h2 using 3
        ext u
        simp only [Nat.one_mul]
        exact ⟨fun ⟨i, c1, _, c3⟩ => ⟨i, c1, c3⟩, fun ⟨i, c1, c3⟩ => ⟨i, c1, fun h => absurd h hE, c3⟩⟩

variable {D Dg : ℕ} {q r : Buf ℂ} {qf rf : ℕ → ℂ} {T0 T1 eps : ℝ} {o : KdvvOpts} {a : AknsDisc} {v : ℕ}

/-- The first entry of the scattering matrix in the S basis at `iκ`, for the processed samples. -/
noncomputable def Spec.kdvS11 (E : Spec.M2 → Spec.M2) (d : AknsDisc) (vanilla : Bool) (D : ℕ) (eps : ℝ) (qf rf : ℕ → ℂ) (y : ℝ) : ℂ :=
  Spec.kdvS vanilla (Spec.slowStep E d eps (Spec.cfWeight d) qf rf (I * y)) (Spec.slowCount d D) (I * y) 0 0

theorem kdvSearch_ok (h : KdvBaseArgs D Dg q r qf rf T0 T1 eps o a v) {d' : KdvDisc} (h1 : kdv_to_akns d' = .ok (Spec.baseOf a))
    (h2 : kdv_vanilla_flag d' = .ok v) (h3 : Spec.slow (Spec.baseOf a))
    (h4 : akns_upsampling_factor (Spec.baseOf a) = akns_upsampling_factor a) {next : NextToward} {b : ℝ} (hb : 0 < b) {M : ℕ} (hM : 2 ≤ M)
    (hn : Spec.NextOK next b M) (nrm : Bool) {K0 : ℕ} {bs : Buf ℂ} (hK : K0 ≤ bs.len) :
    ∃ (out : List ℝ) (S : KdvScan), Spec.KdvGuesses nrm M (Spec.kdvGridY next b M)
        (fun i => Spec.kdvS11 expS (Spec.baseOf a) (v ≠ 0) D eps (swapIf v qf rf) (swapIf v rf qf) (Spec.kdvGridY next b M i)) out ∧
      kdvSearch next D q r eps K0 bs b M d' nrm = some S ∧ S.bs.len = bs.len ∧ (∀ j, K0 ≤ j → S.bs.rd j = bs.rd j) ∧
      (out.length ≤ K0 → S.ret = SUCCESS ∧ S.K = out.length ∧ S.bs.Holds 0 out.length (fun i => I * (out.getD i 0 : ℂ)) ∧
        ∀ j, out.length ≤ j → S.bs.rd j = bs.rd j) ∧
      (K0 < out.length → S.ret = E_SUBROUTINE EC_OTHER) := by
  obtain ⟨xi, g1, g2⟩ := kdvGrid_ok next b M
  obtain ⟨Ws, hWs⟩ : ∃ Ws : Option (Buf ℤ), Ws = if nrm then some (Buf.malloc (4 * M)) else none := ⟨_, rfl⟩
  have hWl : ∀ V, Ws = some V → M ≤ V.len := by
    intro V hV
    cases nrm with
    | true => simp [hWs] at hV; rw [← hV]; simp; omega
    | false => simp [hWs] at hV
  have hsmp : Spec.slowSamples (Spec.baseOf a) D := by
    have := h.hDg
    rw [← h4] at this
    rcases h3 with h | h | h | h | h | h | h <;> rw [h] at this ⊢ <;> simp [Spec.slowSamples, this, akns_upsampling_factor]
  obtain ⟨R, w, s1, s2, s3, s4, s5, s6⟩ := kdv_scatter_ok h1 h2 h3 (by have := h.two_le; omega) hsmp h.hq h.hr h.eps_pos (by omega) g2
    (fun i hi => mul_ne_zero I_ne_zero (by exact_mod_cast (kdvGridY_pos hM hn hb (i := i)).ne')) hWl
  obtain ⟨out, S, c1, c2, c3, c4, c5, c6⟩ := kdvScan_ok (K0 := K0) (bs := bs) (Ws := R.W) (w := w) (coef := R.result)
    (p := fun i => Spec.kdvS11 expS (Spec.baseOf a) (v ≠ 0) D eps (swapIf v qf rf) (swapIf v rf qf) (Spec.kdvGridY next b M i)) g2
    (fun i hi => by
      have := s3 i hi 0 0
      simpa [Spec.kdvS11, Spec.kdvS] using this) s4 s5 hK
  have hN : R.W.isSome = nrm := by
    cases hR : R.W with
    | none =>
      have := s6.mp hR
      cases nrm
      · rfl
      · rw [hWs] at this; cases this
    | some V =>
      cases nrm
      · have := s6.mpr (by rw [hWs]; rfl)
        rw [hR] at this; cases this
      · rfl
  rw [hN] at c1
  refine ⟨out, S, c1, ?_, c3, c4, c5, c6⟩
  unfold kdvSearch
  rw [g1]
  simp only [Option.bind_eq_bind, Option.bind_some, ← hWs, s1, s2, ne_eq, not_true_eq_false, if_false, c2]

/-- What `kdvv_compute_boundstates` returns, for the bound `√m`, the values `A`, `A'` and the values `p` of the first matrix entry. -/
structure KdvBoundOut (next : NextToward) (o : KdvvOpts) (m : ℝ) (A A' : ℝ → ℝ) (p : ℝ → ℂ) (K0 : ℕ) (bs : Buf ℂ)
    (R : ℤ × ℕ × Buf ℂ) : Prop where
  len : R.2.2.len = bs.len
  frame : ∀ j, K0 ≤ j → R.2.2.rd j = bs.rd j
  zero : m = 0 → R = (SUCCESS, 0, bs)
  newton : 0 < m → o.loc = .NEWTON → ∀ init : ℕ → ℝ, bs.Holds 0 K0 (fun i => I * (init i : ℂ)) →
    ∃ (out : ℕ → ℝ) (fail : Option ℕ), Spec.RealNewtonAll A A' (EPSILON * 100) (Real.sqrt m) o.niter K0 init out fail ∧
      R.1 = (if fail = none then SUCCESS else E_SUBROUTINE EC_DIV_BY_ZERO) ∧ R.2.1 = K0 ∧ R.2.2.Holds 0 K0 (fun i => I * (out i : ℂ))
  spacing : 0 < m → o.loc = .GRIDSEARCH_AND_REFINE → o.grid_spacing ≤ 0 → R = (EC_INVALID_ARGUMENT, K0, bs)
  coarse : 0 < m → o.loc = .GRIDSEARCH_AND_REFINE → 0 < o.grid_spacing → Real.sqrt m ≤ o.grid_spacing → R = (SUCCESS, 0, bs)
  grid : 0 < m → o.loc = .GRIDSEARCH_AND_REFINE → 0 < o.grid_spacing → o.grid_spacing < Real.sqrt m →
    let M := ⌈Real.sqrt m / o.grid_spacing⌉₊
    let y := Spec.kdvGridY next (Real.sqrt m) M
    ∃ guesses : List ℝ, Spec.KdvGuesses o.nrm M y (fun i => p (y i)) guesses ∧
      (K0 < guesses.length → R.1 = E_SUBROUTINE EC_OTHER ∧ R.2.1 = K0) ∧
      (guesses.length ≤ K0 → ∃ (out : ℕ → ℝ) (fail : Option ℕ),
        Spec.RealNewtonAll A A' (EPSILON * 100) (Real.sqrt m) o.niter guesses.length (fun i => guesses.getD i 0) out fail ∧
        R.1 = (if fail = none then SUCCESS else E_SUBROUTINE EC_DIV_BY_ZERO) ∧ R.2.1 = (if fail = none then guesses.length else K0) ∧
        R.2.2.Holds 0 guesses.length (fun i => I * (out i : ℂ)) ∧ ∀ j, guesses.length ≤ j → R.2.2.rd j = bs.rd j)

theorem ceil_lt_two {u s : ℝ} (hs : 0 < s) : ⌈u / s⌉₊ < 2 ↔ u ≤ s := by
  rw [show ⌈u / s⌉₊ < 2 ↔ ⌈u / s⌉₊ ≤ 1 by omega, Nat.ceil_le, Nat.cast_one, div_le_one hs]

theorem kdv_boundstates_ok (h : KdvBaseArgs D Dg q r qf rf T0 T1 eps o a v) (g : Garbage) {next : NextToward} {m : ℝ}
    (hm : Spec.KdvBoundSq a D qf m) (hnext : 0 < m → o.loc = .GRIDSEARCH_AND_REFINE → 0 < o.grid_spacing → o.grid_spacing < Real.sqrt m →
      Spec.NextOK next (Real.sqrt m) ⌈Real.sqrt m / o.grid_spacing⌉₊) (hloc : ∀ n, o.loc ≠ .other n) {K0 : ℕ} {bs : Buf ℂ} (hK : K0 ≤ bs.len)
    (hguess : 0 < m → o.loc = .NEWTON → ∃ init : ℕ → ℝ, bs.Holds 0 K0 (fun i => I * (init i : ℂ))) :
    ∃ R, kdvv_compute_boundstates next D q r T0 T1 eps K0 bs o g = some R ∧
      KdvBoundOut next o m (Spec.kdvReA expS (Spec.baseOf a) (v ≠ 0) D T0 T1 eps (swapIf v qf rf) (swapIf v rf qf))
        (kdvReA' (Spec.baseOf a) (v ≠ 0) D T0 T1 eps (swapIf v qf rf) (swapIf v rf qf))
        (Spec.kdvS11 expS (Spec.baseOf a) (v ≠ 0) D eps (swapIf v qf rf) (swapIf v rf qf)) K0 bs R := by
  obtain ⟨d', s1, s2, s3, s4, s5⟩ := kdvSlow_ok h.hd h.hv
  obtain ⟨m', m1, m2, m3⟩ := kdvBoundSq_ok h.hd h.hq
  have hmm : m' = m := by
    have := IsGreatest.unique m2 hm
    split_ifs at this
    · exact this
    · linarith
  rw [hmm] at m1 m3
  have hrun : kdvv_compute_boundstates next D q r T0 T1 eps K0 bs o g = if m = 0 then some (SUCCESS, 0, bs)
      else kdvLocalize next D q r T0 T1 eps K0 bs (Real.sqrt m) d' o g := by
    unfold kdvv_compute_boundstates
    rw [h.up_eq, if_neg h.up_ne, s1]
    dsimp only
    rw [if_neg (by simp), m1]
    rfl
  by_cases hm0 : m = 0
  · rw [hrun, if_pos hm0]
    refine ⟨_, rfl, rfl, fun _ _ => rfl, fun _ => rfl, ?_, ?_, ?_, ?_⟩ <;> intro hp <;> exact absurd hm0 hp.ne'
  have hpos : 0 < m := lt_of_le_of_ne m3 (Ne.symm hm0)
  have hsq : 0 < Real.sqrt m := Real.sqrt_pos.mpr hpos
  rw [hrun, if_neg hm0]
  unfold kdvLocalize
  cases hl : o.loc with
  | other n => exact absurd hl (hloc n)
  | NEWTON =>
    dsimp only
    obtain ⟨init, hi⟩ := hguess hpos hl
    obtain ⟨out, fail, bs', e1, e2, e3, e4, e5⟩ := kdvRefine_ok h s2 s3 s4 s5 g (K0 := K0) hi hsq.le
    refine ⟨_, e1, e4, e5, fun h0 => absurd h0 hm0, fun _ _ init' hi' => ?_, fun _ hc => ?_, fun _ hc => ?_, fun _ hc => ?_⟩
    · refine ⟨out, fail, ?_, rfl, by simp, e3⟩
      have : ∀ i, i < K0 → init' i = init i := fun i hi0 => by
        have w1 := hi i hi0
        rw [hi' i hi0] at w1
        have := mul_left_cancel₀ I_ne_zero (Option.some.inj w1)
        exact_mod_cast this
      refine ⟨fun i hi0 hf => ?_, fun f hf => ?_⟩
      · rw [this i hi0]; exact e2.run i hi0 hf
      · obtain ⟨w1, ⟨z, k, w2, w3, w4⟩, w5⟩ := e2.failed f hf
        refine ⟨w1, ⟨z, k, by rw [this f w1]; exact w2, w3, w4⟩, fun i hi0 hik => ?_⟩
        rw [w5 i hi0 hik]
        exact (this i hik).symm
    · rw [hl] at hc; cases hc
    · rw [hl] at hc; cases hc
    · rw [hl] at hc; cases hc
  | GRIDSEARCH_AND_REFINE =>
    dsimp only
    rw [sub_zero, if_neg (not_le.mpr hsq)]
    by_cases hg : o.grid_spacing > 0
    · rw [if_pos hg]
      by_cases hc : Real.sqrt m ≤ o.grid_spacing
      · rw [if_pos ((ceil_lt_two hg).mpr hc)]
        refine ⟨_, rfl, rfl, fun _ _ => rfl, fun _ => rfl, fun _ c => ?_, fun _ _ c => ?_, fun _ _ _ _ => rfl, fun _ _ _ c => ?_⟩
        · rw [hl] at c; cases c
        · linarith
        · linarith
      · have hc' : ¬ ⌈Real.sqrt m / o.grid_spacing⌉₊ < 2 := fun h => hc ((ceil_lt_two hg).mp h)
        rw [if_neg hc']
        obtain ⟨gs, S, c1, c2, c3, c4, c5, c6⟩ := kdvSearch_ok h s2 s3 s4 s5 hsq (not_lt.mp hc') (hnext hpos hl hg (not_le.mp hc)) o.nrm hK
        rw [c2]
        simp only [Option.bind_eq_bind, Option.bind_some]
        by_cases hlen : gs.length ≤ K0
        · obtain ⟨f1, f2, f3, f4⟩ := c5 hlen
          rw [if_neg (not_not.mpr f1), f2]
          obtain ⟨out, fail, bs', e1, e2, e3, e4, e5⟩ := kdvRefine_ok h s2 s3 s4 s5 g (K0 := K0) f3 hsq.le
          refine ⟨_, e1, e4.trans c3, fun j hj => (e5 j (by omega)).trans (f4 j (by omega)), fun h0 => absurd h0 hm0, fun _ c => ?_, fun _ _ c => ?_,
            fun _ _ _ c => absurd c hc, fun _ _ _ _ => ⟨gs, c1, fun c => by omega, fun _ => ⟨out, fail, e2, rfl, rfl, e3, fun j hj =>
              (e5 j hj).trans (f4 j hj)⟩⟩⟩
          · rw [hl] at c; cases c
          · linarith
        · have f1 := c6 (by omega)
          rw [if_pos (by rw [f1]; decide)]
          refine ⟨_, rfl, c3, c4, fun h0 => absurd h0 hm0, fun _ c => ?_, fun _ _ c => ?_, fun _ _ _ c => absurd c hc,
            fun _ _ _ _ => ⟨gs, c1, fun _ => ⟨f1, rfl⟩, fun c => absurd c hlen⟩⟩
          · rw [hl] at c; cases c
          · linarith
    · rw [if_neg hg]
      refine ⟨_, rfl, rfl, fun _ _ => rfl, fun h0 => absurd h0 hm0, fun _ c => ?_, fun _ _ _ => rfl, fun _ _ c => absurd c hg, fun _ _ c => absurd c hg⟩
      rw [hl] at c; cases c

end FNFT

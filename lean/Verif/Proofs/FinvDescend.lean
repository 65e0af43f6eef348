import Verif.Proofs.FinvTop
/-! Fast inverse scattering: the way down to the first sample (for discretizations that are not supported). -/
namespace FNFT
open Kiss

theorem finvPlans_any : ∀ n deg, 2 * deg + 1 ≤ 3 ^ 32 → ∃ pl, finvPlans n deg = some (.ok pl) := by
  intro n
  induction n with
  | zero => intro deg _; exact ⟨_, rfl⟩
  | succ n ih =>
    intro deg h
    obtain ⟨pl, hpl⟩ := ih (deg / 2) (by omega)
    obtain ⟨len, hlen, hl1, hl2, -⟩ := twoPolysLen_spec deg
    obtain ⟨pf, hpf, hpf'⟩ := mkPlan_fwd len (by omega) (by omega)
    obtain ⟨pi, hpi, hpi'⟩ := mkPlan_inv len (by omega) (by omega)
    rw [finvPlans]
    simp only [Option.bind_eq_bind, hlen, Option.bind_some, hpf, hpi, hpl]
    exact ⟨_, rfl⟩

/-- The state after `j` descents from level 0 with degree `deg`. -/
structure DescendOK (deg j : ℕ) (s0 s : FinvSt) : Prop where
  mem : s.mem = s0.mem
  q : s.q = s0.q
  fr : ∃ f, s.fr j = some f ∧ f.deg = deg / 2 ^ j ∧ f.start_pos = 0 ∧ f.T.1 = .tm ∧ f.T.2 + deg / 2 ^ j ≤ deg ∧ f.T_stride = deg + 1 ∧
    (∀ k, deg = 2 ^ k → j ≤ k → f.T.2 + 2 ^ (k - j) = 2 ^ k) ∧
    (0 < j → f.Ti = some (.T2i (j - 1), deg / 2 ^ j) ∧ f.Ti_stride = deg / 2 ^ (j - 1) + 1)

theorem finv_descend {P : FinvPar} {deg : ℕ} {s0 : FinvSt} (h0 : DescendOK deg 0 s0 s0) : ∀ j, j < P.size →
    (∀ i, i < j → 1 < deg / 2 ^ i) → ∃ s, DescendOK deg j s0 s ∧ ∀ fuel, finvRun P (j + fuel) 0 s0 = finvRun P fuel j s := by
  intro j
  induction j with
  | zero => intro _ _; exact ⟨s0, h0, fun fuel => by rw [Nat.zero_add]⟩
  | succ j ih =>
    intro hj hd
    obtain ⟨s, hs, hrun⟩ := ih (by omega) (fun i hi => hd i (by omega))
    obtain ⟨f, f1, f2, f3, f4, f5, f6, f7, f8⟩ := hs.fr
    have hdj := hd j (by omega)
    have step : finvStep P j s = some (.push (FinvSt.mk (Function.update (Function.update s.fr (j + 1)
          (some ⟨f.deg / 2, (f.T.1, f.T.2 + f.deg / 2), f.T_stride, some (.T2i j, f.deg / 2), f.deg + 1, f.q + f.deg / 2, 0⟩)) j
        (some { f with start_pos := 1 })) s.mem s.q s.B s.ret)) := by
      unfold finvStep
      rw [f1]
      simp only [Option.bind_eq_bind, Option.bind_some]
      rw [if_neg (by omega), if_neg (by omega), if_pos (by omega)]
      unfold finvStep1 finvPush
      rw [if_pos hj]
    have hpow : deg / 2 ^ (j + 1) = deg / 2 ^ j / 2 := by rw [pow_succ, Nat.div_div_eq_div_mul]
    refine ⟨FinvSt.mk (Function.update (Function.update s.fr (j + 1)
          (some ⟨f.deg / 2, (f.T.1, f.T.2 + f.deg / 2), f.T_stride, some (.T2i j, f.deg / 2), f.deg + 1, f.q + f.deg / 2, 0⟩)) j
        (some { f with start_pos := 1 })) s.mem s.q s.B s.ret, ⟨hs.mem, hs.q, ?_⟩, fun fuel => ?_⟩
    · refine ⟨⟨f.deg / 2, (f.T.1, f.T.2 + f.deg / 2), f.T_stride, some (.T2i j, f.deg / 2), f.deg + 1, f.q + f.deg / 2, 0⟩,
        by simp only []; rw [Function.update_of_ne (by omega), Function.update_self], ?_, rfl, f4, ?_, f6, ?_, fun _ => ⟨?_, ?_⟩⟩
      · simp only []; rw [f2, hpow]
      · simp only []; rw [f2, hpow]; omega
      · intro k hk hjk
        simp only []
        have := f7 k hk (by omega)
        rw [f2, hk, Nat.pow_div (by omega) (by norm_num)]
        have e : 2 ^ (k - j) = 2 * 2 ^ (k - (j + 1)) := by rw [← pow_succ']; congr 1; omega
        omega
      · simp only [Nat.add_sub_cancel]; rw [f2, hpow]
      · simp only [Nat.add_sub_cancel]; rw [f2]
    · rw [show j + 1 + fuel = j + (fuel + 1) by ring, hrun, finvRun_push step]

/-- A discretization of a degree larger than one: the stack is exceeded. -/
theorem finvMain_overrun (kind : FinvKind) (disc : FinvDisc) (k deg : ℕ) (tm q : Buf ℂ) (eps : ℝ) (ddeg : ℕ) (hd : 2 ≤ ddeg)
    (hdeg : deg / ddeg = 2 ^ k) (hsz : 2 * deg + 1 ≤ 3 ^ 32) : finvMain kind disc (2 ^ k) deg tm q eps = none := by
  have hdeg' : 2 * 2 ^ k ≤ deg := by
    have := Nat.div_mul_le_self deg ddeg
    rw [hdeg] at this
    calc 2 * 2 ^ k = 2 ^ k * 2 := by ring
      _ ≤ 2 ^ k * ddeg := Nat.mul_le_mul_left _ hd
      _ ≤ deg := this
  have hlev : ∀ i, i ≤ k → 1 < deg / 2 ^ i := by
    intro i hi
    refine Nat.lt_of_lt_of_le (by norm_num) ((Nat.le_div_iff_mul_le (Nat.two_pow_pos i)).2 (show 2 * 2 ^ i ≤ deg from ?_))
    exact (Nat.mul_le_mul_left _ (Nat.pow_le_pow_right (by norm_num) hi)).trans hdeg'
  unfold finvMain
  rcases htr : finvTranspose kind.transpose deg tm with _ | tm'
  · rfl
  obtain ⟨len, hlen, -⟩ := twoPolysLen_spec deg
  obtain ⟨pl, hpl⟩ := finvPlans_any (Nat.log 2 (2 ^ k) + 1) deg hsz
  simp only [Option.bind_eq_bind, Option.bind_some, hlen, hpl]
  rw [Nat.log_pow (by norm_num)]
  obtain ⟨s, hs, hrun⟩ := finv_descend (P := ⟨k + 1, pl, kind, disc, eps⟩) (deg := deg) (s0 := ⟨Function.update (fun _ => none) 0
      (some ⟨deg, (.tm, 0), deg + 1, none, 0, 0, 0⟩), finvMem (k + 1) deg tm', q, ⟨Buf.malloc len, Buf.malloc len, Buf.malloc len⟩, none⟩)
    ⟨rfl, rfl, ⟨deg, (.tm, 0), deg + 1, none, 0, 0, 0⟩, by simp, by simp, rfl, rfl, by simp, rfl, fun k hk _ => by simp, fun h => absurd h (by omega)⟩ k
    (by show k < k + 1; omega) (fun i hi => hlev i hi.le)
  obtain ⟨f, f1, f2, f3, -⟩ := hs.fr
  have hk : k < 2 ^ k := Nat.lt_two_pow_self
  obtain ⟨m, hm⟩ : ∃ m, 4 * deg = k + (m + 1) := ⟨4 * deg - k - 1, by omega⟩
  have hstep : finvStep ⟨k + 1, pl, kind, disc, eps⟩ k s = none := by
    unfold finvStep
    rw [f1]
    simp only [Option.bind_eq_bind, Option.bind_some]
    rw [if_neg (by omega), if_neg (by omega), if_pos (by rw [f2]; exact hlev k le_rfl)]
    unfold finvStep1 finvPush
    rw [if_neg (by show ¬ (k + 1 < k + 1); omega)]
  rw [hm, hrun (m + 1), finvRun, hstep]
  rfl

/-- The last sample is the first one that is computed; errors there. -/
theorem finvMain_first (kind : FinvKind) (disc : FinvDisc) (k : ℕ) (hk : 1 ≤ k) (tm0 tm q : Buf ℂ) (eps : ℝ) (hsz : 2 * 2 ^ k + 1 ≤ 3 ^ 32)
    (htr : finvTranspose kind.transpose (2 ^ k) tm0 = some tm) {a b : ℂ} (ha : tm.rd (2 ^ k) = some a) (hb : tm.rd (2 * (2 ^ k + 1) + 2 ^ k) = some b) (ha0 : a ≠ 0) :
    (1 - kind.qFromR (b / a) * (b / a) = 0 → finvMain kind disc (2 ^ k) (2 ^ k) tm0 q eps = some ⟨E_SUBROUTINE EC_DIV_BY_ZERO, tm, q⟩) ∧
    (1 - kind.qFromR (b / a) * (b / a) ≠ 0 → disc = .unsupported →
      finvMain kind disc (2 ^ k) (2 ^ k) tm0 q eps = some ⟨E_SUBROUTINE EC_INVALID_ARGUMENT, tm, q⟩) := by
  have hlev : ∀ i, i < k → 1 < 2 ^ k / 2 ^ i := by
    intro i hi
    rw [Nat.pow_div hi.le (by norm_num)]
    exact Nat.one_lt_two_pow (by omega)
  have hkk : 2 ^ k / 2 ^ k = 1 := Nat.div_self (Nat.two_pow_pos k)
  obtain ⟨len, hlen, -⟩ := twoPolysLen_spec (2 ^ k)
  obtain ⟨pl, hpl⟩ := finvPlans_any (k + 1) (2 ^ k) hsz
  obtain ⟨s, hs, hrun⟩ := finv_descend (P := ⟨k + 1, pl, kind, disc, eps⟩) (deg := 2 ^ k) (s0 := ⟨Function.update (fun _ => none) 0
      (some ⟨2 ^ k, (.tm, 0), 2 ^ k + 1, none, 0, 0, 0⟩), finvMem (k + 1) (2 ^ k) tm, q, ⟨Buf.malloc len, Buf.malloc len, Buf.malloc len⟩, none⟩)
    ⟨rfl, rfl, ⟨2 ^ k, (.tm, 0), 2 ^ k + 1, none, 0, 0, 0⟩, by simp, by simp, rfl, rfl, by simp, rfl, fun j _ _ => by simp_all, fun h => absurd h (by omega)⟩ k
    (by show k < k + 1; omega) hlev
  obtain ⟨f, f1, f2, f3, f4, f5, f6, f7, f8⟩ := hs.fr
  have hTi := f8 (by omega)
  rw [hkk] at hTi f2
  have hT2 : f.T.2 + 1 = 2 ^ k := by
    have := f7 k rfl le_rfl
    rwa [Nat.sub_self, pow_zero] at this
  have hmem : s.mem f.T.1 = tm := by rw [hs.mem, f4]; rfl
  have hst2 : 2 ^ k / 2 ^ (k - 1) = 2 := by
    rw [Nat.pow_div (by omega) (by norm_num), show k - (k - 1) = 1 by omega, pow_one]
  rw [hst2] at hTi
  have hlenT : (s.mem (.T2i (k - 1))).len = 12 := by
    rw [hs.mem]
    show (if k - 1 < k + 1 then Buf.calloc _ else Buf.malloc 0 : Buf ℂ).len = 12
    rw [if_pos (by omega), hst2]; rfl
  have hkl : k < 2 ^ k := Nat.lt_two_pow_self
  obtain ⟨m, hm⟩ : ∃ m, 4 * 2 ^ k = k + (m + 1) := ⟨4 * 2 ^ k - k - 1, by omega⟩
  have main : ∀ {ec : ℤ} {s'}, ec ≠ SUCCESS → s'.mem .tm = tm → s'.q = q →
      finvStep ⟨k + 1, pl, kind, disc, eps⟩ k s = some (.leave ec s') →
      finvMain kind disc (2 ^ k) (2 ^ k) tm0 q eps = some ⟨E_SUBROUTINE ec, tm, q⟩ := by
    intro ec s' hec h1 h2 hstep
    unfold finvMain
    rw [htr]
    simp only [Option.bind_eq_bind, Option.bind_some, hlen]
    rw [Nat.log_pow (by norm_num), hpl]
    simp only [Option.bind_some]
    rw [hm, hrun (m + 1), finvRun_leave hstep]
    simp only [Option.bind_some]
    rw [if_pos hec, h1, h2]
    rfl
  have hr1 : (s.mem f.T.1).rd (f.T.2 + 2 * f.T_stride + 1) = some b := by
    rw [hmem, f6, show f.T.2 + 2 * (2 ^ k + 1) + 1 = 2 * (2 ^ k + 1) + 2 ^ k by omega]; exact hb
  have hr2 : (s.mem f.T.1).rd (f.T.2 + 1) = some a := by rw [hmem, hT2]; exact ha
  have hbase : finvStep ⟨k + 1, pl, kind, disc, eps⟩ k s = finvBase ⟨k + 1, pl, kind, disc, eps⟩ f s := by
    unfold finvStep
    rw [f1]
    simp only [Option.bind_eq_bind, Option.bind_some]
    rw [if_neg (by omega), if_neg (by omega), if_neg (by omega), if_pos f2]
  constructor
  · intro h
    refine main (s' := s) (by decide) (by rw [hs.mem]; rfl) hs.q ?_
    rw [hbase]
    unfold finvBase
    simp only [Option.bind_eq_bind, hr1, hr2, Option.bind_some]
    rw [if_neg ha0, if_pos h]
    rfl
  · intro h hun
    obtain ⟨b', eb, -⟩ := storeList_spec
      [(1, 1 / csqrt (1 - kind.qFromR (b / a) * (b / a))), (1 + 1, 0), (1 + 3, -(1 / csqrt (1 - kind.qFromR (b / a) * (b / a))) * kind.qFromR (b / a)), (1 + 3 + 1, 0),
          (1 + 2 * 3, 0), (1 + 2 * 3 + 1, -(1 / csqrt (1 - kind.qFromR (b / a) * (b / a))) * (b / a)),
          (1 + 3 * 3, 0), (1 + 3 * 3 + 1, 1 / csqrt (1 - kind.qFromR (b / a) * (b / a)))] (s.mem (.T2i (k - 1)))
      (by simp) (by rw [hlenT]; simp)
    refine main (s' := { s with mem := Function.update s.mem (.T2i (k - 1)) b' }) (by decide) ?_ hs.q ?_
    · simp only []
      rw [Function.update_of_ne (by intro h; cases h), hs.mem]; rfl
    rw [hbase]
    unfold finvBase
    simp only [Option.bind_eq_bind, hr1, hr2, Option.bind_some, hTi.1, hTi.2]
    rw [if_neg ha0, if_neg h, eb]
    simp only [finvSample, hun, Option.bind_some]
    rfl

end FNFT

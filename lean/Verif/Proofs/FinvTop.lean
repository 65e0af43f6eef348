import Verif.Proofs.FinvLevel
/-! The fast inverse scattering: the routine. -/
namespace FNFT
open Polynomial Matrix Kiss

theorem finvPlans_ok : ∀ k, 2 * 2 ^ k + 1 ≤ 3 ^ 32 → ∃ pl, finvPlans (k + 1) (2 ^ k) = some (.ok pl) ∧
    ∀ j, j ≤ k → ∃ p len, pl j = some p ∧ FinvPlanOK p (2 ^ (k - j)) len := by
  have one : ∀ k n pl, 2 * 2 ^ k + 1 ≤ 3 ^ 32 → finvPlans n (2 ^ k / 2) = some (.ok pl) → ∃ p len, FinvPlanOK p (2 ^ k) len ∧
      finvPlans (n + 1) (2 ^ k) = some (.ok fun i => match i with | 0 => some p | i + 1 => pl i) := by
    intro k n pl hk hn
    have h0 : 0 < 2 ^ k := Nat.two_pow_pos k
    obtain ⟨len, hlen, hl1, hl2, -⟩ := twoPolysLen_spec (2 ^ k)
    obtain ⟨pf, hpf, hpf'⟩ := mkPlan_fwd len (by omega) (by omega)
    obtain ⟨pi, hpi, hpi'⟩ := mkPlan_inv len (by omega) (by omega)
    refine ⟨⟨pf, pi, decide (¬ len > 2 ^ k + 1)⟩, len, ⟨hlen, hpf', hpi', ?_⟩, ?_⟩
    · exact decide_eq_false (by omega)
    · rw [finvPlans]
      simp only [Option.bind_eq_bind, hlen, Option.bind_some, hpf, hpi, hn]
      rfl
  intro k
  induction k with
  | zero =>
    intro hk
    obtain ⟨p, len, h1, h2⟩ := one 0 0 (fun _ => none) hk rfl
    refine ⟨_, h2, fun j hj => ?_⟩
    obtain rfl : j = 0 := by omega
    exact ⟨p, len, rfl, h1⟩
  | succ k ih =>
    intro hk
    obtain ⟨pl, e, h⟩ := ih (by rw [pow_succ] at hk; omega)
    obtain ⟨p, len, h1, h2⟩ := one (k + 1) (k + 1) pl hk (by rw [show 2 ^ (k + 1) / 2 = 2 ^ k by rw [pow_succ]; omega]; exact e)
    refine ⟨_, h2, fun j hj => ?_⟩
    rcases j with _ | j
    · exact ⟨p, len, rfl, h1⟩
    · obtain ⟨p', len', h3, h4⟩ := h j (by omega)
      exact ⟨p', len', h3, by rwa [show k + 1 - (j + 1) = k - j by omega]⟩

theorem finvMem_ok {k0 L : ℕ} {tm q : Buf ℂ} (hq : q.len = 2 ^ k0) (fr : ℕ → Option FinvFrame) (B : Bufs) (hB : BufsOK B L) (ret : Option ℤ) :
    FinvOK k0 L 0 ⟨fr, finvMem (k0 + 1) (2 ^ k0) tm, q, B, ret⟩ := by
  have hp : ∀ j, j ≤ k0 → 2 ^ k0 / 2 ^ j = 2 ^ (k0 - j) := fun j hj => Nat.pow_div hj (by norm_num)
  refine ⟨fun j hj => ?_, fun j hj => ?_, fun j hj => ?_, fun j _ hj e he t ht => ?_, hB, hq⟩
  · simp only [finvMem]; rw [if_pos (by omega), hp j hj]; rfl
  · simp only [finvMem]; rw [if_pos (by omega), hp j hj]; rfl
  · simp only [finvMem]; rw [if_pos (by omega), hp j hj]; rfl
  · simp only [finvMem]; rw [if_pos (by omega), hp j hj]
    have : e * (2 ^ (k0 - j) + 1) ≤ 3 * (2 ^ (k0 - j) + 1) := Nat.mul_le_mul_right _ (by omega)
    exact if_pos (by show _ < 4 * _; omega)

/-- The recursion on the whole transfer matrix. -/
theorem finvRun_ok {k0 : ℕ} (hk : 1 ≤ k0) (hsz : 2 * 2 ^ k0 + 1 ≤ 3 ^ 32) (kind : FinvKind) (disc : FinvDisc) (eps : ℝ)
    (tm q : Buf ℂ) (hq : q.len = 2 ^ k0) (A : PMat 2) (hT : RevHolds tm 0 (2 ^ k0 + 1) (2 ^ k0) A) (Qf Rf xf : ℕ → ℂ) (V : Fin 2 → ℂ[X])
    (hcol : ColOK A (layers Qf Rf (2 ^ k0)) V (2 ^ k0)) (hV : (V 0).coeff 0 ≠ 0)
    (hn : ∀ n, n < 2 ^ k0 → Qf n = kind.qFromR (Rf n) ∧ 1 - Qf n * Rf n ≠ 0 ∧
      ∀ size pl, finvSample ⟨size, pl, kind, disc, eps⟩ (Qf n) (Rf n) = some (xf n)) :
    ∃ len pl s', twoPolysLen (2 ^ k0) = some len ∧ finvPlans (k0 + 1) (2 ^ k0) = some (.ok pl) ∧
      finvRun ⟨k0 + 1, pl, kind, disc, eps⟩ (4 * 2 ^ k0) 0
        ⟨Function.update (fun _ => none) 0 (some ⟨2 ^ k0, (.tm, 0), 2 ^ k0 + 1, none, 0, 0, 0⟩), finvMem (k0 + 1) (2 ^ k0) tm, q,
          ⟨Buf.malloc len, Buf.malloc len, Buf.malloc len⟩, none⟩ = some (some SUCCESS, s') ∧
      s'.mem .tm = tm ∧ s'.q.len = 2 ^ k0 ∧ ∀ n, n < 2 ^ k0 → s'.q.rd n = some (xf n) := by
  obtain ⟨len, hlen, -⟩ := twoPolysLen_spec (2 ^ k0)
  obtain ⟨pl, hpl, hplok⟩ := finvPlans_ok k0 hsz
  have hP : FinvParOK ⟨k0 + 1, pl, kind, disc, eps⟩ k0 len := by
    refine ⟨rfl, fun j hj => ?_⟩
    obtain ⟨p, l, h1, h2⟩ := hplok j hj
    exact ⟨p, l, h1, h2, twoPolysLen_mono (Nat.pow_le_pow_right (by norm_num) (by omega)) h2.hlen hlen⟩
  obtain ⟨s', run, R, hret⟩ := finv_level hP k0 0 (by omega)
    ⟨Function.update (fun _ => none) 0 (some ⟨2 ^ k0, (.tm, 0), 2 ^ k0 + 1, none, 0, 0, 0⟩), finvMem (k0 + 1) (2 ^ k0) tm, q,
          ⟨Buf.malloc len, Buf.malloc len, Buf.malloc len⟩, none⟩
    ⟨2 ^ k0, (.tm, 0), 2 ^ k0 + 1, none, 0, 0, 0⟩ Qf Rf xf A V (finvMem_ok hq _ ⟨Buf.malloc len, Buf.malloc len, Buf.malloc len⟩ ⟨rfl, rfl, rfl⟩ _) (by simp) rfl rfl (Or.inl rfl)
    (fun _ => by omega) (fun Ti h => by cases h) hT hcol hV (fun n h => ⟨(hn n h).1, (hn n h).2.1, (hn n h).2.2 _ _⟩) (by simp)
  refine ⟨len, pl, s', hlen, hpl, ?_, ?_, R.ok.qlen, fun n hn => ?_⟩
  · have := run 3
    rw [finvSteps_eq, if_pos rfl, hret (by omega)] at this
    exact this
  · rw [R.mem .tm trivial (fun Ti h => by cases h)]
    rfl
  · have := R.q n hn
    rwa [Nat.zero_add] at this

theorem finvMain_ok {k0 : ℕ} (hk : 1 ≤ k0) (hsz : 2 * 2 ^ k0 + 1 ≤ 3 ^ 32) (kind : FinvKind) (disc : FinvDisc) (eps : ℝ)
    (tm tm' q : Buf ℂ) (htr : finvTranspose kind.transpose (2 ^ k0) tm = some tm') (hq : q.len = 2 ^ k0) (A : PMat 2)
    (hT : RevHolds tm' 0 (2 ^ k0 + 1) (2 ^ k0) A) (Qf Rf xf : ℕ → ℂ) (V : Fin 2 → ℂ[X])
    (hcol : ColOK A (layers Qf Rf (2 ^ k0)) V (2 ^ k0)) (hV : (V 0).coeff 0 ≠ 0)
    (hn : ∀ n, n < 2 ^ k0 → Qf n = kind.qFromR (Rf n) ∧ 1 - Qf n * Rf n ≠ 0 ∧
      ∀ size pl, finvSample ⟨size, pl, kind, disc, eps⟩ (Qf n) (Rf n) = some (xf n)) :
    ∃ q1, q1.len = 2 ^ k0 ∧ (∀ n, n < 2 ^ k0 → q1.rd n = some (xf n)) ∧
      finvMain kind disc (2 ^ k0) (2 ^ k0) tm q eps = (finvReverse kind.transpose (2 ^ k0) q1).map fun q2 => ⟨SUCCESS, tm', q2⟩ := by
  obtain ⟨len, pl, s', hlen, hpl, hrun, h1, h2, h3⟩ := finvRun_ok hk hsz kind disc eps tm' q hq A hT Qf Rf xf V hcol hV hn
  refine ⟨s'.q, h2, h3, ?_⟩
  unfold finvMain
  rw [htr]
  simp only [Option.bind_eq_bind, Option.bind_some, hlen]
  rw [show Nat.log 2 (2 ^ k0) + 1 = k0 + 1 by rw [Nat.log_pow (by norm_num)]]
  simp only [hpl, hrun, Option.bind_some]
  rw [if_neg (by simp), h1]
  cases finvReverse kind.transpose (2 ^ k0) s'.q <;> rfl

theorem two_pow_and (k : ℕ) : (2 ^ k) &&& (2 ^ k - 1) = 0 := by
  rw [Nat.and_two_pow_sub_one_eq_mod, Nat.mod_self]

end FNFT

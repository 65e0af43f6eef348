import Verif.Proofs.InvTop
import Verif.Props.NsepMix
/-!
# C70: rejected calls of `fnft_nsev_inverse`
-/
namespace FNFT
open Complex Spec

/-- The calls that are rejected: an array is missing, `M` is odd or smaller than `D`, `D` is not a power of two greater than one, the interval is empty, `kappa` is
neither +1 nor -1, there are bound states in the defocusing case, or bound states that are not in the upper half plane, the discretization is not one of the
two supported ones, or nothing is given at all. `lf` are the bound states. -/
def Spec.InvBad (M : ℕ) (contspec : Option (Buf ℂ)) (XI : Option (ℝ × ℝ)) (K : ℕ) (bs nc : Option (Buf ℂ)) (lf : ℕ → ℂ) (D : ℕ) (q : Option (Buf ℂ))
    (T : Option (ℝ × ℝ)) (kappa : ℤ) (o : InvOpts) : Prop :=
  (0 < M ∧ contspec = none) ∨ (contspec ≠ none ∧ M % 2 = 1) ∨ (contspec ≠ none ∧ M < D) ∨ (¬ ∃ p, 1 ≤ p ∧ D = 2 ^ p) ∨ q = none ∨ T = none ∨
  (∃ T0 T1, T = some (T0, T1) ∧ T1 ≤ T0) ∨ (kappa ≠ 1 ∧ kappa ≠ -1) ∨ (0 < K ∧ kappa ≠ 1) ∨ (0 < K ∧ bs = none) ∨ (∃ i, i < K ∧ (lf i).im ≤ 0) ∨
  (0 < K ∧ nc = none) ∨ (o.disc ≠ .D2SPLIT2A ∧ o.disc ≠ .D2SPLIT2_MODAL) ∨ (contspec = none ∧ K = 0) ∨
  (XI = none ∧ contspec ≠ none ∧ o.cs ≠ .B_OF_TAU)

/-- C70: rejected calls do not change anything, and return an error code: that of an invalid argument or of a failed sanity check. -/
theorem C70_rejects (M : ℕ) (contspec : Option (Buf ℂ)) (XI : Option (ℝ × ℝ)) (K : ℕ) (bs nc : Option (Buf ℂ)) (lf : ℕ → ℂ) (D : ℕ) (q : Option (Buf ℂ))
    (T : Option (ℝ × ℝ)) (kappa : ℤ) (o : InvOpts) (g : Garbage) (hlf : ∀ b, bs = some b → b.Holds 0 K lf)
    (h : Spec.InvBad M contspec XI K bs nc lf D q T kappa o) :
    ∃ ec, (ec = EC_INVALID_ARGUMENT ∨ ec = EC_SANITY_CHECK_FAILED) ∧ fnft_nsev_inverse M contspec XI K bs nc D q T kappa o g = some ⟨ec, contspec, q⟩ := by
  unfold fnft_nsev_inverse
  dsimp only
  by_cases c1 : M > 0 ∧ contspec = none
  · rw [if_pos c1]; exact ⟨_, Or.inl rfl, rfl⟩
  rw [if_neg c1]
  by_cases c2 : contspec ≠ none ∧ M % 2 ≠ 0
  · rw [if_pos c2]; exact ⟨_, Or.inl rfl, rfl⟩
  rw [if_neg c2]
  by_cases c3 : contspec ≠ none ∧ M < D
  · rw [if_pos c3]; exact ⟨_, Or.inl rfl, rfl⟩
  rw [if_neg c3]
  by_cases c4 : D < 2 ∨ D &&& (D - 1) ≠ 0
  · rw [if_pos c4]; exact ⟨_, Or.inl rfl, rfl⟩
  rw [if_neg c4]
  rcases q with - | q
  · exact ⟨_, Or.inl rfl, rfl⟩
  rcases T with - | ⟨T0, T1⟩
  · exact ⟨_, Or.inl rfl, rfl⟩
  dsimp only
  by_cases c5 : ¬ T0 < T1
  · rw [if_pos c5]; exact ⟨_, Or.inl rfl, rfl⟩
  rw [if_neg c5]
  by_cases c6 : kappa ≠ 1 ∧ kappa ≠ -1
  · rw [if_pos c6]; exact ⟨_, Or.inl rfl, rfl⟩
  rw [if_neg c6]
  by_cases c7 : K > 0 ∧ kappa ≠ 1
  · rw [if_pos c7]; exact ⟨_, Or.inr rfl, rfl⟩
  rw [if_neg c7]
  by_cases c8 : K > 0 ∧ bs = none
  · rw [if_pos c8]; exact ⟨_, Or.inl rfl, rfl⟩
  rw [if_neg c8]
  have hb : (bs.getD (Buf.malloc 0)).Holds 0 K lf := by
    rcases bs with - | b
    · intro i hi
      exact absurd ⟨by omega, rfl⟩ c8
    · exact hlf b rfl
  obtain ⟨f, f1, f2⟩ := invLower_ok hb
  simp only [f1, Option.bind_eq_bind, Option.bind_some]
  cases f with
  | true => exact ⟨_, Or.inr rfl, rfl⟩
  | false =>
  simp only [Bool.false_eq_true, if_false]
  by_cases c9 : K > 0 ∧ nc = none
  · rw [if_pos c9]; exact ⟨_, Or.inl rfl, rfl⟩
  rw [if_neg c9]
  by_cases c10 : o.disc ≠ .D2SPLIT2A ∧ o.disc ≠ .D2SPLIT2_MODAL
  · rw [if_pos c10]; exact ⟨_, Or.inl rfl, rfl⟩
  rw [if_neg c10]
  by_cases c11 : contspec = none ∧ K = 0
  · rw [if_pos c11]; exact ⟨_, Or.inr rfl, rfl⟩
  rw [if_neg c11]
  by_cases c12 : XI = none ∧ contspec ≠ none ∧ o.cs ≠ .B_OF_TAU
  · rw [if_pos c12]; exact ⟨_, Or.inl rfl, rfl⟩
  exfalso
  rcases h with h | h | h | h | h | h | ⟨a, b, h, h'⟩ | h | h | h | h | h | h | h | h
  · exact c1 h
  · exact c2 ⟨h.1, by omega⟩
  · exact c3 h
  · push Not at c4
    exact h ((pow_iff_and D c4.1).mp c4.2)
  · cases h
  · cases h
  · cases h; exact c5 (not_lt.mpr h')
  · exact c6 h
  · exact c7 h
  · exact c8 h
  · exact absurd (f2.mpr h) (by simp)
  · exact c9 h
  · exact c10 h
  · exact c11 h
  · exact c12 h

/-- C70: multiple bound states. If two of the bound states are equal, and no different one has the same imaginary part, then the call (without continuous
spectrum) fails with the code of a failed sanity check and `q` is not changed. -/
theorem C70_multiple (K D : ℕ) (bs nc q : Buf ℂ) (lf rf : ℕ → ℂ) (T0 T1 : ℝ) (XI : Option (ℝ × ℝ)) (o : InvOpts) (g : Garbage) (hb : bs.Holds 0 K lf)
    (hn : nc.Holds 0 K rf) (hl : ∀ i, i < K → 0 < (lf i).im) (hD : ∃ p, 1 ≤ p ∧ D = 2 ^ p) (hT : T0 < T1)
    (hd : o.disc = .D2SPLIT2A ∨ o.disc = .D2SPLIT2_MODAL) (i j : ℕ) (hi : i < K) (hj : j < K) (hij : i ≠ j) (he : lf i = lf j)
    (hsep : ∀ k, k < K → (lf k).im = (lf i).im → lf k = lf i) :
    fnft_nsev_inverse 0 none XI K (some bs) (some nc) D (some q) (some (T0, T1)) 1 o g = some ⟨E_SUBROUTINE EC_SANITY_CHECK_FAILED, none, some q⟩ := by
  rw [inverse_nocont hb hl (by omega) hD hT hd]
  obtain ⟨zc, z1, z2⟩ := invZc_ok D T0 ((T1 - T0) / ((D : ℝ) - 1))
  obtain ⟨b0, c1, c2⟩ := copy_ok hb
  obtain ⟨n0, d1, d2⟩ := copy_ok hn
  obtain ⟨s, e1, e2, e3⟩ := invSort_ok (s := (b0, n0)) c2 d2
  obtain ⟨f, f1, f2⟩ := invMult_ok e2
  have main : ∀ a b, a < b → b < K → lf (sortP K lf a) = lf i → lf (sortP K lf b) = lf i → f = true := by
    intro a b hab hbK ha hb'
    refine f2.mpr ⟨a, by omega, ?_⟩
    have h1 := sortP_sorted K lf a (a + 1) (by omega) (by omega)
    have h2 : (lf (sortP K lf b)).im ≤ (lf (sortP K lf (a + 1))).im := by
      by_cases hc : a + 1 = b
      · rw [hc]
      · exact sortP_sorted K lf (a + 1) b (by omega) hbK
    rw [ha] at h1
    rw [hb'] at h2
    have h3 := hsep _ ((sortP_lt K lf (a + 1)).mp (by omega)) (le_antisymm h1 h2)
    show lf (sortP K lf (a + 1)) = lf (sortP K lf a)
    rw [h3, ha]
  have hf : f = true := by
    have hi' : (sortP K lf).symm i < K := (sortP_lt K lf _).mpr (by simpa using hi)
    have hj' : (sortP K lf).symm j < K := (sortP_lt K lf _).mpr (by simpa using hj)
    have hne : (sortP K lf).symm i ≠ (sortP K lf).symm j := fun h => hij ((sortP K lf).symm.injective h)
    rcases lt_or_gt_of_ne hne with h | h
    · exact main _ _ h hj' (by simp) (by simp [he])
    · exact main _ _ h hi' (by simp [he]) (by simp)
  rw [hf] at f1
  unfold invDiscrete
  simp only [z1, c1, d1, e1, f1, Option.bind_eq_bind, Option.bind_some, if_true]
  rfl

/-- C70 (finding): otherwise equal bound states are not detected. For example the bound states `i, 1+i, i` are accepted (the code is never an error code). -/
theorem C70_multiple_undetected (D : ℕ) (nc q : Buf ℂ) (rf : ℕ → ℂ) (T0 T1 : ℝ) (XI : Option (ℝ × ℝ)) (o : InvOpts) (g : Garbage) (hn : nc.Holds 0 3 rf)
    (hD : ∃ p, 1 ≤ p ∧ D = 2 ^ p) (hT : T0 < T1) (hd : o.disc = .D2SPLIT2A ∨ o.disc = .D2SPLIT2_MODAL) (R : InvRes)
    (h : fnft_nsev_inverse 0 none XI 3 (some (Buf.ofList [I, 1 + I, I])) (some nc) D (some q) (some (T0, T1)) 1 o g = some R) : R.ret = SUCCESS := by
  have hb : (Buf.ofList [I, 1 + I, I]).Holds 0 3 (fun i => if i = 1 then 1 + I else I) := by
    intro i hi
    interval_cases i <;> simp [Buf.ofList, Buf.rd]
  set lf : ℕ → ℂ := fun i => if i = 1 then 1 + I else I with hlf
  have him : ∀ i, (lf i).im = 1 := by
    intro i; rw [hlf]; dsimp only; split <;> simp
  have hl : ∀ i, i < 3 → 0 < (lf i).im := fun i _ => by rw [him]; norm_num
  rw [inverse_nocont hb hl (by omega) hD hT hd] at h
  obtain ⟨zc, z1, z2⟩ := invZc_ok D T0 ((T1 - T0) / ((D : ℝ) - 1))
  obtain ⟨b0, c1, c2⟩ := copy_ok hb
  obtain ⟨n0, d1, d2⟩ := copy_ok hn
  have hsort : invSort 3 (b0, n0) = some (b0, n0) := by
    have hb3 : ∀ i d, i + 1 + d < 3 → sortBody i d (b0, n0) = some (b0, n0) := by
      intro i d hid
      have r1 := c2 i (by omega)
      have r2 := c2 (i + 1 + d) hid
      rw [Nat.zero_add] at r1 r2
      unfold sortBody
      dsimp only
      rw [r1, r2]
      simp only [Option.bind_eq_bind, Option.bind_some, him, lt_irrefl, if_false]
      rfl
    unfold invSort
    simp [forLoop, hb3]
  obtain ⟨f, f1, f2⟩ := invMult_ok c2
  have hf : f = false := by
    cases f with
    | false => rfl
    | true =>
      obtain ⟨i, a, b⟩ := f2.mp rfl
      have hi2 : i < 2 := by omega
      interval_cases i <;> simp [hlf] at b
  rw [hf] at f1
  obtain ⟨nc', n1, n2⟩ := invNorm_plain (D := D) (q := q) (T0 := T0) (T1 := T1) (ds := o.ds) (g := g) c2 d2 hl
  unfold invDiscrete at h
  simp only [z1, c1, d1, hsort, f1, n1, Option.bind_eq_bind, Option.bind_some, Bool.false_eq_true, if_false] at h
  by_cases hm : o.meth = .USE_SEED
  · rw [if_neg (by simp [hm]), if_pos (by simp [hm])] at h
    cases hq : invDarboux 3 b0 nc' D T0 T1 q with
    | none => rw [hq] at h; cases h
    | some q' => rw [hq] at h; cases h; rfl
  · rw [if_pos ⟨trivial, hm⟩] at h
    cases hq : invSoliton 3 b0 nc' D zc T0 ((T1 - T0) / ((D : ℝ) - 1)) q with
    | none => rw [hq] at h; cases h
    | some q' => rw [hq] at h; cases h; rfl

/-- The hypotheses of C70 are met: `M` is odd; two equal bound states `i`. -/
example : Spec.InvBad 3 (some (Buf.ofList [1, 2, 3])) (some (0, 1)) 0 none none (fun _ => 0) 2 (some (Buf.malloc 2)) (some (0, 1)) 1 inv_default_opts :=
  Or.inr (Or.inl ⟨by simp, by norm_num⟩)

example : fnft_nsev_inverse 0 none none 2 (some (Buf.ofList [I, I])) (some (Buf.ofList [1, 2])) 4 (some (Buf.malloc 4)) (some (0, 1)) 1 inv_default_opts
    (fun _ _ => 0) = some ⟨E_SUBROUTINE EC_SANITY_CHECK_FAILED, none, some (Buf.malloc 4)⟩ :=
  C70_multiple 2 4 _ _ _ (fun _ => I) (fun i => (i : ℂ) + 1) 0 1 none _ _ (by
    intro i hi
    interval_cases i <;> simp [Buf.ofList, Buf.rd]) (by
    intro i hi
    interval_cases i <;> simp [Buf.ofList, Buf.rd]; norm_num) (by simp) ⟨2, by norm_num, by norm_num⟩ (by norm_num) (Or.inl rfl) 0 1 (by norm_num) (by norm_num)
    (by norm_num) rfl (by simp)

end FNFT

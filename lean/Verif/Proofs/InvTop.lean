import Verif.Proofs.InvResidue
import Verif.Proofs.FinvTop
import Verif.Proofs.NsevBase
/-!
# The discrete part of the inverse transform: the branches of the top level
-/
namespace FNFT
open Complex Spec

theorem invLower_ok {K : ℕ} {bs : Buf ℂ} {lf : ℕ → ℂ} (h : bs.Holds 0 K lf) :
    ∃ f, invLower K bs = some f ∧ (f = true ↔ ∃ i, i < K ∧ (lf i).im ≤ 0) := by
  unfold invLower
  refine forLoop_inv (fun i (f : Bool) => f = true ↔ ∃ k, k < i ∧ (lf k).im ≤ 0) (by simp) ?_
  intro i f hi hf
  have e1 := h i hi
  rw [Nat.zero_add] at e1
  cases f with
  | true =>
    refine ⟨true, rfl, ?_⟩
    obtain ⟨k, hk, he⟩ := hf.mp rfl
    simp only [true_iff]
    exact ⟨k, by omega, he⟩
  | false =>
    simp only [e1, Bool.false_eq_true, if_false, Option.bind_eq_bind, Option.bind_some, Option.pure_def]
    refine ⟨_, rfl, ?_⟩
    rw [decide_eq_true_iff]
    constructor
    · intro he; exact ⟨i, by omega, he⟩
    · rintro ⟨k, hk, he⟩
      by_cases ki : k = i
      · rw [← ki]; exact he
      · have := hf.mpr ⟨k, by omega, he⟩; cases this

theorem invLower_false {K : ℕ} {bs : Buf ℂ} {lf : ℕ → ℂ} (h : bs.Holds 0 K lf) (hl : ∀ i, i < K → 0 < (lf i).im) : invLower K bs = some false := by
  obtain ⟨f, h1, h2⟩ := invLower_ok h
  cases f with
  | false => exact h1
  | true => obtain ⟨i, a, b⟩ := h2.mp rfl; exact absurd (hl i a) (not_lt.mpr b)

theorem copy_ok {K : ℕ} {b : Buf ℂ} {f : ℕ → ℂ} (h : b.Holds 0 K f) :
    ∃ b', fill 0 K (fun i => b.rd i) (Buf.malloc K) = some b' ∧ b'.Holds 0 K f := by
  obtain ⟨b', h1, _, h2⟩ := fill_spec (off := 0) (cnt := K) (b := (Buf.malloc K : Buf ℂ)) (f := fun i => b.rd i) f (by
    intro i _ hi
    have := h i (by omega); rwa [Nat.zero_add] at this) (Or.inl (by simp))
  exact ⟨b', h1, fun i hi => by rw [Nat.zero_add, h2 i, if_pos (by omega)]⟩

/-- The norming constants if there is no continuous spectrum. -/
noncomputable def invNormF (ds : InvDs) (K : ℕ) (lf rf : ℕ → ℂ) (i : ℕ) : ℂ := if ds = .RESIDUES then rf i * resD K lf 1 i else rf i

theorem invNorm_plain {K D : ℕ} {bs nc q : Buf ℂ} {lf rf : ℕ → ℂ} {T0 T1 : ℝ} {ds : InvDs} {g : Garbage} (hb : bs.Holds 0 K lf)
    (hn : nc.Holds 0 K rf) (hl : ∀ i, i < K → 0 < (lf i).im) :
    ∃ nc', invNorm K bs nc D q T0 T1 false ds g = some (.ok nc') ∧ nc'.Holds 0 K (invNormF ds K lf rf) := by
  unfold invNorm invNormF
  by_cases h : ds = .RESIDUES
  · obtain ⟨a, h1, _, h2⟩ := fill_spec (off := 0) (cnt := K) (b := (Buf.malloc K : Buf ℂ)) (f := fun _ => some 1) (fun _ => 1) (by
      intro i _ _; rfl) (Or.inl (by simp))
    have ha : a.Holds 0 K fun _ => 1 := fun i hi => by rw [Nat.zero_add, h2 i, if_pos (by omega)]
    obtain ⟨nc', h3, h4⟩ := invResidue_ok hb ha hn hl
    rw [if_pos h]
    have hA : invACoeff K bs D q T0 T1 false g = some (.ok a) := by
      unfold invACoeff
      rw [if_neg (by simp), h1]; rfl
    refine ⟨nc', ?_, ?_⟩
    · rw [hA]
      simp only [Option.bind_eq_bind, Option.bind_some, h3, Option.pure_def]
    · simp only [if_pos h]; exact h4
  · rw [if_neg h]
    refine ⟨nc, rfl, ?_⟩
    simp only [if_neg h]; exact hn

/-- The bound states and norming constants in the order in which they are processed. -/
noncomputable def srtL (K : ℕ) (lf : ℕ → ℂ) (i : ℕ) : ℂ := lf (sortP K lf i)

theorem srt_inj {K : ℕ} {lf : ℕ → ℂ} (hinj : ∀ i j, i < K → j < K → lf i = lf j → i = j) :
    ∀ i j, i < K → j < K → srtL K lf i = srtL K lf j → i = j := by
  intro i j hi hj h
  exact (sortP K lf).injective (hinj _ _ ((sortP_lt K lf i).mp hi) ((sortP_lt K lf j).mp hj) h)

theorem srt_im {K : ℕ} {lf : ℕ → ℂ} (hl : ∀ i, i < K → 0 < (lf i).im) : ∀ i, i < K → 0 < (srtL K lf i).im :=
  fun i hi => hl _ ((sortP_lt K lf i).mp hi)

/-- The first part: sorted copies, the test passes. -/
theorem invDiscrete_eq {K D : ℕ} {bs nc q : Buf ℂ} {lf rf : ℕ → ℂ} {T0 T1 : ℝ} {fl : Bool} {o : InvOpts} {g : Garbage} (hb : bs.Holds 0 K lf)
    (hn : nc.Holds 0 K rf) (hinj : ∀ i j, i < K → j < K → lf i = lf j → i = j) :
    ∃ zc bs' nc', zc ≤ D ∧ bs'.Holds 0 K (srtL K lf) ∧ nc'.Holds 0 K (fun i => rf (sortP K lf i)) ∧
      invDiscrete K bs nc D q T0 T1 fl o g = (do
        match ← invNorm K bs' nc' D q T0 T1 fl o.ds g with
        | .error ec => return (ec, q)
        | .ok nc =>
          if fl = false ∧ o.meth ≠ .USE_SEED then
            let q ← invSoliton K bs' nc D zc T0 ((T1 - T0) / ((D : ℝ) - 1)) q
            return (SUCCESS, q)
          else if (fl = false ∧ o.meth = .USE_SEED) ∨ (fl = true ∧ o.meth ≠ .USE_SEED) then
            let q ← invDarboux K bs' nc D T0 T1 q
            return (SUCCESS, q)
          else return (EC_INVALID_ARGUMENT, q)) := by
  obtain ⟨zc, z1, z2⟩ := invZc_ok D T0 ((T1 - T0) / ((D : ℝ) - 1))
  obtain ⟨b0, c1, c2⟩ := copy_ok hb
  obtain ⟨n0, d1, d2⟩ := copy_ok hn
  obtain ⟨s, e1, e2, e3⟩ := invSort_ok (s := (b0, n0)) c2 d2
  obtain ⟨f, f1, f2⟩ := invMult_ok e2
  have hf : f = false := by
    cases f with
    | false => rfl
    | true =>
      obtain ⟨i, a, b⟩ := f2.mp rfl
      have := srt_inj hinj (i + 1) i a (by omega) b
      omega
  rw [hf] at f1
  refine ⟨zc, s.1, s.2, z2, e2, e3, ?_⟩
  unfold invDiscrete
  simp only [z1, c1, d1, e1, f1, Option.bind_eq_bind, Option.bind_some]
  rfl

theorem resP_perm {K : ℕ} {lf : ℕ → ℂ} (i : ℕ) (l : ℂ) : resP K (srtL K lf) i l = resP K lf (sortP K lf i) l := by
  unfold resP srtL
  have h := (sortP_perm K lf (fun j => if j = sortP K lf i then 1 else (l - lf j) / (l - (starRingEnd ℂ) (lf j)))).prod_eq
  rw [← h]
  congr 1
  refine List.map_congr_left fun j _ => ?_
  by_cases e : j = i
  · rw [if_pos e, if_pos (by rw [e])]
  · rw [if_neg e, if_neg (fun h => e ((sortP K lf).injective h))]

theorem resD_perm {K : ℕ} {lf : ℕ → ℂ} (ac : ℂ) (i : ℕ) : resD K (srtL K lf) ac i = resD K lf ac (sortP K lf i) := by
  unfold resD
  rw [resP_perm]; rfl

theorem invNormF_perm {K : ℕ} {ds : InvDs} {lf rf : ℕ → ℂ} (i : ℕ) :
    invNormF ds K (srtL K lf) (fun i => rf (sortP K lf i)) i = invNormF ds K lf rf (sortP K lf i) := by
  unfold invNormF
  rw [resD_perm]

theorem blaschke_perm (K : ℕ) (lf : ℕ → ℂ) (l : ℂ) : blaschke ((List.range K).map (srtL K lf)) l = blaschke ((List.range K).map lf) l := by
  unfold blaschke
  exact ((sortP_perm K lf lf).map _).prod_eq

theorem perm_all {K : ℕ} {lf : ℕ → ℂ} {P : ℕ → Prop} (h : ∀ i, i < K → P (sortP K lf i)) : ∀ k, k < K → P k := by
  intro k hk
  have := h ((sortP K lf).symm k) ((sortP_lt K lf _).mpr (by simpa using hk))
  simpa using this

/-- The soliton in the order of the caller. -/
noncomputable def solS (K : ℕ) (lf bf : ℕ → ℂ) : ℝ → ℂ := solQ K (srtL K lf) (fun i => bf (sortP K lf i))

theorem solS_scat {K : ℕ} {lf bf : ℕ → ℂ} (hl : ∀ i, i < K → 0 < (lf i).im) (hb0 : ∀ i, i < K → bf i ≠ 0)
    (hinj : ∀ i j, i < K → j < K → lf i = lf j → i = j) :
    Decays (solS K lf bf) ∧ (∀ l : ℝ, ScatReal ∅ (solS K lf bf) l (blaschke ((List.range K).map lf) l) 0) ∧
      (∀ l : ℂ, 0 < l.im → ScatUpper ∅ (solS K lf bf) l (blaschke ((List.range K).map lf) l)) ∧
      ∀ k, k < K → Bound ∅ (solS K lf bf) (lf k) (bf k) := by
  obtain ⟨h1, h2, h3, h4⟩ := solQ_scat (K := K) (lf := srtL K lf) (bf := fun i => bf (sortP K lf i)) (srt_im hl)
    (fun i hi => hb0 _ ((sortP_lt K lf i).mp hi)) (srt_inj hinj)
  simp only [blaschke_perm] at h2 h3
  exact ⟨h1, h2, h3, perm_all (lf := lf) (P := fun k => Bound ∅ (solS K lf bf) (lf k) (bf k)) h4⟩

/-- The top level without continuous spectrum. -/
theorem inverse_nocont {K D : ℕ} {bs nc q : Buf ℂ} {lf : ℕ → ℂ} {T0 T1 : ℝ} {XI : Option (ℝ × ℝ)} {o : InvOpts} {g : Garbage}
    (hb : bs.Holds 0 K lf) (hl : ∀ i, i < K → 0 < (lf i).im) (hK : 0 < K) (hD : ∃ p, 1 ≤ p ∧ D = 2 ^ p) (hT : T0 < T1)
    (hd : o.disc = .D2SPLIT2A ∨ o.disc = .D2SPLIT2_MODAL) :
    fnft_nsev_inverse 0 none XI K (some bs) (some nc) D (some q) (some (T0, T1)) 1 o g = (do
      let R ← invDiscrete K bs nc D q T0 T1 false o g
      return ⟨chk R.1, none, some R.2⟩) := by
  obtain ⟨p, hp, rfl⟩ := hD
  have h2 : ¬ (2 ^ p < 2 ∨ 2 ^ p &&& (2 ^ p - 1) ≠ 0) := by
    rw [two_pow_and]
    have : 2 ^ 1 ≤ 2 ^ p := Nat.pow_le_pow_right (by norm_num) hp
    simp; omega
  unfold fnft_nsev_inverse
  dsimp only
  rw [if_neg (by simp), if_neg (by simp), if_neg (by simp), if_neg h2, if_neg (not_not.mpr hT), if_neg (by simp), if_neg (by simp), if_neg (by simp)]
  simp only [Option.getD_some, invLower_false hb hl, Option.bind_eq_bind, Option.bind_some, Bool.false_eq_true, if_false]
  have hd' : ¬ (o.disc ≠ .D2SPLIT2A ∧ o.disc ≠ .D2SPLIT2_MODAL) := by rcases hd with h | h <;> simp [h]
  rw [if_neg (by simp), if_neg hd', if_neg (by simp; omega), if_neg (by simp)]
  unfold invDisc
  rw [if_pos hK]
  cases invDiscrete K bs nc (2 ^ p) q T0 T1 false o g <;> rfl

/-- The pure multi-soliton. -/
theorem soliton_some {K D : ℕ} {bs nc q : Buf ℂ} {lf rf : ℕ → ℂ} {T0 T1 : ℝ} {XI : Option (ℝ × ℝ)} {o : InvOpts} {g : Garbage} {R : InvRes}
    (hb : bs.Holds 0 K lf) (hn : nc.Holds 0 K rf) (hl : ∀ i, i < K → 0 < (lf i).im) (hr : ∀ i, i < K → rf i ≠ 0)
    (hinj : ∀ i j, i < K → j < K → lf i = lf j → i = j) (hK : 0 < K) (hD : ∃ p, 1 ≤ p ∧ D = 2 ^ p) (hT : T0 < T1)
    (hd : o.disc = .D2SPLIT2A ∨ o.disc = .D2SPLIT2_MODAL) (hm : o.meth ≠ .USE_SEED)
    (h : fnft_nsev_inverse 0 none XI K (some bs) (some nc) D (some q) (some (T0, T1)) 1 o g = some R) :
    R.ret = SUCCESS ∧ R.cs = none ∧ ∃ q', R.q = some q' ∧ q'.len = q.len ∧
      ∀ n, n < D → q'.rd n = some (solS K lf (invNormF o.ds K lf rf) (T0 + (T1 - T0) / ((D : ℝ) - 1) * n)) := by
  rw [inverse_nocont hb hl hK hD hT hd] at h
  obtain ⟨zc, bs', nc', z, hb', hn', he⟩ := invDiscrete_eq (K := K) (D := D) (q := q) (T0 := T0) (T1 := T1) (fl := false) (o := o) (g := g) hb hn hinj
  obtain ⟨nc2, e1, e2⟩ := invNorm_plain (D := D) (q := q) (T0 := T0) (T1 := T1) (ds := o.ds) (g := g) hb' hn' (srt_im hl)
  rw [he, e1] at h
  have e2' : nc2.Holds 0 K fun i => invNormF o.ds K lf rf (sortP K lf i) := fun i hi => by rw [e2 i hi, invNormF_perm]
  obtain ⟨R1, hR1, h⟩ := Option.bind_eq_some_iff.mp h
  simp only [Option.bind_eq_bind, Option.bind_some] at hR1
  rw [if_pos ⟨trivial, hm⟩] at hR1
  obtain ⟨q', hq', hR1⟩ := Option.bind_eq_some_iff.mp hR1
  cases hR1
  cases h
  have hne : ∀ i, i < K → invNormF o.ds K lf rf i ≠ 0 := by
    intro i hi
    unfold invNormF
    split
    · exact mul_ne_zero (hr i hi) (resD_ne hl hinj hi one_ne_zero)
    · exact hr i hi
  obtain ⟨k1, k2⟩ := invSoliton_some hb' e2' (srt_im hl) (fun i hi => hne _ ((sortP_lt K lf i).mp hi)) z hq'
  exact ⟨chk_success.mpr rfl, rfl, q', rfl, k1, k2⟩

theorem soliton_total {K D : ℕ} {bs nc q : Buf ℂ} {lf rf : ℕ → ℂ} {T0 T1 : ℝ} {XI : Option (ℝ × ℝ)} {o : InvOpts} {g : Garbage}
    (hb : bs.Holds 0 K lf) (hn : nc.Holds 0 K rf) (hl : ∀ i, i < K → 0 < (lf i).im) (hr : ∀ i, i < K → rf i ≠ 0)
    (hinj : ∀ i j, i < K → j < K → lf i = lf j → i = j) (hK : 0 < K) (hD : ∃ p, 1 ≤ p ∧ D = 2 ^ p) (hT : T0 < T1)
    (hd : o.disc = .D2SPLIT2A ∨ o.disc = .D2SPLIT2_MODAL) (hm : o.meth ≠ .USE_SEED) (hq : D ≤ q.len)
    (hnz : ∀ n, n < D → solNZ K (srtL K lf) (fun i => invNormF o.ds K lf rf (sortP K lf i)) (T0 + (T1 - T0) / ((D : ℝ) - 1) * n)) :
    ∃ R, fnft_nsev_inverse 0 none XI K (some bs) (some nc) D (some q) (some (T0, T1)) 1 o g = some R := by
  rw [inverse_nocont hb hl hK hD hT hd]
  obtain ⟨zc, bs', nc', z, hb', hn', he⟩ := invDiscrete_eq (K := K) (D := D) (q := q) (T0 := T0) (T1 := T1) (fl := false) (o := o) (g := g) hb hn hinj
  obtain ⟨nc2, e1, e2⟩ := invNorm_plain (D := D) (q := q) (T0 := T0) (T1 := T1) (ds := o.ds) (g := g) hb' hn' (srt_im hl)
  rw [he, e1]
  have e2' : nc2.Holds 0 K fun i => invNormF o.ds K lf rf (sortP K lf i) := fun i hi => by rw [e2 i hi, invNormF_perm]
  have hne : ∀ i, i < K → invNormF o.ds K lf rf i ≠ 0 := by
    intro i hi
    unfold invNormF
    split
    · exact mul_ne_zero (hr i hi) (resD_ne hl hinj hi one_ne_zero)
    · exact hr i hi
  obtain ⟨q', hq'⟩ := invSoliton_total hb' e2' (srt_im hl) (fun i hi => hne _ ((sortP_lt K lf i).mp hi)) z hq hnz
  simp only [Option.bind_eq_bind, Option.bind_some]
  rw [if_pos ⟨trivial, hm⟩, hq']
  exact ⟨_, rfl⟩

end FNFT

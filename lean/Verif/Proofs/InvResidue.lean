import Verif.Proofs.InvSoliton
import Mathlib.Analysis.Calculus.Deriv.Slope
/-!
# Residues and norming constants
-/
namespace FNFT
open Complex Spec Filter

local notation "conj" => starRingEnd ℂ

/-- The product over the other bound states. -/
noncomputable def resP (K : ℕ) (lf : ℕ → ℂ) (i : ℕ) (l : ℂ) : ℂ :=
  ((List.range K).map fun j => if j = i then 1 else (l - lf j) / (l - conj (lf j))).prod

/-- The derivative of `a` at a bound state, if `a` is the product of the Blaschke factors and of a function with the value `ac` there. -/
noncomputable def resD (K : ℕ) (lf : ℕ → ℂ) (ac : ℂ) (i : ℕ) : ℂ := 1 / (2 * I * ((lf i).im : ℂ)) * (ac * resP K lf i (lf i))

theorem range_prod_split {M : Type*} [CommMonoid M] (K i : ℕ) (hi : i < K) (f : ℕ → M) :
    ((List.range K).map f).prod = f i * ((List.range K).map fun j => if j = i then 1 else f j).prod := by
  induction K with
  | zero => omega
  | succ K ih =>
    rw [List.range_succ, List.map_append, List.prod_append, List.map_append, List.prod_append]
    simp only [List.map_cons, List.map_nil, List.prod_cons, List.prod_nil, mul_one]
    by_cases h : i = K
    · have e : ((List.range K).map fun j => if j = i then 1 else f j) = (List.range K).map f := by
        refine List.map_congr_left fun j hj => ?_
        rw [if_neg]; have := List.mem_range.mp hj; omega
      rw [e, h, if_pos rfl, mul_one, mul_comm]
    · rw [ih (by omega), if_neg (by omega), mul_assoc]

theorem blaschke_split (K i : ℕ) (hi : i < K) (lf : ℕ → ℂ) (l : ℂ) :
    blaschke ((List.range K).map lf) l = (l - lf i) / (l - conj (lf i)) * resP K lf i l := by
  unfold blaschke resP
  rw [List.map_map, ← range_prod_split K i hi fun j => (l - lf j) / (l - conj (lf j))]
  rfl

theorem resP_cont {K : ℕ} {lf : ℕ → ℂ} (hl : ∀ i, i < K → 0 < (lf i).im) (i : ℕ) {z : ℂ} (hz : 0 < z.im) : ContinuousAt (resP K lf i) z := by
  unfold resP
  have : ∀ n, n ≤ K → ContinuousAt (fun l => ((List.range n).map fun j => if j = i then 1 else (l - lf j) / (l - conj (lf j))).prod) z := by
    intro n
    induction n with
    | zero => intro _; simpa using continuousAt_const
    | succ n ih =>
      intro hn
      simp only [List.range_succ, List.map_append, List.prod_append, List.map_cons, List.map_nil, List.prod_cons, List.prod_nil, mul_one]
      refine (ih (by omega)).mul ?_
      by_cases e : n = i
      · simp only [if_pos e]; exact continuousAt_const
      · simp only [if_neg e]
        exact (continuousAt_id.sub continuousAt_const).div₀ (continuousAt_id.sub continuousAt_const) (sub_conj_ne hz.le (hl n (by omega)))
  exact this K le_rfl

/-- The derivative of a product that vanishes. -/
theorem hasDerivAt_zero_mul {g : ℂ → ℂ} {z : ℂ} (hg : ContinuousAt g z) : HasDerivAt (fun l => (l - z) * g l) (g z) z := by
  rw [hasDerivAt_iff_tendsto_slope]
  refine (hg.tendsto.mono_left nhdsWithin_le_nhds).congr' ?_
  filter_upwards [self_mem_nhdsWithin] with l hl
  have : l - z ≠ 0 := sub_ne_zero.mpr hl
  rw [slope_def_field]
  field_simp
  ring

theorem resD_deriv {K : ℕ} {lf : ℕ → ℂ} (hl : ∀ i, i < K → 0 < (lf i).im) {i : ℕ} (hi : i < K) {ac : ℂ → ℂ} (hac : ContinuousAt ac (lf i)) :
    HasDerivAt (fun l => blaschke ((List.range K).map lf) l * ac l) (resD K lf (ac (lf i)) i) (lf i) := by
  have hne := sub_conj_ne (hl i hi).le (hl i hi)
  have hc : ContinuousAt (fun l => 1 / (l - conj (lf i)) * (ac l * resP K lf i l)) (lf i) :=
    (continuousAt_const.div₀ (continuousAt_id.sub continuousAt_const) hne).mul (hac.mul (resP_cont hl i (hl i hi)))
  have := hasDerivAt_zero_mul hc
  rw [sub_conj_im] at this
  refine HasDerivAt.congr_deriv (HasDerivAt.congr_of_eventuallyEq this (Eventually.of_forall fun l => ?_)) rfl
  dsimp only
  rw [blaschke_split K i hi]
  ring

theorem resD_ne {K : ℕ} {lf : ℕ → ℂ} (hl : ∀ i, i < K → 0 < (lf i).im) (hinj : ∀ i j, i < K → j < K → lf i = lf j → i = j) {i : ℕ} (hi : i < K)
    {ac : ℂ} (hac : ac ≠ 0) : resD K lf ac i ≠ 0 := by
  unfold resD
  have h1 : (2 * I * ((lf i).im : ℂ)) ≠ 0 := by rw [← sub_conj_im]; exact sub_conj_ne (hl i hi).le (hl i hi)
  refine mul_ne_zero (one_div_ne_zero h1) (mul_ne_zero hac ?_)
  unfold resP
  refine List.prod_ne_zero fun h0 => ?_
  obtain ⟨j, hj, h⟩ := List.mem_map.mp h0
  have hj := List.mem_range.mp hj
  by_cases e : j = i
  · rw [if_pos e] at h; exact one_ne_zero h
  · rw [if_neg e] at h
    have h2 := sub_conj_ne (hl i hi).le (hl j hj)
    rw [div_eq_zero_iff] at h
    rcases h with h | h
    · exact e (hinj j i hj hi (sub_eq_zero.mp h).symm)
    · exact h2 h

/-- The conversion. -/
theorem invResidue_ok {K : ℕ} {bs a nc : Buf ℂ} {lf af rf : ℕ → ℂ} (hb : bs.Holds 0 K lf) (ha : a.Holds 0 K af) (hn : nc.Holds 0 K rf)
    (hl : ∀ i, i < K → 0 < (lf i).im) :
    ∃ nc', forLoop K (invResidue K bs a) nc = some nc' ∧ nc'.Holds 0 K fun i => rf i * resD K lf (af i) i := by
  obtain ⟨nc', h1, _, h2⟩ := forLoop_inv (n := K) (s := nc) (body := invResidue K bs a)
    (fun k (c : Buf ℂ) => c.len = nc.len ∧ ∀ i, i < K → c.rd i = some (if i < k then rf i * resD K lf (af i) i else rf i))
    ⟨rfl, fun i hi => by have := hn i hi; rw [Nat.zero_add] at this; simpa using this⟩ (by
      rintro i t hi ⟨hlt, ht⟩
      have e1 := ha i hi
      have e2 := hb i hi
      rw [Nat.zero_add] at e1 e2
      have e3 := ht i hi
      rw [if_neg (lt_irrefl i)] at e3
      have h2 : (2 * I * ((lf i).im : ℂ)) ≠ 0 := by rw [← sub_conj_im]; exact sub_conj_ne (hl i hi).le (hl i hi)
      obtain ⟨tmp, ht1, ht2⟩ := forLoop_inv (n := K) (s := af i) (body := fun j (tmp : ℂ) => do
        if j = i then return tmp
        else
          let lj ← bs.rd j
          cdiv (tmp * (lf i - lj)) (lf i - (starRingEnd ℂ) lj)) (fun k (x : ℂ) => x = af i * resP k lf i (lf i))
        (by simp [resP]) (by
          rintro j x hj rfl
          have ej := hb j hj
          rw [Nat.zero_add] at ej
          have er : resP (j + 1) lf i (lf i) = resP j lf i (lf i) * (if j = i then 1 else (lf i - lf j) / (lf i - conj (lf j))) := by
            unfold resP
            rw [List.range_succ, List.map_append, List.prod_append]; simp
          rw [er]
          by_cases c : j = i
          · exact ⟨_, if_pos c, by rw [if_pos c, mul_one]⟩
          · refine ⟨_, ?_, rfl⟩
            simp only [ej, if_neg c, Option.bind_eq_bind, Option.bind_some, cdiv_ok (sub_conj_ne (hl i hi).le (hl j hj))]
            congr 1; ring)
      obtain ⟨c, hw, hcl, hc1, hc2⟩ := Buf.wr_spec (b := t) (rf i / (2 * I * ((lf i).im : ℂ)) * tmp) (Buf.rd_lt e3)
      refine ⟨c, ?_, by rw [hcl, hlt], fun k hk => ?_⟩
      · unfold invResidue
        simp only [e1, e2, Option.bind_eq_bind, Option.bind_some]
        simp only [Option.bind_eq_bind] at ht1
        simp only [ht1, e3, cdiv_ok h2, Option.bind_some]
        exact hw
      · by_cases ki : k = i
        · rw [ki, hc1, if_pos (by omega), ht2]
          unfold resD
          congr 1; ring
        · rw [hc2 k ki, ht k hk]
          by_cases kl : k < i
          · rw [if_pos kl, if_pos (by omega)]
          · rw [if_neg kl, if_neg (by omega)])
  refine ⟨nc', h1, fun i hi => ?_⟩
  rw [Nat.zero_add, h2 i hi, if_pos hi]

end FNFT

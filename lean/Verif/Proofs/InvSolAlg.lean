import Verif.Proofs.DarbouxFold
/-!
# The Darboux transform in terms of ratios of the components
-/
namespace FNFT
open Complex Filter Spec

local notation "conj" => starRingEnd ℂ

/-- `x` is the (negative) ratio of the components of `v`. -/
def RatRel (s : Bool) (x : ℂ) (v : ℂ × ℂ) : Prop :=
  if s then v.1 ≠ 0 ∧ x = -v.2 / v.1 else v.2 ≠ 0 ∧ x = -v.1 / v.2

noncomputable def solF (m x : ℂ) : ℂ := 2 * I * (m.im : ℂ) / ((1 + ‖x‖ * ‖x‖ : ℝ) : ℂ)

theorem sub_conj_im (m : ℂ) : m - conj m = 2 * I * (m.im : ℂ) := by
  rw [Complex.sub_conj]; push_cast; ring

theorem one_add_ne (x : ℂ) : 1 + x * conj x ≠ 0 := by
  rw [mul_conj']
  intro h
  have : (1 + ‖x‖ ^ 2 : ℝ) = 0 := by exact_mod_cast h
  nlinarith [sq_nonneg ‖x‖]

theorem solF_eq (m x : ℂ) : solF m x = (m - conj m) / (1 + x * conj x) := by
  unfold solF
  rw [sub_conj_im, mul_conj']
  push_cast
  ring

theorem solF_conj (m x : ℂ) : conj (solF m x) = -solF m x := by
  rw [solF_eq]
  simp only [map_div₀, map_sub, map_add, map_mul, map_one, conj_conj]
  rw [← neg_div, neg_sub, mul_comm (conj x) x]

theorem dS_true {m x : ℂ} {v : ℂ × ℂ} (h : RatRel true x v) : dS1 m v = conj m + solF m x ∧ dS2 m v = -conj x * solF m x := by
  obtain ⟨h1, h2⟩ := h
  have hv : v = ((1 : ℂ) * v.1, -x * v.1) := by
    refine Prod.ext ?_ ?_
    · simp
    · rw [h2]; field_simp
  have hne := one_add_ne x
  constructor
  · rw [hv, dS1_smul m v.1 h1 (1, -x), solF_eq]
    unfold dS1 dN
    simp only [map_one, map_neg, one_mul, mul_one, neg_mul_neg]
    field_simp
    ring
  · rw [hv, dS2_smul m v.1 h1 (1, -x), solF_eq]
    unfold dS2 dN
    simp only [map_one, map_neg, one_mul, mul_one, neg_mul_neg]
    field_simp

theorem dS_false {m x : ℂ} {v : ℂ × ℂ} (h : RatRel false x v) : dS1 m v = m - solF m x ∧ dS2 m v = -x * solF m x := by
  obtain ⟨h1, h2⟩ : v.2 ≠ 0 ∧ x = -v.1 / v.2 := h
  have hv : v = (-x * v.2, (1 : ℂ) * v.2) := by
    refine Prod.ext ?_ ?_
    · dsimp only; rw [h2]; field_simp; 
    · simp
  have hne := one_add_ne x
  have hne' : x * conj x + 1 ≠ 0 := by rw [add_comm]; exact hne
  constructor
  · rw [hv, dS1_smul m v.2 h1 (-x, 1), solF_eq]
    unfold dS1 dN
    simp only [map_one, map_neg, mul_one, neg_mul_neg]
    rw [eq_sub_iff_add_eq, add_comm (x * conj x) 1, ← add_div]
    field_simp
    ring
  · rw [hv, dS2_smul m v.2 h1 (-x, 1), solF_eq]
    unfold dS2 dN
    simp only [map_one, map_neg, mul_one, neg_mul_neg]
    rw [add_comm (x * conj x) 1]
    ring

/-- complex conjugate in the second case -/
noncomputable def cjs (s : Bool) (z : ℂ) : ℂ := if s then z else conj z

theorem cjs_add (s : Bool) (x y : ℂ) : cjs s (x + y) = cjs s x + cjs s y := by cases s <;> simp [cjs]
theorem cjs_zero (s : Bool) : cjs s 0 = 0 := by cases s <;> simp [cjs]

theorem sol_val {s : Bool} {m x : ℂ} {v : ℂ × ℂ} (h : RatRel s x v) : cjs s (2 * conj x * solF m x * I) = -(2 * I * dS2 m v) := by
  cases s with
  | true => rw [(dS_true h).2]; show 2 * conj x * solF m x * I = _; ring
  | false =>
    rw [(dS_false h).2]
    show conj (2 * conj x * solF m x * I) = _
    simp only [map_mul, map_ofNat, conj_conj, conj_I, solF_conj]; ring

noncomputable def rhoNum (li lj rho f rj : ℂ) : ℂ := (lj - li) * rj + (rj - rho) * f
noncomputable def rhoDen (li lj rho f rj : ℂ) : ℂ := lj - conj li - (1 + conj rho * rj) * f

/-- The transform of a ratio. -/
theorem sol_step {s : Bool} {li lj xi xj c : ℂ} {vi vj : ℂ × ℂ} (hi : RatRel s xi vi) (hj : RatRel s xj vj) (hc : c ≠ 0) :
    (rhoDen li lj xi (solF li xi) xj ≠ 0 →
      RatRel s (rhoNum li lj xi (solF li xi) xj / rhoDen li lj xi (solF li xi) xj)
        (c * (dApp lj (dS1 li vi) (dS2 li vi) vj).1, c * (dApp lj (dS1 li vi) (dS2 li vi) vj).2)) ∧
    (rhoDen li lj xi (solF li xi) xj = 0 ↔
      (if s then (dApp lj (dS1 li vi) (dS2 li vi) vj).1 else (dApp lj (dS1 li vi) (dS2 li vi) vj).2) = 0) := by
  obtain ⟨f, hf⟩ : ∃ f, f = solF li xi := ⟨_, rfl⟩
  have hfc : conj f = -f := by rw [hf]; exact solF_conj _ _
  cases s with
  | true =>
    obtain ⟨s1, s2⟩ := dS_true (m := li) hi
    obtain ⟨h1, h2⟩ : vj.1 ≠ 0 ∧ xj = -vj.2 / vj.1 := hj
    have hv2 : vj.2 = -xj * vj.1 := by rw [h2]; field_simp
    rw [s1, s2, ← hf]
    have e1 : (dApp lj (conj li + f) (-conj xi * f) vj).1 = rhoDen li lj xi f xj * vj.1 := by
      unfold dApp rhoDen; dsimp only; rw [hv2]; ring
    have e2 : (dApp lj (conj li + f) (-conj xi * f) vj).2 = -(rhoNum li lj xi f xj) * vj.1 := by
      unfold dApp rhoNum; dsimp only; rw [hv2]; simp only [map_add, map_mul, map_neg, conj_conj, hfc]; ring
    rw [e1, e2]
    refine ⟨fun hd => ⟨mul_ne_zero hc (mul_ne_zero hd h1), ?_⟩, ?_⟩
    · dsimp only; field_simp
    · simp [h1]
  | false =>
    obtain ⟨s1, s2⟩ := dS_false (m := li) hi
    obtain ⟨h1, h2⟩ : vj.2 ≠ 0 ∧ xj = -vj.1 / vj.2 := hj
    have hv2 : vj.1 = -xj * vj.2 := by rw [h2]; field_simp
    rw [s1, s2, ← hf]
    have e1 : (dApp lj (li - f) (-xi * f) vj).2 = rhoDen li lj xi f xj * vj.2 := by
      unfold dApp rhoDen; dsimp only; rw [hv2]; simp only [map_sub, map_mul, map_neg, hfc]; ring
    have e2 : (dApp lj (li - f) (-xi * f) vj).1 = -(rhoNum li lj xi f xj) * vj.2 := by
      unfold dApp rhoNum; dsimp only; rw [hv2]; ring
    rw [e1, e2]
    refine ⟨fun hd => ⟨mul_ne_zero hc (mul_ne_zero hd h1), ?_⟩, ?_⟩
    · dsimp only; field_simp
    · simp [h1]

/-! ## The chain of transforms -/

/-- The potential and the Jost solutions after `i` transforms. -/
noncomputable def dbN (lf bf : ℕ → ℂ) (q : ℝ → ℂ) (phi psi : ℂ → ℝ → ℂ × ℂ) (i : ℕ) : (ℝ → ℂ) × (ℂ → ℝ → ℂ × ℂ) × (ℂ → ℝ → ℂ × ℂ) :=
  dbAll ((List.range i).map fun k => (lf k, bf k)) q phi psi

/-- The function that belongs to the bound state `j` after `i` transforms. -/
noncomputable def dbNV (lf bf : ℕ → ℂ) (q : ℝ → ℂ) (phi psi : ℂ → ℝ → ℂ × ℂ) (i j : ℕ) (t : ℝ) : ℂ × ℂ :=
  dbV (dbN lf bf q phi psi i).2.1 (dbN lf bf q phi psi i).2.2 (lf j) (bf j) t

theorem dbAll_append (L L' : List (ℂ × ℂ)) : ∀ (q : ℝ → ℂ) (phi psi : ℂ → ℝ → ℂ × ℂ),
    dbAll (L ++ L') q phi psi = dbAll L' (dbAll L q phi psi).1 (dbAll L q phi psi).2.1 (dbAll L q phi psi).2.2 := by
  induction L with
  | nil => intro q phi psi; rfl
  | cons x L ih => intro q phi psi; exact ih _ _ _

theorem dbN_succ (lf bf : ℕ → ℂ) (q : ℝ → ℂ) (phi psi : ℂ → ℝ → ℂ × ℂ) (i : ℕ) :
    dbN lf bf q phi psi (i + 1) =
      (dbQ (dbN lf bf q phi psi i).1 (lf i) (dbNV lf bf q phi psi i i),
        dbSol (lf i) (dbNV lf bf q phi psi i i) (dbN lf bf q phi psi i).2.1,
        dbSol (lf i) (dbNV lf bf q phi psi i i) (dbN lf bf q phi psi i).2.2) := by
  unfold dbN
  rw [List.range_succ, List.map_append, dbAll_append]
  rfl

theorem dbNV_succ (lf bf : ℕ → ℂ) (q : ℝ → ℂ) (phi psi : ℂ → ℝ → ℂ × ℂ) (i j : ℕ) (t : ℝ) :
    dbNV lf bf q phi psi (i + 1) j t =
      ((lf j - conj (lf i))⁻¹ * (dApp (lf j) (dS1 (lf i) (dbNV lf bf q phi psi i i t)) (dS2 (lf i) (dbNV lf bf q phi psi i i t)) (dbNV lf bf q phi psi i j t)).1,
       (lf j - conj (lf i))⁻¹ * (dApp (lf j) (dS1 (lf i) (dbNV lf bf q phi psi i i t)) (dS2 (lf i) (dbNV lf bf q phi psi i i t)) (dbNV lf bf q phi psi i j t)).2) := by
  have e : dbNV lf bf q phi psi i j t = (((dbN lf bf q phi psi i).2.1 (lf j) t).1 - bf j * ((dbN lf bf q phi psi i).2.2 (lf j) t).1,
      ((dbN lf bf q phi psi i).2.1 (lf j) t).2 - bf j * ((dbN lf bf q phi psi i).2.2 (lf j) t).2) := rfl
  rw [e, dApp_sub]
  conv_lhs => unfold dbNV
  rw [dbN_succ]
  unfold dbV dbSol
  refine Prod.ext ?_ ?_ <;> dsimp only <;> ring

theorem dbN_q_succ (lf bf : ℕ → ℂ) (q : ℝ → ℂ) (phi psi : ℂ → ℝ → ℂ × ℂ) (i : ℕ) (t : ℝ) :
    (dbN lf bf q phi psi (i + 1)).1 t = (dbN lf bf q phi psi i).1 t - 2 * I * dS2 (lf i) (dbNV lf bf q phi psi i i t) := by
  rw [dbN_succ]; rfl

end FNFT

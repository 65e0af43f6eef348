import Verif.Spec.Cells
import Verif.Proofs.SeedGrid
import Verif.Proofs.NsevEval
import Verif.Proofs.InvTop
/-!
# The piecewise constant signal for which the exponential midpoint rule is exact
-/
namespace FNFT
open Complex Filter Spec

local notation "conj" => starRingEnd ℂ

/-- Full steps: `n` samples from `m` on. -/
noncomputable def fullL (h : ℝ) (qf : ℕ → ℂ) : ℕ → ℕ → List (ℝ × ℂ)
  | _, 0 => []
  | m, n + 1 => (h, qf m) :: fullL h qf (m + 1) n

theorem fullL_nonneg {h : ℝ} (hh : 0 ≤ h) (qf : ℕ → ℂ) (n : ℕ) : ∀ m, ∀ x ∈ fullL h qf m n, 0 ≤ x.1 := by
  induction n with
  | zero => intro m x hx; cases hx
  | succ n ih =>
    intro m x hx
    simp only [fullL, List.mem_cons] at hx
    rcases hx with rfl | hx
    · exact hh
    · exact ih _ x hx

theorem fullL_end (h : ℝ) (qf : ℕ → ℂ) (n : ℕ) : ∀ m τ, segEnd τ (fullL h qf m n) = τ + n * h := by
  induction n with
  | zero => intro m τ; simp [segEnd, fullL]
  | succ n ih =>
    intro m τ
    unfold fullL
    rw [segEnd_cons, ih]
    push_cast; ring

/-- The potential. -/
theorem segQ_full {h : ℝ} (hh : 0 < h) (qf : ℕ → ℂ) (T0 : ℝ) (n : ℕ) : ∀ (m : ℕ) (τ t : ℝ), τ = T0 - h / 2 + m * h → τ < t → t < τ + n * h →
    t ∉ segE τ (fullL h qf m n) → segQ τ (fullL h qf m n) t = qf ⌊(t - T0) / h + 1 / 2⌋₊ := by
  induction n with
  | zero => intro m τ t _ h1 h2; exfalso; simp at h2; linarith
  | succ n ih =>
    intro m τ t hτ h1 h2 hE
    have hE1 : t ≠ τ + h := fun e => hE (Or.inl e)
    have hE3 : t ∉ segE (τ + h) (fullL h qf (m + 1) n) := fun e => hE (Or.inr e)
    show glue (τ + h) (fun _ => qf m) (segQ (τ + h) (fullL h qf (m + 1) n)) t = _
    have hm0 : (0 : ℝ) ≤ m := Nat.cast_nonneg m
    rcases lt_or_gt_of_ne hE1 with hlt | hgt
    · rw [glue_le _ _ hlt.le]
      congr 1
      symm
      have k1 : (m : ℝ) - 1 / 2 ≤ (t - T0) / h := by rw [le_div_iff₀ hh]; linarith
      have k2 : (t - T0) / h < m + 1 / 2 := by rw [div_lt_iff₀ hh]; linarith
      rw [Nat.floor_eq_iff (by linarith)]
      constructor <;> linarith
    · rw [glue_gt _ _ hgt]
      exact ih (m + 1) (τ + h) t (by rw [hτ]; push_cast; ring) hgt (by push_cast at h2; linarith) hE3

theorem segEnd_mem {n : ℕ} (hn : 0 < n) (h : ℝ) (qf : ℕ → ℂ) : ∀ (m : ℕ) (τ : ℝ), segEnd τ (fullL h qf m n) ∈ segE τ (fullL h qf m n) := by
  induction n with
  | zero => omega
  | succ n ih =>
    intro m τ
    show segEnd τ ((h, qf m) :: fullL h qf (m + 1) n) ∈ insert (τ + h) (segE (τ + h) (fullL h qf (m + 1) n))
    rw [segEnd_cons]
    rcases Nat.eq_zero_or_pos n with rfl | h0
    · left; simp [segEnd, fullL]
    · right; exact ih h0 _ _

theorem fullL_succ (h : ℝ) (qf : ℕ → ℂ) (n : ℕ) : ∀ m, fullL h qf m (n + 1) = fullL h qf m n ++ [(h, qf (m + n))] := by
  induction n with
  | zero => intro m; rfl
  | succ n ih =>
    intro m
    show (h, qf m) :: fullL h qf (m + 1) (n + 1) = (h, qf m) :: (fullL h qf (m + 1) n ++ _)
    rw [ih, show m + 1 + n = m + (n + 1) by omega]

theorem segP_append (l : ℂ) (L : List (ℝ × ℂ)) (x : ℝ × ℂ) : ∀ v, segP l (L ++ [x]) v = flow x.2 l x.1 (segP l L v) := by
  induction L with
  | nil => intro v; rfl
  | cons y L ih => intro v; exact ih _

/-- The piecewise constant potential and its Jost solutions. -/
theorem JF.cells {T0 eps : ℝ} (he : 0 < eps) (D : ℕ) (qf : ℕ → ℂ) :
    JF (pcE (T0 - eps / 2) (fullL eps qf 0 D)) (cellQ T0 eps D qf) (pcPhi (T0 - eps / 2) (fullL eps qf 0 D)) (pcPsi (T0 - eps / 2) (fullL eps qf 0 D))
      (pcA (T0 - eps / 2) (fullL eps qf 0 D)) (pcB (T0 - eps / 2) (fullL eps qf 0 D)) := by
  have hL := fullL_nonneg he.le qf D 0
  have hend : T0 - eps / 2 + D * eps = T0 + ((D : ℝ) - 1 / 2) * eps := by ring
  refine (JF.pc (T0 - eps / 2) hL).congr (fun t ht => ?_) ?_
  · have ht0 : t ≠ T0 - eps / 2 := fun e => ht (Or.inl e)
    have htE : t ∉ segE (T0 - eps / 2) (fullL eps qf 0 D) := fun e => ht (Or.inr e)
    unfold pcQ cellQ
    rcases lt_or_gt_of_ne ht0 with hlt | hgt
    · rw [glue_le _ _ hlt.le, if_neg (fun h => absurd h.1 (not_lt.mpr hlt.le))]
    · rw [glue_gt _ _ hgt]
      by_cases hle : t < T0 + ((D : ℝ) - 1 / 2) * eps
      · rw [if_pos ⟨hgt, hle⟩, segQ_full he qf T0 D 0 (T0 - eps / 2) t (by simp) hgt (by rw [hend]; exact hle) htE]
      · rw [if_neg (fun h => hle h.2)]
        rcases lt_or_eq_of_le (not_lt.mp hle) with hlt | heq
        · rw [segQ_end _ hL _ t (by rw [fullL_end, hend]; exact hlt)]
        · have hD0 : D = 0 ∨ 0 < D := Nat.eq_zero_or_pos D
          rcases hD0 with rfl | hD0
          · rfl
          · exact absurd (Or.inr (heq ▸ by rw [← hend, ← fullL_end eps qf D 0]; exact segEnd_mem hD0 eps qf 0 _)) ht
  · constructor
    · refine expTo_eq_left (T := T0 - eps / 2) (fun t ht => ?_) (ExpTo.const atBot 0)
      unfold cellQ
      rw [if_neg (fun h => by linarith [h.1])]
    · refine expTo_eq_right (T := T0 + ((D : ℝ) - 1 / 2) * eps) (fun t ht => ?_) (ExpTo.const atTop 0)
      unfold cellQ
      rw [if_neg (fun h => by linarith [h.2])]

/-- One step is the matrix exponential. -/
theorem flow_exp (c l : ℂ) (s : ℝ) (v : ℂ × ℂ) : flow c l s v =
    ((NormedSpace.exp ((s : ℂ) • aknsP c (-conj c) l)).mulVec ![v.1, v.2] 0, (NormedSpace.exp ((s : ℂ) • aknsP c (-conj c) l)).mulVec ![v.1, v.2] 1) := by
  have hk := fK_sq c l
  have h1 : csinc (I * fK c l * s) * s = fS (fK c l) s := by
    unfold csinc fS
    by_cases hk0 : fK c l = 0
    · rw [hk0]; simp
    · by_cases hs : s = 0
      · simp [hs]
      · have hs' : (s : ℂ) ≠ 0 := by exact_mod_cast hs
        rw [if_neg (mul_ne_zero (mul_ne_zero I_ne_zero hk0) hs'), if_neg hk0, mul_assoc I, mul_comm I, sin_mul_I]
        have := I_ne_zero
        field_simp
  have h2 : cos (I * fK c l * s) = fC (fK c l) s := by
    unfold fC; rw [mul_assoc I, mul_comm I, cos_mul_I]
  rw [exp_of_sq _ (I * fK c l * s) (by
    have hI : I * I = -1 := I_mul_I
    ext i j; fin_cases i <;> fin_cases j <;> simp [aknsP, Matrix.mul_apply, Fin.sum_univ_two]
    · linear_combination ((s : ℂ) ^ 2 * (l * l) + (s : ℂ) ^ 2 * fK c l ^ 2) * hI - (s : ℂ) ^ 2 * hk
    · ring
    · ring
    · linear_combination ((s : ℂ) ^ 2 * (l * l) + (s : ℂ) ^ 2 * fK c l ^ 2) * hI - (s : ℂ) ^ 2 * hk)]
  rw [h2]
  unfold flow
  rw [← h1]
  simp [aknsP, Matrix.mulVec, dotProduct, Fin.sum_univ_two]
  constructor <;> ring

theorem segP_full (h : ℝ) (qf : ℕ → ℂ) (l : ℂ) (n : ℕ) (v : ℂ × ℂ) (U : ℕ → M2) (hU : ∀ k, k < n → U k = NormedSpace.exp ((h : ℂ) • aknsP (qf k) (-conj (qf k)) l)) :
    segP l (fullL h qf 0 n) v = ((chain U n).mulVec ![v.1, v.2] 0, (chain U n).mulVec ![v.1, v.2] 1) := by
  induction n with
  | zero => simp [fullL, segP, chain]
  | succ n ih =>
    rw [fullL_succ, segP_append, ih fun k hk => hU k (by omega), Nat.zero_add, flow_exp, ← hU n (by omega), chain_succ, ← Matrix.mulVec_mulVec]
    have e : ∀ w : Fin 2 → ℂ, ![w 0, w 1] = w := fun w => by ext i; fin_cases i <;> rfl
    dsimp only
    rw [e]

/-- The coefficients of the exponential midpoint rule are those of the piecewise constant potential. -/
theorem pcA_full {T0 T1 eps : ℝ} {D : ℕ} (hD : T1 = T0 + (D - 1) * eps) (qf : ℕ → ℂ) (l : ℂ) (U : ℕ → M2)
    (hU : ∀ k, k < D → U k = NormedSpace.exp ((eps : ℂ) • aknsP (qf k) (-conj (qf k)) l)) : pcA (T0 - eps / 2) (fullL eps qf 0 D) l = jostA (chain U D) T0 T1 eps l := by
  unfold pcA jostA
  rw [segP_full eps qf l D _ U hU, fullL_end, eq_div_iff (exp_ne_zero _), mul_assoc, ← Complex.exp_add]
  rw [hD]
  convert mul_one _
  rw [← Complex.exp_zero]
  congr 1
  push_cast; ring

theorem pcB_full {T0 T1 eps : ℝ} {D : ℕ} (hD : T1 = T0 + (D - 1) * eps) (qf : ℕ → ℂ) (l : ℝ) (U : ℕ → M2)
    (hU : ∀ k, k < D → U k = NormedSpace.exp ((eps : ℂ) • aknsP (qf k) (-conj (qf k)) l)) : pcB (T0 - eps / 2) (fullL eps qf 0 D) l = jostB (chain U D) T0 T1 eps l := by
  unfold pcB jostB
  rw [segP_full eps qf l D _ U hU, fullL_end, eq_div_iff (exp_ne_zero _), mul_assoc, ← Complex.exp_add]
  rw [hD]
  convert mul_one _
  rw [← Complex.exp_zero]
  congr 1
  push_cast; ring

theorem chain_continuous_l {N : ℂ → ℕ → M2} (h : ∀ n, Continuous fun w => N w n) (n : ℕ) : Continuous fun w => chain (N w) n := by
  induction n with
  | zero => simp only [chain, List.range_zero]; exact continuous_const
  | succ n ih => simp only [chain_succ]; exact (h n).matrix_mul ih

section
attribute [local instance] Matrix.linftyOpNormedRing
noncomputable local instance m2AlgebraC : NormedAlgebra ℂ M2 := Matrix.linftyOpNormedAlgebra

theorem exp_continuous_M2 : Continuous (NormedSpace.exp : M2 → M2) :=
  letI : NormedAlgebra ℚ M2 := NormedAlgebra.restrictScalars ℚ ℂ M2
  NormedSpace.exp_continuous
end

theorem pcA_continuous {T0 eps : ℝ} {D : ℕ} (qf : ℕ → ℂ) : Continuous (pcA (T0 - eps / 2) (fullL eps qf 0 D)) := by
  have e : pcA (T0 - eps / 2) (fullL eps qf 0 D) = fun l => jostA (chain (fun k => NormedSpace.exp ((eps : ℂ) • aknsP (qf k) (-conj (qf k)) l)) D) T0 (T0 + (D - 1) * eps) eps l :=
    funext fun l => pcA_full rfl qf l _ fun _ _ => rfl
  rw [e]
  have hM : Continuous fun l => chain (fun k => (NormedSpace.exp ((eps : ℂ) • aknsP (qf k) (-conj (qf k)) l) : M2)) D := by
    refine chain_continuous_l (fun n => exp_continuous_M2.comp ?_) D
    refine continuous_matrix fun i j => ?_
    fin_cases i <;> fin_cases j <;> simp [aknsP] <;> fun_prop
  unfold jostA
  refine Continuous.div ?_ (by fun_prop) fun _ => exp_ne_zero _
  simp only [Matrix.mulVec, dotProduct, Fin.sum_univ_two]
  refine ((hM.matrix_elem 0 0).mul (by simp; fun_prop)).add ((hM.matrix_elem 0 1).mul (by simp; fun_prop))

/-- The step of the exponential midpoint rule, provided that the Taylor polynomial is not used. -/
theorem bo_step {eps : ℝ} {qf : ℕ → ℂ} {l : ℂ} {n : ℕ} (h : (eps : ℂ) ^ 2 * (l ^ 2 + ((‖qf n‖ ^ 2 : ℝ) : ℂ)) = 0 ∨ 1e-16 ≤ ‖(eps : ℂ) ^ 2 * (l ^ 2 + ((‖qf n‖ ^ 2 : ℝ) : ℂ))‖) :
    slowStep expS .BO eps (cfWeight .BO) qf (fun n => -conj (qf n)) l n = NormedSpace.exp ((eps : ℂ) • aknsP (qf n) (-conj (qf n)) l) := by
  show expS ((1 * (eps : ℂ)) • aknsP (qf n) (-conj (qf n)) l) = _
  rw [one_mul]
  refine expS_exact (by simp [aknsP]) ?_
  have e : ((eps : ℂ) • aknsP (qf n) (-conj (qf n)) l).det = (eps : ℂ) ^ 2 * (l ^ 2 + ((‖qf n‖ ^ 2 : ℝ) : ℂ)) := by
    rw [Complex.ofReal_pow, ← Complex.mul_conj', Matrix.det_fin_two]
    simp [aknsP]
    linear_combination (-(eps : ℂ) ^ 2 * l ^ 2) * I_sq
  rw [e]; exact h

/-- Residues are converted with `a` of the piecewise constant potential. -/
theorem invNorm_cont {K D : ℕ} {bs nc q : Buf ℂ} {lf rf qf : ℕ → ℂ} {T0 T1 eps : ℝ} {g : Garbage} (hK : 0 < K) (hD : 2 ≤ D) (he : eps = (T1 - T0) / ((D : ℝ) - 1)) (hb : bs.Holds 0 K lf)
    (hn : nc.Holds 0 K rf) (hq : q.Holds 0 D qf) (hl : ∀ i, i < K → 0 < (lf i).im) :
    ∃ nc', invNorm K bs nc D q T0 T1 true .RESIDUES g = some (.ok nc') ∧
      nc'.Holds 0 K fun i => rf i * resD K lf (slowA expS .BO D T0 T1 eps qf (fun n => -conj (qf n)) (lf i)) i := by
  unfold invNorm invACoeff
  rw [if_pos rfl, if_pos rfl]
  obtain ⟨r, r1, r2, r3⟩ := fill_spec (off := 0) (cnt := D) (b := (Buf.malloc D : Buf ℂ)) (f := fun i => do
      let v ← q.rd i
      return -conj v) (fun i => -conj (qf i)) (by
    intro i _ hi
    have := hq i (by omega)
    rw [Nat.zero_add] at this
    simp [this]) (Or.inl (by simp))
  have hr : r.Holds 0 D fun i => -conj (qf i) := fun i hi => by rw [Nat.zero_add, r3 i, if_pos (by omega)]
  have hB : BoundArgs D D q r qf (fun n => -conj (qf n)) K bs lf (Buf.malloc K) (Buf.malloc K) (some (Buf.malloc K)) (some (Buf.malloc K)) .BO .NSE 1 :=
    { hDg := hD, hD := by simp [akns_upsampling_factor], hq := hq, hr := hr, hK := hK, hl := hb, hd := by simp [slow], hp := Or.inr rfl, hx := fun h => by cases h
      ha := by simp, hap := by simp, hb := fun h => by simp at h, hW := fun V hV => by cases hV; simp }
  obtain ⟨res, wt, v, e1, e2, e3, -, e4, -, -⟩ := nse_bound_ok hB (nd := .BO) rfl T0 T1 (g 0) (g 1)
  rw [← he] at e3
  obtain ⟨V', v1, v2, v3⟩ := e4 _ rfl
  have hx : ∀ i, ∃ x, i < K → res.a.rd i = some x ∧ x * 2 ^ wt i = slowA expS .BO D T0 T1 eps qf (fun n => -conj (qf n)) (lf i) := by
    intro i
    by_cases hi : i < K
    · obtain ⟨⟨x, x1, x2⟩, -⟩ := e3 i hi
      exact ⟨x, fun _ => ⟨x1, by rw [mul_comm]; exact x2⟩⟩
    · exact ⟨0, fun h => absurd h hi⟩
  choose xf hxf using hx
  obtain ⟨a, h1, -, h2⟩ := forLoop_inv (n := K) (s := res.a) (body := fun i (a : Buf ℂ) => do
        let ws ← res.Ws
        let w ← ws.rd i
        let v ← a.rd i
        a.wr i (v * (2 : ℂ) ^ w)) (fun k (c : Buf ℂ) => c.len = res.a.len ∧ ∀ i, i < K → c.rd i = some (if i < k then xf i * 2 ^ wt i else xf i))
    ⟨rfl, fun i hi => by simpa using (hxf i hi).1⟩ (by
      rintro i t hi ⟨ht, hv⟩
      have e5 := hv i hi
      rw [if_neg (lt_irrefl i)] at e5
      obtain ⟨b', b1, b2, b3, b4⟩ := Buf.wr_spec (xf i * (2 : ℂ) ^ wt i) (Buf.rd_lt e5)
      refine ⟨b', ?_, by rw [b2, ht], fun j hj => ?_⟩
      · simp only [v1, Option.bind_eq_bind, Option.bind_some, v3 i hi, e5, b1]
      · by_cases c : j = i
        · rw [c, b3, if_pos (by omega)]
        · rw [b4 j c, hv j hj]
          congr 1
          by_cases d : j < i
          · rw [if_pos d, if_pos (by omega)]
          · rw [if_neg d, if_neg (by omega)])
  have ha : a.Holds 0 K fun i => slowA expS .BO D T0 T1 eps qf (fun n => -conj (qf n)) (lf i) := fun i hi => by
    rw [Nat.zero_add, h2 i hi, if_pos hi, (hxf i hi).2]
  obtain ⟨nc', h3, h4⟩ := invResidue_ok hb ha hn hl
  refine ⟨nc', ?_, h4⟩
  simp only [Option.bind_eq_bind] at r1 h1 ⊢
  rw [r1, Option.bind_some, e1, Option.bind_some, if_neg (not_not.mpr e2), h1]
  simp only [Option.bind_some, pure, h3]

end FNFT

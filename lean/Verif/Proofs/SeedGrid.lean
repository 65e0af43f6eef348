import Verif.Proofs.SeedJost
import Mathlib.Algebra.Order.Floor.Semiring
/-!
# The seed potential given by samples
-/
namespace FNFT
open Complex Filter Spec

local notation "conj" => starRingEnd ℂ

/-- Half steps: the samples from `m` to `m+n`. -/
noncomputable def halfL (h : ℝ) (qf : ℕ → ℂ) : ℕ → ℕ → List (ℝ × ℂ)
  | _, 0 => []
  | m, n + 1 => (h, qf m) :: (h, qf (m + 1)) :: halfL h qf (m + 1) n

theorem halfL_nonneg {h : ℝ} (hh : 0 ≤ h) (qf : ℕ → ℂ) (n : ℕ) : ∀ m, ∀ x ∈ halfL h qf m n, 0 ≤ x.1 := by
  induction n with
  | zero => intro m x hx; cases hx
  | succ n ih =>
    intro m x hx
    simp only [halfL, List.mem_cons] at hx
    rcases hx with rfl | rfl | hx
    · exact hh
    · exact hh
    · exact ih _ x hx

theorem halfL_end (h : ℝ) (qf : ℕ → ℂ) (n : ℕ) : ∀ m τ, segEnd τ (halfL h qf m n) = τ + n * (2 * h) := by
  induction n with
  | zero => intro m τ; simp [segEnd, halfL]
  | succ n ih =>
    intro m τ
    unfold halfL
    rw [segEnd_cons, segEnd_cons, ih]
    push_cast; ring

/-- One full step. -/
noncomputable def fwd2 (h : ℝ) (qf : ℕ → ℂ) (l : ℂ) (m : ℕ) (v : ℂ × ℂ) : ℂ × ℂ := flow (qf (m + 1)) l h (flow (qf m) l h v)
noncomputable def bwd2 (h : ℝ) (qf : ℕ → ℂ) (l : ℂ) (m : ℕ) (v : ℂ × ℂ) : ℂ × ℂ := flow (qf m) l (-h) (flow (qf (m + 1)) l (-h) v)

/-- The values at the grid points. -/
noncomputable def fwdSeq (h : ℝ) (qf : ℕ → ℂ) (l : ℂ) (v : ℂ × ℂ) : ℕ → ℕ → ℂ × ℂ
  | _, 0 => v
  | m, n + 1 => fwd2 h qf l (m + n) (fwdSeq h qf l v m n)

theorem fwdSeq_shift (h : ℝ) (qf : ℕ → ℂ) (l : ℂ) (v : ℂ × ℂ) (m n : ℕ) : fwdSeq h qf l v m (n + 1) = fwdSeq h qf l (fwd2 h qf l m v) (m + 1) n := by
  induction n with
  | zero => rfl
  | succ n ih =>
    show fwd2 h qf l (m + (n + 1)) (fwdSeq h qf l v m (n + 1)) = fwd2 h qf l (m + 1 + n) (fwdSeq h qf l (fwd2 h qf l m v) (m + 1) n)
    rw [ih]; congr 1; omega

theorem segSol_grid {h : ℝ} (hh : 0 < h) (qf : ℕ → ℂ) (l : ℂ) (n : ℕ) : ∀ (m j : ℕ) (τ : ℝ) (v : ℂ × ℂ), j ≤ n →
    segSol l τ (halfL h qf m n) v (τ + j * (2 * h)) = fwdSeq h qf l v m j := by
  induction n with
  | zero =>
    intro m j τ v hj
    obtain rfl : j = 0 := by omega
    have := segSol_start l (halfL h qf m 0) (by intro x hx; cases hx) τ v
    simpa [fwdSeq] using this
  | succ n ih =>
    intro m j τ v hj
    cases j with
    | zero =>
      have := segSol_start l (halfL h qf m (n + 1)) (halfL_nonneg hh.le qf (n + 1) m) τ v
      simpa [fwdSeq] using this
    | succ j =>
      rw [fwdSeq_shift]
      have h1 := ih (m + 1) j (τ + h + h) (fwd2 h qf l m v) (by omega)
      have et : τ + ((j + 1 : ℕ) : ℝ) * (2 * h) = τ + h + h + (j : ℝ) * (2 * h) := by push_cast; ring
      rw [et, ← h1]
      show glue (τ + h) _ (glue (τ + h + h) (fun t => flow (qf (m + 1)) l (t - (τ + h)) (flow (qf m) l h v))
        (segSol l (τ + h + h) (halfL h qf (m + 1) n) (flow (qf (m + 1)) l h (flow (qf m) l h v)))) _ = _
      have hj0 : (0 : ℝ) ≤ (j : ℝ) * (2 * h) := by positivity
      rw [glue_gt _ _ (by linarith)]
      rcases hj0.lt_or_eq with hlt | heq
      · rw [glue_gt _ _ (by linarith)]; rfl
      · rw [← heq, add_zero, glue_le _ _ le_rfl, segSol_start l _ (halfL_nonneg hh.le qf n (m + 1))]
        unfold fwd2
        congr 1; ring

theorem flow_back' (c l : ℂ) (s : ℝ) (v : ℂ × ℂ) : flow c l (-s) (flow c l s v) = v := by
  have := flow_back c l (-s) v
  rwa [neg_neg] at this

/-- Backwards. -/
theorem fwdSeq_segB (h : ℝ) (qf : ℕ → ℂ) (l : ℂ) (w : ℂ × ℂ) (n : ℕ) : ∀ (m j : ℕ), j ≤ n →
    fwdSeq h qf l (segB l (halfL h qf m n) w) m j = segB l (halfL h qf (m + j) (n - j)) w := by
  intro m j
  induction j with
  | zero => intro _; rfl
  | succ j ih =>
    intro hj
    show fwd2 h qf l (m + j) (fwdSeq h qf l (segB l (halfL h qf m n) w) m j) = _
    rw [ih (by omega)]
    obtain ⟨k, hk⟩ : ∃ k, n - j = k + 1 := ⟨n - j - 1, by omega⟩
    have hk' : n - (j + 1) = k := by omega
    rw [hk, hk']
    show fwd2 h qf l (m + j) (flow (qf (m + j)) l (-h) (flow (qf (m + j + 1)) l (-h) (segB l (halfL h qf (m + j + 1) k) w))) = _
    unfold fwd2
    rw [flow_back, flow_back]
    rfl

theorem segB_succ (h : ℝ) (qf : ℕ → ℂ) (l : ℂ) (w : ℂ × ℂ) (m n : ℕ) :
    segB l (halfL h qf m (n + 1)) w = bwd2 h qf l m (segB l (halfL h qf (m + 1) n) w) := rfl

/-- The potential. -/
theorem segQ_val {h : ℝ} (hh : 0 < h) (qf : ℕ → ℂ) (T0 : ℝ) (n : ℕ) : ∀ (m : ℕ) (τ t : ℝ), τ = T0 + m * (2 * h) → τ < t → t ≤ τ + n * (2 * h) →
    t ∉ segE τ (halfL h qf m n) → segQ τ (halfL h qf m n) t = qf ⌊(t - T0) / (2 * h) + 1 / 2⌋₊ := by
  induction n with
  | zero => intro m τ t _ h1 h2; exfalso; simp at h2; linarith
  | succ n ih =>
    intro m τ t hτ h1 h2 hE
    have h2h : (0 : ℝ) < 2 * h := by linarith
    have hE1 : t ≠ τ + h := fun e => hE (Or.inl e)
    have hE2 : t ≠ τ + h + h := fun e => hE (Or.inr (Or.inl e))
    have hE3 : t ∉ segE (τ + h + h) (halfL h qf (m + 1) n) := fun e => hE (Or.inr (Or.inr e))
    show glue (τ + h) (fun _ => qf m) (glue (τ + h + h) (fun _ => qf (m + 1)) (segQ (τ + h + h) (halfL h qf (m + 1) n))) t = _
    have hm0 : (0 : ℝ) ≤ m := Nat.cast_nonneg m
    rcases lt_or_gt_of_ne hE1 with hlt | hgt
    · rw [glue_le _ _ hlt.le]
      congr 1
      symm
      rw [Nat.floor_eq_iff (by have : 0 ≤ (t - T0) / (2 * h) := div_nonneg (by rw [hτ] at h1; nlinarith) h2h.le
                               linarith)]
      constructor
      · have : (m : ℝ) ≤ (t - T0) / (2 * h) := by rw [le_div_iff₀ h2h]; linarith
        linarith
      · have : (t - T0) / (2 * h) < m + 1 / 2 := by rw [div_lt_iff₀ h2h]; linarith
        linarith
    · rw [glue_gt _ _ hgt]
      rcases lt_or_gt_of_ne hE2 with hlt | hgt2
      · rw [glue_le _ _ hlt.le]
        congr 1
        symm
        rw [Nat.floor_eq_iff (by have : 0 ≤ (t - T0) / (2 * h) := div_nonneg (by rw [hτ] at h1; nlinarith) h2h.le
                                 linarith)]
        push_cast
        constructor
        · have : (m : ℝ) + 1 / 2 ≤ (t - T0) / (2 * h) := by rw [le_div_iff₀ h2h]; linarith
          linarith
        · have : (t - T0) / (2 * h) < m + 1 := by rw [div_lt_iff₀ h2h]; linarith
          linarith
      · rw [glue_gt _ _ hgt2]
        exact ih (m + 1) (τ + h + h) t (by rw [hτ]; push_cast; ring) hgt2 (by push_cast at h2; linarith) hE3

/-- The seed potential and its Jost solutions. -/
theorem JF.seed {T0 eps : ℝ} (he : 0 < eps) {D : ℕ} (hD : 2 ≤ D) (qf : ℕ → ℂ) :
    JF (pcE T0 (halfL (eps / 2) qf 0 (D - 1))) (seedQ T0 eps D qf) (pcPhi T0 (halfL (eps / 2) qf 0 (D - 1))) (pcPsi T0 (halfL (eps / 2) qf 0 (D - 1)))
      (pcA T0 (halfL (eps / 2) qf 0 (D - 1))) (pcB T0 (halfL (eps / 2) qf 0 (D - 1))) := by
  have hh : 0 < eps / 2 := by linarith
  have hL := halfL_nonneg hh.le qf (D - 1) 0
  have hcast : ((D - 1 : ℕ) : ℝ) = (D : ℝ) - 1 := by rw [Nat.cast_sub (by omega)]; simp
  have hend : T0 + ((D - 1 : ℕ) : ℝ) * (2 * (eps / 2)) = T0 + ((D : ℝ) - 1) * eps := by rw [hcast]; ring
  refine (JF.pc T0 hL).congr (fun t ht => ?_) ?_
  · have ht0 : t ≠ T0 := fun e => ht (Or.inl e)
    have htE : t ∉ segE T0 (halfL (eps / 2) qf 0 (D - 1)) := fun e => ht (Or.inr e)
    unfold pcQ seedQ
    rcases lt_or_gt_of_ne ht0 with hlt | hgt
    · rw [glue_le _ _ hlt.le, if_neg (fun h => absurd h.1 (not_le.mpr hlt))]
    · rw [glue_gt _ _ hgt]
      by_cases hle : t ≤ T0 + ((D : ℝ) - 1) * eps
      · rw [if_pos ⟨hgt.le, hle⟩, segQ_val hh qf T0 (D - 1) 0 T0 t (by simp) hgt (by rw [hend]; exact hle) htE]
        congr 4; ring
      · rw [if_neg (fun h => hle h.2), segQ_end _ hL T0 t (by rw [halfL_end, hend]; exact not_le.mp hle)]
  · constructor
    · refine expTo_eq_left (T := T0 - 1) (fun t ht => ?_) (ExpTo.const atBot 0)
      unfold seedQ
      rw [if_neg (fun h => by linarith [h.1])]
    · refine expTo_eq_right (T := T0 + ((D : ℝ) - 1) * eps) (fun t ht => ?_) (ExpTo.const atTop 0)
      unfold seedQ
      rw [if_neg (fun h => by linarith [h.2])]

theorem seedQ_grid {T0 eps : ℝ} (he : 0 < eps) {D : ℕ} (qf : ℕ → ℂ) {n : ℕ} (hn : n < D) : seedQ T0 eps D qf (T0 + eps * n) = qf n := by
  unfold seedQ
  have h1 : (n : ℝ) ≤ (D : ℝ) - 1 := by
    have : (n + 1 : ℝ) ≤ D := by exact_mod_cast hn
    linarith
  rw [if_pos ⟨by have : 0 ≤ eps * n := by positivity
                 linarith, by nlinarith⟩]
  congr 1
  have : (T0 + eps * n - T0) / eps = n := by field_simp; ring
  rw [this, Nat.floor_eq_iff (by positivity)]
  constructor <;> linarith

/-- The values of the Jost solutions on the grid. -/
theorem pcPhi_grid {T0 eps : ℝ} (he : 0 < eps) {D : ℕ} (qf : ℕ → ℂ) (l : ℂ) {n : ℕ} (hn : n < D) :
    pcPhi T0 (halfL (eps / 2) qf 0 (D - 1)) l (T0 + eps * n) = fwdSeq (eps / 2) qf l (exp (-I * l * T0), 0) 0 n := by
  have hh : 0 < eps / 2 := by linarith
  rw [← segSol_grid hh qf l (D - 1) 0 n T0 _ (by omega)]
  unfold pcPhi pcSol
  have et : T0 + (n : ℝ) * (2 * (eps / 2)) = T0 + eps * n := by ring
  rw [et]
  rcases Nat.eq_zero_or_pos n with rfl | hp
  · rw [glue_le _ _ (by simp)]
    simp only [Nat.cast_zero, mul_zero, add_zero, sub_self]
    rw [flow_zero, segSol_start l _ (halfL_nonneg hh.le qf (D - 1) 0)]
  · rw [glue_gt _ _ (by have : 0 < eps * n := by positivity
                        linarith)]

theorem pcPsi_grid {T0 eps : ℝ} (he : 0 < eps) {D : ℕ} (hD : 2 ≤ D) (qf : ℕ → ℂ) (l : ℂ) {n : ℕ} (hn : n < D) :
    pcPsi T0 (halfL (eps / 2) qf 0 (D - 1)) l (T0 + eps * n) =
      segB l (halfL (eps / 2) qf n (D - 1 - n)) (0, exp (I * l * (T0 + ((D : ℝ) - 1) * eps : ℝ))) := by
  have hh : 0 < eps / 2 := by linarith
  have hcast : ((D - 1 : ℕ) : ℝ) = (D : ℝ) - 1 := by rw [Nat.cast_sub (by omega)]; simp
  have e2 : segEnd T0 (halfL (eps / 2) qf 0 (D - 1)) = T0 + ((D : ℝ) - 1) * eps := by rw [halfL_end, hcast]; ring
  have e3 := fwdSeq_segB (eps / 2) qf l (0, exp (I * l * (T0 + ((D : ℝ) - 1) * eps : ℝ))) (D - 1) 0 n (by omega)
  rw [Nat.zero_add] at e3
  rw [← e3, ← segSol_grid hh qf l (D - 1) 0 n T0 _ (by omega)]
  unfold pcPsi pcSol
  rw [e2]
  have et : T0 + (n : ℝ) * (2 * (eps / 2)) = T0 + eps * n := by ring
  rw [et]
  rcases Nat.eq_zero_or_pos n with rfl | hp
  · rw [glue_le _ _ (by simp)]
    simp only [Nat.cast_zero, mul_zero, add_zero, sub_self]
    rw [flow_zero, segSol_start l _ (halfL_nonneg hh.le qf (D - 1) 0)]
  · rw [glue_gt _ _ (by have : 0 < eps * n := by positivity
                        linarith)]

end FNFT

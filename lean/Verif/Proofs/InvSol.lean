import Verif.Proofs.InvSolAlg
import Verif.Model.NsevInv
/-!
# The recursion for multi-solitons
-/
namespace FNFT
open Complex Filter Spec

local notation "conj" => starRingEnd ℂ

/-- Partial correctness of a loop. -/
theorem forLoop_some {σ : Type*} {n : ℕ} {body : ℕ → σ → Option σ} {s s' : σ} (P : ℕ → σ → Prop) (h : forLoop n body s = some s')
    (h0 : P 0 s) (hstep : ∀ i t t', i < n → P i t → body i t = some t' → P (i + 1) t') : P n s' := by
  induction n generalizing s' with
  | zero => rw [forLoop_zero] at h; cases h; exact h0
  | succ n ih =>
    rw [forLoop_succ] at h
    obtain ⟨t, ht, h⟩ := Option.bind_eq_some_iff.mp h
    exact hstep n t s' (Nat.lt_succ_self n) (ih ht fun i t t' hi => hstep i t t' (Nat.lt_succ_of_lt hi)) h

theorem cdiv_some {x y z : ℂ} (h : cdiv x y = some z) : y ≠ 0 ∧ z = x / y := by
  unfold cdiv at h
  split at h
  · cases h
  · rename_i hy; exact ⟨hy, (Option.some.inj h).symm⟩

theorem cdiv_ok {x y : ℂ} (h : y ≠ 0) : cdiv x y = some (x / y) := by unfold cdiv; rw [if_neg h]

/-- The invariant: ratios of the functions after `i` transforms. -/
def SolInv (s : Bool) (K : ℕ) (V : ℕ → ℕ → ℂ × ℂ) (Q : ℕ → ℂ) (i : ℕ) (st : ℂ × Buf ℂ) : Prop :=
  cjs s st.1 = Q i ∧ st.2.len = K ∧ ∀ j, i ≤ j → j < K → ∃ x, st.2.rd j = some x ∧ RatRel s x (V i j)

/-- What is needed about the functions. -/
structure SolV (lf : ℕ → ℂ) (V : ℕ → ℕ → ℂ × ℂ) (Q : ℕ → ℂ) (K : ℕ) : Prop where
  v : ∀ i j, i < j → j < K → V (i + 1) j = ((lf j - conj (lf i))⁻¹ * (dApp (lf j) (dS1 (lf i) (V i i)) (dS2 (lf i) (V i i)) (V i j)).1,
       (lf j - conj (lf i))⁻¹ * (dApp (lf j) (dS1 (lf i) (V i i)) (dS2 (lf i) (V i i)) (V i j)).2)
  q : ∀ i, i < K → Q (i + 1) = Q i - 2 * I * dS2 (lf i) (V i i)
  ne : ∀ i j, i < K → j < K → lf j - conj (lf i) ≠ 0

theorem solBody_some {s : Bool} {K : ℕ} {bs : Buf ℂ} {lf : ℕ → ℂ} (hb : bs.Holds 0 K lf) {V : ℕ → ℕ → ℂ × ℂ} {Q : ℕ → ℂ}
    (hV : SolV lf V Q K) {i : ℕ} (hi : i < K) {st st' : ℂ × Buf ℂ} (hst : SolInv s K V Q i st) (h : solBody K bs i st = some st') :
    SolInv s K V Q (i + 1) st' := by
  obtain ⟨h1, hlen, h2⟩ := hst
  obtain ⟨xi, hxi, hri⟩ := h2 i le_rfl hi
  have hli := hb i hi; rw [Nat.zero_add] at hli
  unfold solBody at h
  simp only [hxi, hli, Option.bind_eq_bind, Option.bind_some] at h
  obtain ⟨rk, hrk, h⟩ := Option.bind_eq_some_iff.mp h
  have hI := forLoop_some (fun d (rk : Buf ℂ) => rk.len = K ∧ (∀ j, i + 1 ≤ j → j < i + 1 + d → j < K → ∃ x, rk.rd j = some x ∧ RatRel s x (V (i + 1) j)) ∧
    (∀ j, i + 1 + d ≤ j → j < K → ∃ x, rk.rd j = some x ∧ RatRel s x (V i j))) hrk
    ⟨hlen, fun j h1 h2 => absurd h2 (by omega), fun j h1 h3 => h2 j (by omega) h3⟩ (by
      rintro d t t' hd ⟨hl, ha, hc⟩ hbody
      obtain ⟨xj, hxj, hrj⟩ := hc (i + 1 + d) le_rfl (by omega)
      have hlj := hb (i + 1 + d) (by omega); rw [Nat.zero_add] at hlj
      simp only [hxj, hlj, Option.bind_some] at hbody
      obtain ⟨x, hx, hw⟩ := Option.bind_eq_some_iff.mp hbody
      obtain ⟨hden, hxe⟩ := cdiv_some (show cdiv _ _ = some x from hx)
      have hst := (sol_step (li := lf i) (lj := lf (i + 1 + d)) hri hrj (inv_ne_zero (hV.ne i (i + 1 + d) hi (by omega)))).1 hden
      rw [← hV.v i (i + 1 + d) (by omega) (by omega)] at hst
      have hr := Buf.wr_rd hw
      refine ⟨by rw [Buf.wr_len hw, hl], fun j h1 h2 h3 => ?_, fun j h1 h2 => ?_⟩
      · rw [hr j]
        by_cases e : j = i + 1 + d
        · rw [if_pos e, e]; exact ⟨x, rfl, by rw [hxe]; exact hst⟩
        · rw [if_neg e]; exact ha j h1 (by omega) h3
      · rw [hr j, if_neg (by omega)]; exact hc j (by omega) h2)
  cases h
  refine ⟨?_, hI.1, fun j h1 h2 => hI.2.1 j h1 (by omega) h2⟩
  show cjs s (st.1 + 2 * conj xi * solF (lf i) xi * I) = _
  rw [cjs_add, h1, sol_val hri, hV.q i hi]
  ring

/-- Total correctness if there is no division by zero. -/
theorem solBody_total {s : Bool} {K : ℕ} {bs : Buf ℂ} {lf : ℕ → ℂ} (hb : bs.Holds 0 K lf) {V : ℕ → ℕ → ℂ × ℂ} {Q : ℕ → ℂ}
    (hV : SolV lf V Q K) {i : ℕ} (hi : i < K) {st : ℂ × Buf ℂ} (hst : SolInv s K V Q i st)
    (hnz : ∀ j, i < j → j < K → (if s then (V (i + 1) j).1 else (V (i + 1) j).2) ≠ 0) : ∃ st', solBody K bs i st = some st' := by
  obtain ⟨h1, hlen, h2⟩ := hst
  obtain ⟨xi, hxi, hri⟩ := h2 i le_rfl hi
  have hli := hb i hi; rw [Nat.zero_add] at hli
  unfold solBody
  simp only [hxi, hli, Option.bind_eq_bind, Option.bind_some]
  obtain ⟨rk, hrk, _⟩ := forLoop_inv (n := K - (i + 1)) (s := st.2) (body := fun d (rk : Buf ℂ) => do
    let lj ← bs.rd (i + 1 + d)
    let rj ← rk.rd (i + 1 + d)
    let x ← rhoStep (lf i) lj xi (2 * I * ((lf i).im : ℂ) / ((1 + ‖xi‖ * ‖xi‖ : ℝ) : ℂ)) rj
    rk.wr (i + 1 + d) x) (fun d (rk : Buf ℂ) => rk.len = K ∧ (∀ j, i + 1 + d ≤ j → j < K → ∃ x, rk.rd j = some x ∧ RatRel s x (V i j)))
    ⟨hlen, fun j h1 h3 => h2 j (by omega) h3⟩ (by
      rintro d t hd ⟨hl, hc⟩
      obtain ⟨xj, hxj, hrj⟩ := hc (i + 1 + d) le_rfl (by omega)
      have hlj := hb (i + 1 + d) (by omega); rw [Nat.zero_add] at hlj
      have hne := inv_ne_zero (hV.ne i (i + 1 + d) hi (by omega))
      have hst := (sol_step (li := lf i) (lj := lf (i + 1 + d)) hri hrj hne).2
      have hden : rhoDen (lf i) (lf (i + 1 + d)) xi (solF (lf i) xi) xj ≠ 0 := by
        intro h0
        have h3 := hst.mp h0
        apply hnz (i + 1 + d) (by omega) (by omega)
        rw [hV.v i (i + 1 + d) (by omega) (by omega)]
        cases s with
        | true => exact mul_eq_zero_of_right _ h3
        | false => exact mul_eq_zero_of_right _ h3
      have hrs : rhoStep (lf i) (lf (i + 1 + d)) xi (2 * I * ((lf i).im : ℂ) / ((1 + ‖xi‖ * ‖xi‖ : ℝ) : ℂ)) xj = some _ := cdiv_ok hden
      obtain ⟨c, hw, hcl, hc1, hc2⟩ := Buf.wr_spec (b := t) (i := i + 1 + d)
        (rhoNum (lf i) (lf (i + 1 + d)) xi (solF (lf i) xi) xj / rhoDen (lf i) (lf (i + 1 + d)) xi (solF (lf i) xi) xj) (by rw [hl]; omega)
      refine ⟨c, ?_, by rw [hcl, hl], fun j h1 h2 => ?_⟩
      · simp only [hxj, hlj, hrs, Option.bind_eq_bind, Option.bind_some]
        exact hw
      · rw [hc2 j (by omega)]; exact hc j (by omega) h2)
  simp only [Option.bind_eq_bind] at hrk
  rw [hrk]
  exact ⟨_, rfl⟩

/-- The sign of time belongs to the exponent. -/
def sgOf (s : Bool) : ℝ := if s then 1 else -1

/-- The chain for the zero potential. -/
noncomputable def phi0 : ℂ → ℝ → ℂ × ℂ := fun l t => (exp (-I * l * t), 0)
noncomputable def psi0 : ℂ → ℝ → ℂ × ℂ := fun l t => (0, exp (I * l * t))

theorem rat_zero (s : Bool) {l b c : ℂ} (hb : b ≠ 0) (hc : c = if s then b else 1 / b) (t : ℝ) :
    RatRel s (c * exp (sgOf s * 2 * I * l * t)) (dbV phi0 psi0 l b t) := by
  have e1 : (dbV phi0 psi0 l b t).1 = exp (-I * l * t) := by simp [dbV, phi0, psi0]
  have e2 : (dbV phi0 psi0 l b t).2 = -(b * exp (I * l * t)) := by simp [dbV, phi0, psi0]
  cases s with
  | true =>
    refine ⟨by rw [e1]; exact Complex.exp_ne_zero _, ?_⟩
    rw [e1, e2, hc, if_pos rfl, eq_div_iff (Complex.exp_ne_zero _), neg_neg, mul_assoc, ← Complex.exp_add]
    congr 2
    simp only [sgOf]; push_cast; ring
  | false =>
    refine ⟨by rw [e2]; exact neg_ne_zero.mpr (mul_ne_zero hb (Complex.exp_ne_zero _)), ?_⟩
    rw [e1, e2, hc, if_neg (by simp), eq_div_iff (neg_ne_zero.mpr (mul_ne_zero hb (Complex.exp_ne_zero _)))]
    have : 1 / b * exp (sgOf false * 2 * I * l * t) * -(b * exp (I * l * t)) = -(b / b) * (exp (sgOf false * 2 * I * l * t) * exp (I * l * t)) := by ring
    rw [this, div_self hb, ← Complex.exp_add, neg_one_mul]
    congr 2
    simp [sgOf]; ring

theorem solV_chain {lf bf : ℕ → ℂ} {K : ℕ} (hl : ∀ i, i < K → 0 < (lf i).im) (q : ℝ → ℂ) (phi psi : ℂ → ℝ → ℂ × ℂ) (t : ℝ) :
    SolV lf (fun i j => dbNV lf bf q phi psi i j t) (fun i => (dbN lf bf q phi psi i).1 t) K :=
  ⟨fun i j _ _ => dbNV_succ lf bf q phi psi i j t, fun i _ => dbN_q_succ lf bf q phi psi i t,
    fun i j hi hj => sub_conj_ne (hl j hj).le (hl i hi)⟩

/-- The recursion for one point of time. -/
theorem solInit {s : Bool} {K : ℕ} {bs nc : Buf ℂ} {lf bf : ℕ → ℂ} (hb : bs.Holds 0 K lf)
    (hn : nc.Holds 0 K fun i => if s then bf i else 1 / bf i) (hb0 : ∀ i, i < K → bf i ≠ 0) (t : ℝ) :
    ∃ rk, fill 0 K (fun i => do
      let c ← nc.rd i
      let l ← bs.rd i
      return c * exp (sgOf s * 2 * I * l * t)) (Buf.malloc K) = some rk ∧
      SolInv s K (fun i j => dbNV lf bf (fun _ => 0) phi0 psi0 i j t) (fun i => (dbN lf bf (fun _ => 0) phi0 psi0 i).1 t) 0 (0, rk) := by
  obtain ⟨rk, h1, h2, h3⟩ := fill_spec (off := 0) (cnt := K) (b := (Buf.malloc K : Buf ℂ))
    (f := fun i => do
      let c ← nc.rd i
      let l ← bs.rd i
      return c * exp (sgOf s * 2 * I * l * t))
    (fun i => (if s then bf i else 1 / bf i) * exp (sgOf s * 2 * I * lf i * t)) (by
      intro i _ hi
      have a1 := hb i (by omega)
      have a2 := hn i (by omega)
      rw [Nat.zero_add] at a1 a2
      simp only [a1, a2, Option.bind_eq_bind, Option.bind_some, Option.pure_def]) (Or.inl (by simp))
  refine ⟨rk, h1, ?_, by rw [h2]; simp, fun j _ hj => ⟨(if s then bf j else 1 / bf j) * exp (sgOf s * 2 * I * lf j * t), ?_, ?_⟩⟩
  · rw [cjs_zero]; rfl
  · rw [h3 j, if_pos (by omega)]
  · exact rat_zero s (hb0 j hj) rfl t

theorem solPoint_some {s : Bool} {K : ℕ} {bs nc : Buf ℂ} {lf bf : ℕ → ℂ} (hb : bs.Holds 0 K lf) (hl : ∀ i, i < K → 0 < (lf i).im)
    (hn : nc.Holds 0 K fun i => if s then bf i else 1 / bf i) (hb0 : ∀ i, i < K → bf i ≠ 0) {t : ℝ} {x : ℂ}
    (h : solPoint K bs nc (sgOf s) t = some x) : cjs s x = (dbN lf bf (fun _ => 0) phi0 psi0 K).1 t := by
  obtain ⟨rk, h1, h2⟩ := solInit hb hn hb0 t
  unfold solPoint at h
  simp only [h1] at h
  simp only [Option.bind_eq_bind, Option.bind_some] at h
  obtain ⟨st, hst, h⟩ := Option.bind_eq_some_iff.mp h
  cases h
  exact (forLoop_some (SolInv s K _ _) hst h2 fun i t t' hi hP hbd => solBody_some hb (solV_chain hl _ _ _ _) hi hP hbd).1

theorem solPoint_total {s : Bool} {K : ℕ} {bs nc : Buf ℂ} {lf bf : ℕ → ℂ} (hb : bs.Holds 0 K lf) (hl : ∀ i, i < K → 0 < (lf i).im)
    (hn : nc.Holds 0 K fun i => if s then bf i else 1 / bf i) (hb0 : ∀ i, i < K → bf i ≠ 0) {t : ℝ}
    (hnz : ∀ i j, i < j → j < K → (if s then (dbNV lf bf (fun _ => 0) phi0 psi0 (i + 1) j t).1
      else (dbNV lf bf (fun _ => 0) phi0 psi0 (i + 1) j t).2) ≠ 0) :
    ∃ x, solPoint K bs nc (sgOf s) t = some x := by
  obtain ⟨rk, h1, h2⟩ := solInit hb hn hb0 t
  unfold solPoint
  simp only [h1]
  simp only [Option.bind_eq_bind, Option.bind_some]
  obtain ⟨st, hst, _⟩ := forLoop_inv (body := solBody K bs) (SolInv s K _ _) h2 fun i t hi hP => by
    obtain ⟨st', h3⟩ := solBody_total hb (solV_chain hl _ _ _ _) hi hP (hnz i)
    exact ⟨st', h3, solBody_some hb (solV_chain hl _ _ _ _) hi hP h3⟩
  rw [hst]
  exact ⟨_, rfl⟩

end FNFT

import Verif.Proofs.InvEigen
import Verif.Proofs.InvTop
/-!
# The Darboux transform of a seed potential in fnft_nsev_inverse.c
-/
namespace FNFT
open Complex Filter Spec

local notation "conj" => starRingEnd ℂ

theorem dApp_smul (l S1 S2 c : ℂ) (w : ℂ × ℂ) : dApp l S1 S2 (c * w.1, c * w.2) = (c * (dApp l S1 S2 w).1, c * (dApp l S1 S2 w).2) := by
  unfold dApp; refine Prod.ext ?_ ?_ <;> dsimp only <;> ring

/-- The constant that the products of Darboux matrices differ by. -/
noncomputable def dbC (lf : ℕ → ℂ) (l : ℂ) (j : ℕ) : ℂ := ((List.range j).map fun k => l - conj (lf k)).prod

theorem dbC_succ (lf : ℕ → ℂ) (l : ℂ) (j : ℕ) : dbC lf l (j + 1) = dbC lf l j * (l - conj (lf j)) := by
  unfold dbC; rw [List.range_succ, List.map_append, List.prod_append]; simp

theorem dbC_ne {lf : ℕ → ℂ} {l : ℂ} (hl : 0 < l.im) {j : ℕ} (h : ∀ k, k < j → 0 < (lf k).im) : dbC lf l j ≠ 0 := by
  unfold dbC
  refine List.prod_ne_zero fun h0 => ?_
  obtain ⟨k, hk, e⟩ := List.mem_map.mp h0
  exact sub_conj_ne hl.le (h k (List.mem_range.mp hk)) e

section
variable (lf bf : ℕ → ℂ) (Q : ℝ → ℂ) (phi psi : ℂ → ℝ → ℂ × ℂ) (t : ℝ)

/-- The invariant of the loop over the bound states. -/
def DbInv (K i : ℕ) (s : ℂ × Buf ℂ × Buf ℂ) : Prop :=
  s.1 = (dbN lf bf Q phi psi i).1 t ∧ s.2.1.len = K ∧ s.2.2.len = K ∧
    ∀ j, j < i → s.2.1.rd j = some (dS1 (lf j) (dbNV lf bf Q phi psi j j t)) ∧ s.2.2.rd j = some (dS2 (lf j) (dbNV lf bf Q phi psi j j t))

theorem db_inner {K i : ℕ} {l : ℂ} (hl : 0 < l.im) (h : ∀ k, k < i → 0 < (lf k).im) {s : ℂ × Buf ℂ × Buf ℂ} (hs : DbInv lf bf Q phi psi t K i s) :
    forLoop i (fun j (v : (ℂ × ℂ) × (ℂ × ℂ)) => do
      let S1 ← s.2.1.rd j
      let S2 ← s.2.2.rd j
      return (dbApply l S1 S2 v.1, dbApply l S1 S2 v.2)) (phi l t, psi l t) =
    some ((dbC lf l i * ((dbN lf bf Q phi psi i).2.1 l t).1, dbC lf l i * ((dbN lf bf Q phi psi i).2.1 l t).2),
      (dbC lf l i * ((dbN lf bf Q phi psi i).2.2 l t).1, dbC lf l i * ((dbN lf bf Q phi psi i).2.2 l t).2)) := by
  obtain ⟨v, hv, he⟩ := forLoop_inv (n := i) (s := (phi l t, psi l t)) (body := fun j (v : (ℂ × ℂ) × (ℂ × ℂ)) => do
      let S1 ← s.2.1.rd j
      let S2 ← s.2.2.rd j
      return (dbApply l S1 S2 v.1, dbApply l S1 S2 v.2)) (fun j v => v =
      ((dbC lf l j * ((dbN lf bf Q phi psi j).2.1 l t).1, dbC lf l j * ((dbN lf bf Q phi psi j).2.1 l t).2),
      (dbC lf l j * ((dbN lf bf Q phi psi j).2.2 l t).1, dbC lf l j * ((dbN lf bf Q phi psi j).2.2 l t).2)))
    (by simp [dbC, dbN, dbAll]) (by
      rintro j v hj rfl
      obtain ⟨r1, r2⟩ := hs.2.2.2 j hj
      refine ⟨_, by simp only [r1, r2, Option.bind_eq_bind, Option.bind_some]; rfl, ?_⟩
      have hne := sub_conj_ne hl.le (h j hj)
      have hd : ∀ w, dbApply l (dS1 (lf j) (dbNV lf bf Q phi psi j j t)) (dS2 (lf j) (dbNV lf bf Q phi psi j j t)) w =
        dApp l (dS1 (lf j) (dbNV lf bf Q phi psi j j t)) (dS2 (lf j) (dbNV lf bf Q phi psi j j t)) w := fun _ => rfl
      rw [hd, hd, dApp_smul, dApp_smul, dbN_succ, dbC_succ]
      unfold dbSol
      dsimp only
      refine Prod.ext (Prod.ext ?_ ?_) (Prod.ext ?_ ?_) <;> dsimp only <;> field_simp)
  rw [hv, he]

theorem db_vals {m β : ℂ} {v : ℂ × ℂ} (h : v.2 ≠ 0) (hb : β = v.1 / v.2) :
    (((‖β‖ * ‖β‖ : ℝ) : ℂ) * m + conj m) / (1 + ((‖β‖ * ‖β‖ : ℝ) : ℂ)) = dS1 m v ∧
      2 * I * (m.im : ℂ) * β / (1 + ((‖β‖ * ‖β‖ : ℝ) : ℂ)) = dS2 m v := by
  have hr : RatRel false (-β) v := ⟨h, by rw [hb, neg_div]⟩
  obtain ⟨s1, s2⟩ := dS_false (m := m) hr
  rw [s1, s2]
  unfold solF
  rw [norm_neg]
  have hn : (1 : ℂ) + ((‖β‖ * ‖β‖ : ℝ) : ℂ) ≠ 0 := by
    intro e
    have : (1 + ‖β‖ * ‖β‖ : ℝ) = 0 := by exact_mod_cast e
    nlinarith [mul_self_nonneg ‖β‖]
  have hn2 : ((1 + ‖β‖ * ‖β‖ : ℝ) : ℂ) = 1 + ((‖β‖ * ‖β‖ : ℝ) : ℂ) := by push_cast; ring
  rw [hn2, ← sub_conj_im]
  constructor
  · rw [div_eq_iff hn, sub_mul, div_mul_cancel₀ _ hn]; ring
  · field_simp

theorem dbBody_step {K D n i : ℕ} {bs nc ph ps : Buf ℂ} (hK : i < K) (hl : ∀ k, k < K → 0 < (lf k).im) (hb : bs.Holds 0 K lf) (hn : nc.Holds 0 K bf)
    (h1 : ph.rd (n + i * D) = some (phi (lf i) t).1) (h2 : ph.rd (n + (K + i) * D) = some (phi (lf i) t).2)
    (h3 : ps.rd (n + i * D) = some (psi (lf i) t).1) (h4 : ps.rd (n + (K + i) * D) = some (psi (lf i) t).2)
    {s : ℂ × Buf ℂ × Buf ℂ} (hs : DbInv lf bf Q phi psi t K i s) :
    ((dbNV lf bf Q phi psi i i t).2 ≠ 0 → ∃ s', dbBody K D n bs nc ph ps i s = some s') ∧
      ∀ s', dbBody K D n bs nc ph ps i s = some s' → (dbNV lf bf Q phi psi i i t).2 ≠ 0 ∧ DbInv lf bf Q phi psi t K (i + 1) s' := by
  have hin := db_inner lf bf Q phi psi t (hl i hK) (fun k hk => hl k (by omega)) hs
  have eb := hb i hK
  have en := hn i hK
  rw [Nat.zero_add] at eb en
  have hc := dbC_ne (hl i hK) (fun k (hk : k < i) => hl k (by omega))
  have eV1 : dbC lf (lf i) i * ((dbN lf bf Q phi psi i).2.1 (lf i) t).1 - bf i * (dbC lf (lf i) i * ((dbN lf bf Q phi psi i).2.2 (lf i) t).1) =
      dbC lf (lf i) i * (dbNV lf bf Q phi psi i i t).1 := by unfold dbNV dbV; dsimp only; ring
  have eV2 : dbC lf (lf i) i * ((dbN lf bf Q phi psi i).2.1 (lf i) t).2 - bf i * (dbC lf (lf i) i * ((dbN lf bf Q phi psi i).2.2 (lf i) t).2) =
      dbC lf (lf i) i * (dbNV lf bf Q phi psi i i t).2 := by unfold dbNV dbV; dsimp only; ring
  have hin' : forLoop i (fun j (v : (ℂ × ℂ) × (ℂ × ℂ)) => do
      let S1 ← s.2.1.rd j
      let S2 ← s.2.2.rd j
      return (dbApply (lf i) S1 S2 v.1, dbApply (lf i) S1 S2 v.2)) (((phi (lf i) t).1, (phi (lf i) t).2), ((psi (lf i) t).1, (psi (lf i) t).2)) = _ := hin
  have key : dbBody K D n bs nc ph ps i s = (cdiv (dbC lf (lf i) i * (dbNV lf bf Q phi psi i i t).1) (dbC lf (lf i) i * (dbNV lf bf Q phi psi i i t).2)).bind
      fun beta => (s.2.1.wr i ((((‖beta‖ * ‖beta‖ : ℝ) : ℂ) * lf i + conj (lf i)) / (1 + ((‖beta‖ * ‖beta‖ : ℝ) : ℂ)))).bind fun S1 =>
        (s.2.2.wr i (2 * I * ((lf i).im : ℂ) * beta / (1 + ((‖beta‖ * ‖beta‖ : ℝ) : ℂ)))).bind fun S2 =>
          some (s.1 - 2 * I * (2 * I * ((lf i).im : ℂ) * beta / (1 + ((‖beta‖ * ‖beta‖ : ℝ) : ℂ))), S1, S2) := by
    unfold dbBody
    simp only [h1, h2, h3, h4, eb, en, Option.bind_eq_bind, Option.bind_some]
    simp only [Option.bind_eq_bind] at hin'
    rw [hin']
    simp only [Option.bind_some, eV1, eV2]
    rfl
  obtain ⟨b1, w1, l1, r1, o1⟩ := Buf.wr_spec (b := s.2.1) (i := i) (dS1 (lf i) (dbNV lf bf Q phi psi i i t)) (by rw [hs.2.1]; exact hK)
  obtain ⟨b2, w2, l2, r2, o2⟩ := Buf.wr_spec (b := s.2.2) (i := i) (dS2 (lf i) (dbNV lf bf Q phi psi i i t)) (by rw [hs.2.2.1]; exact hK)
  have full : (dbNV lf bf Q phi psi i i t).2 ≠ 0 → dbBody K D n bs nc ph ps i s = some (s.1 - 2 * I * dS2 (lf i) (dbNV lf bf Q phi psi i i t), b1, b2) := by
    intro hv
    rw [key, cdiv_ok (mul_ne_zero hc hv), Option.bind_some]
    have hβ : dbC lf (lf i) i * (dbNV lf bf Q phi psi i i t).1 / (dbC lf (lf i) i * (dbNV lf bf Q phi psi i i t).2) =
      (dbNV lf bf Q phi psi i i t).1 / (dbNV lf bf Q phi psi i i t).2 := mul_div_mul_left _ _ hc
    obtain ⟨v1, v2⟩ := db_vals (m := lf i) hv hβ
    rw [v1, v2, w1, Option.bind_some, w2, Option.bind_some]
  refine ⟨fun hv => ⟨_, full hv⟩, fun s' h => ?_⟩
  have hv : (dbNV lf bf Q phi psi i i t).2 ≠ 0 := by
    rw [key] at h
    obtain ⟨β, hβ, _⟩ := Option.bind_eq_some_iff.mp h
    exact right_ne_zero_of_mul (cdiv_some hβ).1
  refine ⟨hv, ?_⟩
  rw [full hv] at h
  cases h
  refine ⟨?_, by rw [l1]; exact hs.2.1, by rw [l2]; exact hs.2.2.1, fun j hj => ?_⟩
  · rw [dbN_q_succ, hs.1]
  · dsimp only
    by_cases e : j = i
    · rw [e]; exact ⟨r1, r2⟩
    · rw [o1 j e, o2 j e]; exact hs.2.2.2 j (by omega)

end

/-- The samples that the Darboux transform gives. -/
theorem invDarboux_ok {K D : ℕ} {bs nc q : Buf ℂ} {lf bf qf : ℕ → ℂ} {T0 T1 eps : ℝ} (hbs : bs.Holds 0 K lf) (hnc : nc.Holds 0 K bf) (hq : q.Holds 0 D qf)
    (hD : 2 ≤ D) (hT : T0 < T1) (he : eps = (T1 - T0) / ((D : ℝ) - 1)) (hl : ∀ k, k < K → 0 < (lf k).im)
    (hk : ∀ i n, i < K → n < D → qf n * conj (qf n) + lf i * lf i ≠ 0) :
    ((∀ n i, n < D → i < K → (dbNV lf bf (seedQ T0 eps D qf) (pcPhi T0 (halfL (eps / 2) qf 0 (D - 1))) (pcPsi T0 (halfL (eps / 2) qf 0 (D - 1))) i i (T0 + eps * n)).2 ≠ 0) →
      ∃ q', invDarboux K bs nc D T0 T1 q = some q') ∧
    ∀ q', invDarboux K bs nc D T0 T1 q = some q' → q'.len = q.len ∧ ∀ n, n < D → q'.rd n =
      some ((dbN lf bf (seedQ T0 eps D qf) (pcPhi T0 (halfL (eps / 2) qf 0 (D - 1))) (pcPsi T0 (halfL (eps / 2) qf 0 (D - 1))) K).1 (T0 + eps * n)) := by
  have hD1 : (0 : ℝ) < (D : ℝ) - 1 := by
    have : (2 : ℝ) ≤ D := by exact_mod_cast hD
    linarith
  have he0 : 0 < eps := by rw [he]; exact div_pos (by linarith) hD1
  have hT1 : T0 + ((D : ℝ) - 1) * eps = T1 := by rw [he]; field_simp; ring
  obtain ⟨E, hE, e1, e2⟩ := invEigen_ok (T0 := T0) (T1 := T1) hbs hq hD hk
  rw [← he] at e1 e2
  have hlen : D ≤ q.len := by
    have := hq (D - 1) (by omega)
    have := Buf.rd_lt this
    omega
  have hph : ∀ i n, i < K → n < D → E.1.rd (n + i * D) = some (pcPhi T0 (halfL (eps / 2) qf 0 (D - 1)) (lf i) (T0 + eps * n)).1 ∧
      E.1.rd (n + (K + i) * D) = some (pcPhi T0 (halfL (eps / 2) qf 0 (D - 1)) (lf i) (T0 + eps * n)).2 := by
    intro i n hi hn
    rw [pcPhi_grid he0 qf (lf i) hn]
    obtain ⟨a1, a2⟩ := e1 i hi n hn trivial
    rw [show n + i * D = i * D + n by ring, show n + (K + i) * D = i * D + K * D + n by ring]
    exact ⟨a1, a2⟩
  have hps : ∀ i n, i < K → n < D → E.2.rd (n + i * D) = some (pcPsi T0 (halfL (eps / 2) qf 0 (D - 1)) (lf i) (T0 + eps * n)).1 ∧
      E.2.rd (n + (K + i) * D) = some (pcPsi T0 (halfL (eps / 2) qf 0 (D - 1)) (lf i) (T0 + eps * n)).2 := by
    intro i n hi hn
    rw [pcPsi_grid he0 hD qf (lf i) hn, hT1]
    obtain ⟨a1, a2⟩ := e2 i hi n hn trivial
    rw [show n + i * D = i * D + n by ring, show n + (K + i) * D = i * D + K * D + n by ring]
    exact ⟨a1, a2⟩
  obtain ⟨phi, hphi⟩ : ∃ phi, phi = pcPhi T0 (halfL (eps / 2) qf 0 (D - 1)) := ⟨_, rfl⟩
  obtain ⟨psi, hpsi⟩ : ∃ psi, psi = pcPsi T0 (halfL (eps / 2) qf 0 (D - 1)) := ⟨_, rfl⟩
  rw [← hphi] at hph
  rw [← hpsi] at hps
  rw [← hphi, ← hpsi]
  have hinit : ∀ n, n < D → DbInv lf bf (seedQ T0 eps D qf) phi psi (T0 + eps * n) K 0 (qf n, Buf.malloc K, Buf.malloc K) := by
    intro n hn
    refine ⟨?_, by simp, by simp, fun j hj => by omega⟩
    exact (seedQ_grid he0 qf hn).symm
  have hred : invDarboux K bs nc D T0 T1 q = forLoop D (fun n (q : Buf ℂ) => do
      let qn ← q.rd n
      let s ← forLoop K (dbBody K D n bs nc E.1 E.2) (qn, Buf.malloc K, Buf.malloc K)
      q.wr n s.1) q := by
    unfold invDarboux
    rw [hE]; rfl
  have hstep := fun n i (hn : n < D) (hi : i < K) s (hs : DbInv lf bf (seedQ T0 eps D qf) phi psi (T0 + eps * n) K i s) =>
    dbBody_step lf bf (seedQ T0 eps D qf) phi psi (T0 + eps * n) (D := D) (n := n) hi hl hbs hnc (hph i n hi hn).1 (hph i n hi hn).2 (hps i n hi hn).1 (hps i n hi hn).2 hs
  refine ⟨fun hnz => ?_, fun q' h => ?_⟩
  · rw [hred]
    obtain ⟨q', h, _⟩ := forLoop_inv (n := D) (s := q) (body := fun n (q : Buf ℂ) => do
      let qn ← q.rd n
      let s ← forLoop K (dbBody K D n bs nc E.1 E.2) (qn, Buf.malloc K, Buf.malloc K)
      q.wr n s.1) (fun n b => b.len = q.len ∧ ∀ k, n ≤ k → k < D → b.rd k = some (qf k)) ⟨rfl, fun k _ hk' => by
        have := hq k hk'; rwa [Nat.zero_add] at this⟩ (by
      rintro n b hn ⟨g1, g2⟩
      obtain ⟨s, hs, _⟩ := forLoop_inv (n := K) (s := (qf n, Buf.malloc K, Buf.malloc K)) (body := dbBody K D n bs nc E.1 E.2)
        (fun i s => DbInv lf bf (seedQ T0 eps D qf) phi psi (T0 + eps * n) K i s) (hinit n hn) (by
          intro i s hi hs
          obtain ⟨s', hs'⟩ := (hstep n i hn hi s hs).1 (hnz n i hn hi)
          exact ⟨s', hs', ((hstep n i hn hi s hs).2 s' hs').2⟩)
      obtain ⟨c, w, hlc, _, ho⟩ := Buf.wr_spec (b := b) (i := n) s.1 (by omega)
      refine ⟨c, ?_, hlc.trans g1, fun k hk1 hk2 => ?_⟩
      · simp only [g2 n le_rfl hn, Option.bind_eq_bind, Option.bind_some]
        rw [hs, Option.bind_some, w]
      · rw [ho k (by omega)]; exact g2 k (by omega) hk2)
    exact ⟨q', h⟩
  · rw [hred] at h
    have := forLoop_some (fun n (b : Buf ℂ) => b.len = q.len ∧ (∀ k, n ≤ k → k < D → b.rd k = some (qf k)) ∧
      ∀ k, k < n → k < D → b.rd k = some ((dbN lf bf (seedQ T0 eps D qf) phi psi K).1 (T0 + eps * k))) h ⟨rfl, fun k _ hk' => by
        have := hq k hk'; rwa [Nat.zero_add] at this, fun k hk => by omega⟩ (by
      rintro n b b' hn ⟨g1, g2, g3⟩ hb
      simp only [g2 n le_rfl hn, Option.bind_eq_bind, Option.bind_some] at hb
      obtain ⟨s, hs, hw⟩ := Option.bind_eq_some_iff.mp hb
      have hinv := forLoop_some (fun i s => DbInv lf bf (seedQ T0 eps D qf) phi psi (T0 + eps * n) K i s) hs (hinit n hn) (by
          intro i s s' hi hs hs'
          exact ((hstep n i hn hi s hs).2 s' hs').2)
      obtain ⟨c, w, hlc, hr, ho⟩ := Buf.wr_spec (b := b) (i := n) s.1 (by omega)
      rw [w] at hw
      cases hw
      refine ⟨hlc.trans g1, fun k hk1 hk2 => ?_, fun k hk1 hk2 => ?_⟩
      · rw [ho k (by omega)]; exact g2 k (by omega) hk2
      · by_cases e : k = n
        · rw [e, hr, hinv.1]
        · rw [ho k e]; exact g3 k (by omega) hk2)
    exact ⟨this.1, fun n hn => this.2.2 n hn hn⟩

end FNFT

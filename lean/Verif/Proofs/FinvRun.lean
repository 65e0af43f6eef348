import Verif.Proofs.Finv
import Verif.Proofs.Sinc
/-! The recursion of the fast inverse scattering, continued: induction over the levels. -/
namespace FNFT
open Polynomial Matrix Kiss

theorem finvRun_push {P : FinvPar} {i fuel : ℕ} {s s1 : FinvSt} (h : finvStep P i s = some (.push s1)) :
    finvRun P (fuel + 1) i s = finvRun P fuel (i + 1) s1 := by
  rw [finvRun, h]; rfl

theorem finvRun_pop {P : FinvPar} {i fuel : ℕ} {s s1 : FinvSt} (h : finvStep P i s = some (.pop s1)) :
    finvRun P (fuel + 1) i s = if i = 0 then some (s1.ret, s1) else finvRun P fuel (i - 1) s1 := by
  rw [finvRun, h]; rfl

theorem finvRun_leave {P : FinvPar} {i fuel : ℕ} {ec : ℤ} {s s1 : FinvSt} (h : finvStep P i s = some (.leave ec s1)) :
    finvRun P (fuel + 1) i s = some (some ec, s1) := by
  rw [finvRun, h]; rfl

/-- Parameters for `2^k0` samples. -/
structure FinvParOK (P : FinvPar) (k0 L : ℕ) : Prop where
  size : P.size = k0 + 1
  plans : ∀ j, j ≤ k0 → ∃ pl len, P.pl j = some pl ∧ FinvPlanOK pl (2 ^ (k0 - j)) len ∧ len ≤ L

/-- What holds between the iterations at level `i`. -/
structure FinvOK (k0 L i : ℕ) (s : FinvSt) : Prop where
  lT1 : ∀ j, j ≤ k0 → (s.mem (.T1 j)).len = 4 * (2 * 2 ^ (k0 - j) + 1)
  lT1i : ∀ j, j ≤ k0 → (s.mem (.T1i j)).len = 4 * (2 ^ (k0 - j) / 2 + 1)
  lT2i : ∀ j, j ≤ k0 → (s.mem (.T2i j)).len = 4 * (2 ^ (k0 - j) + 1)
  z : ∀ j, i ≤ j → j ≤ k0 → ∀ e, e < 4 → ∀ t, t < 2 ^ (k0 - j) / 2 → (s.mem (.T2i j)).rd (e * (2 ^ (k0 - j) + 1) + t) = some 0
  bufs : BufsOK s.B L
  qlen : s.q.len = 2 ^ k0

theorem FinvOK.mono {k0 L i j : ℕ} {s : FinvSt} (h : FinvOK k0 L i s) (hij : i ≤ j) : FinvOK k0 L j s :=
  ⟨h.lT1, h.lT1i, h.lT2i, fun l hl => h.z l (by omega), h.bufs, h.qlen⟩

/-- Arrays of the levels less than `i`. -/
def FLoc.low (i : ℕ) : FLoc → Prop
  | .tm => True
  | .T1 j => j < i
  | .T1i j => j < i
  | .T2i j => j < i

/-- What a level changes. -/
structure LevelRes (P : FinvPar) (k0 L i d : ℕ) (f : FinvFrame) (La : PMat 2) (xf : ℕ → ℂ) (s s' : FinvSt) : Prop where
  ok : FinvOK k0 L i s'
  fr : ∀ j, j < i → s'.fr j = s.fr j
  len : ∀ l, (s'.mem l).len = (s.mem l).len
  mem : ∀ l : FLoc, l.low i → (∀ Ti, f.Ti = some Ti → l ≠ Ti.1) → s'.mem l = s.mem l
  ti : ∀ Ti, f.Ti = some Ti → (∃ G, IsInv G La d ∧ RevHolds (s'.mem Ti.1) Ti.2 f.Ti_stride d G) ∧
    ∀ e t, e < 4 → t < Ti.2 → (s'.mem Ti.1).rd (e * f.Ti_stride + t) = (s.mem Ti.1).rd (e * f.Ti_stride + t)
  q : ∀ n, n < d → s'.q.rd (f.q + n) = some (xf n)
  qo : ∀ n, n < f.q ∨ f.q + d ≤ n → s'.q.rd n = s.q.rd n
  ret : s.ret = some SUCCESS → s'.ret = some SUCCESS

/-- Number of iterations for a level with `2^k` samples. -/
def finvSteps : ℕ → ℕ
  | 0 => 1
  | k + 1 => 3 + 2 * finvSteps k

theorem finvSteps_eq (k : ℕ) : finvSteps k + 3 = 4 * 2 ^ k := by
  induction k with
  | zero => rfl
  | succ k ih => rw [finvSteps, pow_succ]; omega

theorem degLE_fin {a b c e : ℂ[X]} {d : ℕ} (ha : a.natDegree ≤ d) (hb : b.natDegree ≤ d) (hc : c.natDegree ≤ d) (he : e.natDegree ≤ d) :
    DegLE d (!![a, b; c, e] : PMat 2) :=
  Fin.forall_fin_two.2 ⟨Fin.forall_fin_two.2 ⟨ha, hb⟩, Fin.forall_fin_two.2 ⟨hc, he⟩⟩

theorem degX (c : ℂ) : (C c * X : ℂ[X]).natDegree ≤ 1 := natDegree_C_mul_le _ _ |>.trans natDegree_X_le

/-- The inverse of one layer. -/
theorem lay_inv (Q R c : ℂ) (h : 1 - Q * R ≠ 0) (hc : c ≠ 0) :
    IsInv (!![C c * X, -(C (c * Q) * X); -C (c * R), C c] : PMat 2) (lay Q R) 1 := by
  refine ⟨?_, c * (1 - Q * R), mul_ne_zero hc h, ?_⟩
  · refine degLE_fin (degX c) ?_ ?_ ?_
    · rw [natDegree_neg]; exact degX _
    · rw [natDegree_neg, natDegree_C]; exact Nat.zero_le _
    · rw [natDegree_C]; exact Nat.zero_le _
  · rw [lay, Matrix.mul_fin_two, Matrix.one_fin_two, Matrix.smul_of]
    congr 1
    simp only [Matrix.smul_cons, smul_eq_mul, Matrix.smul_empty, C_mul, C_sub, C_1, pow_one, mul_zero, mul_one]
    congr 1
    · congr 1
      · ring
      · congr 1
        ring
    · congr 1
      congr 1
      · ring
      · congr 1
        ring

theorem storeList_spec : ∀ (l : List (ℕ × ℂ)) (b : Buf ℂ), l.Pairwise (fun p r => p.1 ≠ r.1) → (∀ p ∈ l, p.1 < b.len) →
    ∃ b', storeList l b = some b' ∧ b'.len = b.len ∧ (∀ p ∈ l, b'.rd p.1 = some p.2) ∧ ∀ j, (∀ p ∈ l, j ≠ p.1) → b'.rd j = b.rd j
  | [], b, _, _ => ⟨b, rfl, rfl, fun _ h => by simp at h, fun _ _ => rfl⟩
  | p :: l, b, hp, hl => by
    obtain ⟨b1, e1, l1, r1, o1⟩ := Buf.wr_spec p.2 (hl p (by simp))
    obtain ⟨b2, e2, l2, r2, o2⟩ := storeList_spec l b1 (List.pairwise_cons.1 hp).2 (fun r hr => by rw [l1]; exact hl r (by simp [hr]))
    refine ⟨b2, ?_, l2.trans l1, ?_, ?_⟩
    · unfold storeList at e2 ⊢
      rw [List.foldlM_cons, e1]; exact e2
    · intro r hr
      rcases List.mem_cons.1 hr with rfl | hr
      · rw [o2 _ (fun u hu => (List.pairwise_cons.1 hp).1 u hu), r1]
      · exact r2 r hr
    · intro j hj
      rw [o2 j (fun r hr => hj r (by simp [hr])), o1 j (hj p (by simp))]

theorem ent_fin (a b c e : ℂ[X]) : ent (!![a, b; c, e] : PMat 2) 0 = a ∧ ent (!![a, b; c, e] : PMat 2) 1 = b ∧
    ent (!![a, b; c, e] : PMat 2) 2 = c ∧ ent (!![a, b; c, e] : PMat 2) 3 = e :=
  ⟨ent_idx (m := 2) _ 0 0, ent_idx (m := 2) _ 0 1, ent_idx (m := 2) _ 1 0, ent_idx (m := 2) _ 1 1⟩

theorem finv_base {P : FinvPar} {k0 L i : ℕ} {s : FinvSt} {f : FinvFrame} {Ti : FLoc × ℕ} {A : PMat 2} {V : Fin 2 → ℂ[X]} {Q R x : ℂ}
    (hok : FinvOK k0 L i s) (hf : s.fr i = some f) (hpos : f.start_pos = 0) (hdeg : f.deg = 1) (hTi : f.Ti = some Ti)
    (hlow : ∃ j, j < i ∧ (Ti.1 = .T1i j ∨ Ti.1 = .T2i j))
    (hst : Ti.2 + 2 ≤ f.Ti_stride) (hlen : 4 * f.Ti_stride ≤ (s.mem Ti.1).len)
    (hT : RevHolds (s.mem f.T.1) f.T.2 f.T_stride 1 A) (hcol : ColOK A (lay Q R) V 1) (hV : (V 0).coeff 0 ≠ 0)
    (hQ : Q = P.kind.qFromR R) (hQR : 1 - Q * R ≠ 0) (hx : finvSample P Q R = some x) (hq : f.q < 2 ^ k0) :
    ∃ s', finvStep P i s = some (.pop s') ∧ LevelRes P k0 L i 1 f (lay Q R) (fun _ => x) s s' := by
  have h11 := hT 0 (by norm_num) 1 le_rfl
  have h21 := hT 2 (by norm_num) 1 le_rfl
  have e0 : (ent A 0).coeff 0 = (V 0).coeff 0 := by
    rw [show ent A 0 = A 0 0 from ent_idx (m := 2) A 0 0]
    have := hcol 0 (by norm_num) 0
    rw [lay] at this
    simpa [Matrix.mulVec, dotProduct, Fin.sum_univ_two] using this
  have e2 : (ent A 2).coeff 0 = R * (V 0).coeff 0 := by
    rw [show ent A 2 = A 1 0 from ent_idx (m := 2) A 1 0]
    have := hcol 0 (by norm_num) 1
    rw [lay] at this
    simpa [Matrix.mulVec, dotProduct, Fin.sum_univ_two] using this
  rw [Nat.zero_mul, Nat.add_zero, Nat.sub_self, e0] at h11
  rw [Nat.sub_self, e2] at h21
  have hR : R * (V 0).coeff 0 / (V 0).coeff 0 = R := mul_div_cancel_right₀ _ hV
  set scl := 1 / csqrt (1 - Q * R) with hscl
  have hscl0 : scl ≠ 0 := one_div_ne_zero (fun h => hQR (csqrt_eq_zero.1 h))
  obtain ⟨b, eb, lb, rb, ob⟩ := storeList_spec
      [(Ti.2, scl), (Ti.2 + 1, 0), (Ti.2 + f.Ti_stride, -scl * Q), (Ti.2 + f.Ti_stride + 1, 0),
          (Ti.2 + 2 * f.Ti_stride, 0), (Ti.2 + 2 * f.Ti_stride + 1, -scl * R),
          (Ti.2 + 3 * f.Ti_stride, 0), (Ti.2 + 3 * f.Ti_stride + 1, scl)] (s.mem Ti.1)
      (by simp only [List.pairwise_cons, List.mem_cons, List.not_mem_nil, or_false, forall_eq_or_imp, forall_eq]
          refine ⟨⟨?_, ?_, ?_, ?_, ?_, ?_, ?_⟩, ⟨?_, ?_, ?_, ?_, ?_, ?_⟩, ⟨?_, ?_, ?_, ?_, ?_⟩, ⟨?_, ?_, ?_, ?_⟩, ⟨?_, ?_, ?_⟩, ⟨?_, ?_⟩, ?_, ?_⟩
          all_goals first | omega | simp)
      (by simp only [List.mem_cons, List.not_mem_nil, or_false, forall_eq_or_imp, forall_eq]
          refine ⟨?_, ?_, ?_, ?_, ?_, ?_, ?_, ?_⟩ <;> omega)
  obtain ⟨q', eq', lq', rq', oq'⟩ := Buf.wr_spec (b := s.q) x (hok.qlen ▸ hq)
  simp only [List.mem_cons, List.not_mem_nil, or_false, forall_eq_or_imp, forall_eq] at rb ob
  refine ⟨{ s with mem := Function.update s.mem Ti.1 b, q := q' }, ?_, ?_⟩
  · unfold finvStep
    rw [hf]
    simp only [Option.bind_eq_bind, Option.bind_some]
    rw [if_neg (by omega), if_neg (by omega), if_neg (by omega), if_pos hdeg]
    unfold finvBase
    simp only [Option.bind_eq_bind, h21, h11, Option.bind_some]
    rw [if_neg hV, hR, ← hQ, if_neg hQR, ← hscl, hTi]
    simp only [Option.bind_some, eb, hx, eq']
    rfl
  · have hlen' : ∀ l, (Function.update s.mem Ti.1 b l).len = (s.mem l).len := by
      intro l
      rcases eq_or_ne l Ti.1 with rfl | h
      · rw [Function.update_self, lb]
      · rw [Function.update_of_ne h]
    have hj : ∀ j, i ≤ j → FLoc.T2i j ≠ Ti.1 := by
      intro j hj h
      obtain ⟨j', hj', h' | h'⟩ := hlow <;> rw [h'] at h
      · cases h
      · cases h; omega
    refine ⟨⟨fun j hj => (hlen' _).trans (hok.lT1 j hj), fun j hj => (hlen' _).trans (hok.lT1i j hj),
      fun j hj => (hlen' _).trans (hok.lT2i j hj), ?_, hok.bufs, lq'.trans hok.qlen⟩, fun _ _ => rfl, hlen', ?_, ?_, ?_, ?_, fun h => h⟩
    · intro j h1 h2
      simp only [Function.update_of_ne (hj j h1)]
      exact hok.z j h1 h2
    · intro l _ h
      exact Function.update_of_ne (h _ hTi) _ _
    · intro Ti' hTi'
      rw [hTi] at hTi'
      cases hTi'
      simp only [Function.update_self]
      refine ⟨⟨_, lay_inv Q R scl hQR hscl0, ?_⟩, ?_⟩
      · intro e he j hj
        obtain ⟨r0, r1, r2, r3, r4, r5, r6, r7⟩ := rb
        obtain ⟨n0, n1, n2, n3⟩ := ent_fin (C scl * X) (-(C (scl * Q) * X)) (-C (scl * R)) (C scl)
        have hXc : ∀ c : ℂ, (C c * X : ℂ[X]).coeff 0 = 0 ∧ (C c * X : ℂ[X]).coeff 1 = c := fun c => by
          constructor
          · rw [mul_coeff_zero]; simp
          · rw [coeff_C_mul_X]; simp
        have hC1 : ∀ c : ℂ, (C c : ℂ[X]).coeff 1 = 0 := fun c => coeff_C_of_ne_zero (by norm_num)
        have hC0 : ∀ c : ℂ, (C c : ℂ[X]).coeff 0 = c := fun c => coeff_C_zero
        rcases (by omega : e = 0 ∨ e = 1 ∨ e = 2 ∨ e = 3) with rfl | rfl | rfl | rfl <;>
          rcases (by omega : j = 0 ∨ j = 1) with rfl | rfl
        · rw [n0]
          simp only [zero_mul, Nat.add_zero, Nat.sub_zero, (hXc _).2]
          exact r0
        · rw [n0]
          simp only [zero_mul, Nat.add_zero, Nat.sub_self, (hXc _).1]
          exact r1
        · rw [n1]
          simp only [one_mul, Nat.add_zero, Nat.sub_zero, coeff_neg, (hXc _).2]
          rw [r2, neg_mul]
        · rw [n1]
          simp only [one_mul, Nat.add_zero, Nat.sub_self, coeff_neg, (hXc _).1]
          rw [r3, neg_zero]
        · rw [n2]
          simp only [Nat.add_zero, Nat.sub_zero, coeff_neg, hC1]
          rw [r4, neg_zero]
        · rw [n2]
          simp only [Nat.sub_self, coeff_neg, hC0]
          rw [r5, neg_mul]
        · rw [n3]
          simp only [Nat.add_zero, Nat.sub_zero, hC1]
          rw [r6]
        · rw [n3]
          simp only [Nat.sub_self, hC0]
          rw [r7]
      · intro e t he ht
        refine ob _ ?_
        rcases (by omega : e = 0 ∨ e = 1 ∨ e = 2 ∨ e = 3) with rfl | rfl | rfl | rfl <;>
          refine ⟨?_, ?_, ?_, ?_, ?_, ?_, ?_, ?_⟩ <;> omega
    · intro n hn
      rw [show n = 0 by omega, Nat.add_zero]
      exact rq'
    · intro n hn
      exact oq' n (by omega)

end FNFT

import Verif.Model.AknsPre
import Verif.Proofs.Misc
import Verif.Proofs.Resample
/-!
# Execution of the signal preprocessing
-/
namespace FNFT
open AknsDisc

theorem nested_inv {σ : Type*} {n up : ℕ} {body : ℕ → ℕ → σ → Option σ} {s : σ} (P : ℕ → σ → Prop) (h0 : P 0 s)
    (hstep : ∀ j m t, j < n → m < up → P (up * j + m) t → ∃ t', body j m t = some t' ∧ P (up * j + m + 1) t') :
    ∃ t, forLoop n (fun j s => forLoop up (body j) s) s = some t ∧ P (up * n) t := by
  refine forLoop_inv (fun j t => P (up * j) t) (by simpa using h0) ?_
  intro j t hj hP
  obtain ⟨t', h1, h2⟩ := forLoop_inv (n := up) (body := body j) (s := t) (fun m t => P (up * j + m) t) hP
    (fun m t hm h => hstep j m t hj hm h)
  exact ⟨t', h1, by rw [Nat.mul_succ]; exact h2⟩

/-- Both arrays are filled up to index `k`. -/
def Filled2 (L : ℕ) (g h : ℕ → ℂ) (k : ℕ) (s : Buf ℂ × Buf ℂ) : Prop :=
  s.1.len = L ∧ s.2.len = L ∧ (∀ i, i < k → s.1.rd i = some (g i)) ∧ ∀ i, i < k → s.2.rd i = some (h i)

theorem Filled2.step {L : ℕ} {g h : ℕ → ℂ} {k : ℕ} {s : Buf ℂ × Buf ℂ} (hs : Filled2 L g h k s) (hk : k < L) :
    Filled2 L g h (k + 1) (s.1.set k (g k), s.2.set k (h k)) := by
  obtain ⟨l1, l2, h1, h2⟩ := hs
  refine ⟨by simp [l1], by simp [l2], ?_, ?_⟩
  · intro i hi
    rw [Buf.rd_set _ (by omega)]
    split_ifs with hc
    · rw [hc]
    · exact h1 i (by omega)
  · intro i hi
    rw [Buf.rd_set _ (by omega)]
    split_ifs with hc
    · rw [hc]
    · exact h2 i (by omega)

theorem mul_lt_of_sub {s Dsub D j : ℕ} (h : (Dsub - 1) * s < D) (hj : j < Dsub) : s * j < D := by
  have : s * j ≤ (Dsub - 1) * s := by
    rw [Nat.mul_comm]; exact Nat.mul_le_mul_right _ (by omega)
  omega

theorem prePoint_ok {D Dsub s : ℕ} {q : Buf ℂ} {x : ℕ → ℂ} (rf : ℂ → ℂ) (hq : q.Holds 0 D x)
    (hb : (Dsub - 1) * s < D) :
    ∃ t, forLoop Dsub (prePointBody s q rf) (Buf.malloc Dsub, Buf.malloc Dsub) = some t ∧
      Filled2 Dsub (fun j => x (s * j)) (fun j => rf (x (s * j))) Dsub t := by
  refine forLoop_inv (fun k t => Filled2 Dsub (fun j => x (s * j)) (fun j => rf (x (s * j))) k t) ?_ ?_
  · exact ⟨by simp, by simp, by omega, by omega⟩
  · intro j t hj hP
    have hr := hq (s * j) (mul_lt_of_sub hb hj)
    rw [Nat.zero_add] at hr
    refine ⟨_, ?_, hP.step hj⟩
    simp only [prePointBody, hr, Option.bind_eq_bind, Option.bind_some, Buf.wr_eq _ (show j < t.1.len by rw [hP.1]; exact hj),
      Buf.wr_eq _ (show j < t.2.len by rw [hP.2.1]; exact hj)]
    rfl

theorem mapM_rd {src : List (Buf ℂ)} {f : List (ℕ → ℂ)} {D i : ℕ} (hi : i < D)
    (h : List.Forall₂ (fun b x => Buf.Holds b 0 D x) src f) :
    src.mapM (fun b => b.rd i) = some (f.map fun x => x i) := by
  induction h with
  | nil => rfl
  | cons h1 _ ih =>
    have := h1 i hi
    rw [Nat.zero_add] at this
    simp [List.mapM_cons, this, ih]

theorem preCF_ok {D Dsub s up : ℕ} {w : List ℂ} {src : List (Buf ℂ)} {f : List (ℕ → ℂ)} {rf : ℂ → ℂ}
    (hsrc : List.Forall₂ (fun b x => Buf.Holds b 0 D x) src f) (hb : (Dsub - 1) * s < D)
    (X : ℕ → List ℂ → ℂ) (hX : ∀ m, m < up → ∀ v : List ℂ, v.length = f.length → preRow w m v = some (X m v)) :
    ∃ t, forLoop Dsub (preCFBody up s w src rf) (Buf.malloc (Dsub * up), Buf.malloc (Dsub * up)) = some t ∧
      Filled2 (Dsub * up) (fun i => X (i % up) (f.map fun x => x (s * (i / up))))
        (fun i => X (i % up) (f.map fun x => rf (x (s * (i / up))))) (Dsub * up) t := by
  rw [Nat.mul_comm Dsub up]
  refine nested_inv (fun k t => Filled2 (up * Dsub) (fun i => X (i % up) (f.map fun x => x (s * (i / up))))
        (fun i => X (i % up) (f.map fun x => rf (x (s * (i / up))))) k t) ?_ ?_
  · exact ⟨by simp, by simp, by omega, by omega⟩
  · intro j m t hj hm hP
    have hlt : up * j + m < up * Dsub := by
      calc up * j + m < up * j + up := by omega
        _ = up * (j + 1) := by ring
        _ ≤ up * Dsub := Nat.mul_le_mul_left _ hj
    have e1 : (up * j + m) / up = j := by
      rw [Nat.mul_add_div (by omega), Nat.div_eq_of_lt hm, Nat.add_zero]
    have e2 : (up * j + m) % up = m := by rw [Nat.mul_add_mod, Nat.mod_eq_of_lt hm]
    refine ⟨_, ?_, hP.step hlt⟩
    simp only [mapM_rd (mul_lt_of_sub hb hj) hsrc, Option.bind_eq_bind, Option.bind_some,
      hX m hm _ (List.length_map _), hX m hm (List.map rf (f.map fun x => x (s * j))) (by simp),
      Buf.wr_eq _ (show up * j + m < t.1.len by rw [hP.1]; exact hlt),
      Buf.wr_eq _ (show up * j + m < t.2.len by rw [hP.2.1]; exact hlt), e1, e2]
    simp only [List.map_map]; rfl

/-- Finite differences with zero boundary values: what `ES4` stores. -/
noncomputable def es4Val (h : ℝ) (Dsub : ℕ) (x : ℕ → ℂ) (i : ℕ) : ℂ :=
  let j := i / 3
  let nx := if j + 1 < Dsub then x (j + 1) else 0
  let pv := if 0 < j then x (j - 1) else 0
  if i % 3 = 0 then x j
  else if i % 3 = 1 then (nx - pv) / (2 * (h : ℂ))
  else (nx - 2 * x j + pv) / (h : ℂ) ^ 2

theorem es4Val_0 (h : ℝ) (Dsub : ℕ) (x : ℕ → ℂ) (j : ℕ) : es4Val h Dsub x (3 * j) = x j := by
  have h1 : 3 * j % 3 = 0 := by omega
  have h2 : 3 * j / 3 = j := by omega
  simp [es4Val, h1, h2]

theorem es4Val_1 (h : ℝ) (Dsub : ℕ) (x : ℕ → ℂ) (j : ℕ) : es4Val h Dsub x (3 * j + 1) =
    ((if j + 1 < Dsub then x (j + 1) else 0) - (if 0 < j then x (j - 1) else 0)) / (2 * (h : ℂ)) := by
  have h1 : (3 * j + 1) % 3 = 1 := by omega
  have h2 : (3 * j + 1) / 3 = j := by omega
  simp [es4Val, h1, h2]

theorem es4Val_2 (h : ℝ) (Dsub : ℕ) (x : ℕ → ℂ) (j : ℕ) : es4Val h Dsub x (3 * j + 2) =
    ((if j + 1 < Dsub then x (j + 1) else 0) - 2 * x j + (if 0 < j then x (j - 1) else 0)) / (h : ℂ) ^ 2 := by
  have h1 : (3 * j + 2) % 3 = 2 := by omega
  have h2 : (3 * j + 2) / 3 = j := by omega
  simp [es4Val, h1, h2]

theorem preES4_ok {D Dsub s : ℕ} {q : Buf ℂ} {x : ℕ → ℂ} (eps : ℝ) (rf : ℕ → ℂ → ℂ) (hq : q.Holds 0 D x)
    (hD : 2 ≤ Dsub) (hb : (Dsub - 1) * s < D) :
    ∃ t, preES4 Dsub s eps q rf (Buf.malloc (Dsub * 3), Buf.malloc (Dsub * 3)) = some t ∧
      Filled2 (Dsub * 3) (es4Val (eps * s) Dsub (fun j => x (s * j)))
        (fun i => rf (i % 3) (es4Val (eps * s) Dsub (fun j => x (s * j)) i)) (Dsub * 3) t := by
  set g := es4Val (eps * s) Dsub (fun j => x (s * j)) with hg
  set h : ℝ := eps * s with hh
  -- samples
  obtain ⟨b0, e0, l0, r0⟩ : ∃ b0, forLoop Dsub (fun j (b : Buf ℂ) => (do
      let v ← q.rd (s * j)
      b.wr (3 * j) v)) (Buf.malloc (Dsub * 3)) = some b0 ∧ b0.len = Dsub * 3 ∧
        ∀ j, j < Dsub → b0.rd (3 * j) = some (x (s * j)) := by
    refine forLoop_inv (fun k (b : Buf ℂ) => b.len = Dsub * 3 ∧ ∀ j, j < k → b.rd (3 * j) = some (x (s * j))) ?_ ?_
    · exact ⟨by simp, by omega⟩
    · rintro k b hk ⟨hl, hr⟩
      have hx := hq (s * k) (mul_lt_of_sub hb hk)
      rw [Nat.zero_add] at hx
      refine ⟨b.set (3 * k) (x (s * k)), ?_, by simp [hl], ?_⟩
      · simp only [hx, Option.bind_eq_bind, Option.bind_some]
        exact Buf.wr_eq _ (by omega)
      · intro j hj
        rw [Buf.rd_set _ (by omega)]
        split_ifs with hc
        · rw [show j = k by omega]
        · exact hr j (by omega)
  -- boundary
  obtain ⟨b1, e1, l1, r1, r1'⟩ : ∃ b1, preES4Bnd h (Dsub * 3) b0 = some b1 ∧ b1.len = Dsub * 3 ∧
      (∀ j, j < Dsub → b1.rd (3 * j) = some (x (s * j))) ∧
      (∀ i, i < 3 ∨ Dsub * 3 - 3 ≤ i → i < Dsub * 3 → b1.rd i = some (g i)) := by
    have a3 := r0 1 (by omega)
    have a0 := r0 0 (by omega)
    have am := r0 (Dsub - 2) (by omega)
    have al := r0 (Dsub - 1) (by omega)
    rw [show 3 * (Dsub - 2) = Dsub * 3 - 6 by omega] at am
    rw [show 3 * (Dsub - 1) = Dsub * 3 - 3 by omega] at al
    simp only [Nat.mul_one, Nat.mul_zero] at a3 a0
    set v1 : ℂ := (x s - 0) / (2 * (h : ℂ)) with hv1
    set v2 : ℂ := (x s - 2 * x 0 + 0) / ((h ^ 2 : ℝ) : ℂ) with hv2
    set v3 : ℂ := (0 - x (s * (Dsub - 2))) / (2 * (h : ℂ)) with hv3
    set v4 : ℂ := (0 - 2 * x (s * (Dsub - 1)) + x (s * (Dsub - 2))) / ((h ^ 2 : ℝ) : ℂ) with hv4
    refine ⟨(((b0.set 1 v1).set 2 v2).set (Dsub * 3 - 2) v3).set (Dsub * 3 - 1) v4, ?_, by simp [l0], ?_, ?_⟩
    · have w1 := Buf.rd_set v1 (show 1 < b0.len by omega)
      have w2 := Buf.rd_set v2 (show 2 < (b0.set 1 v1).len by rw [Buf.set_len]; omega)
      have w3 := Buf.rd_set v3 (show Dsub * 3 - 2 < ((b0.set 1 v1).set 2 v2).len by simp only [Buf.set_len]; omega)
      unfold preES4Bnd
      simp only [a3, Option.bind_eq_bind, Option.bind_some]
      rw [← hv1, Buf.wr_eq v1 (show 1 < b0.len by omega), Option.bind_some, w1, if_neg (by omega), a3,
        Option.bind_some, w1, if_neg (by omega), a0, Option.bind_some, ← hv2,
        Buf.wr_eq v2 (show 2 < (b0.set 1 v1).len by rw [Buf.set_len]; omega), Option.bind_some,
        w2, if_neg (by omega), w1, if_neg (by omega), am, Option.bind_some, ← hv3,
        Buf.wr_eq v3 (show Dsub * 3 - 2 < ((b0.set 1 v1).set 2 v2).len by simp only [Buf.set_len]; omega),
        Option.bind_some, w3, if_neg (by omega), w2, if_neg (by omega), w1, if_neg (by omega), al,
        Option.bind_some, w3, if_neg (by omega), w2, if_neg (by omega), w1, if_neg (by omega), am,
        Option.bind_some, ← hv4]
      exact Buf.wr_eq _ (by simp only [Buf.set_len]; omega)
    · intro j hj
      rw [Buf.rd_set _ (by simp only [Buf.set_len]; omega), Buf.rd_set _ (by simp only [Buf.set_len]; omega),
        Buf.rd_set _ (by simp only [Buf.set_len]; omega), Buf.rd_set _ (by omega),
        if_neg (by omega), if_neg (by omega), if_neg (by omega), if_neg (by omega)]
      exact r0 j hj
    · intro i hi hi'
      rw [Buf.rd_set _ (by simp only [Buf.set_len]; omega), Buf.rd_set _ (by simp only [Buf.set_len]; omega),
        Buf.rd_set _ (by simp only [Buf.set_len]; omega), Buf.rd_set _ (by omega)]
      by_cases c4 : i = Dsub * 3 - 1
      · rw [if_pos c4, c4, show Dsub * 3 - 1 = 3 * (Dsub - 1) + 2 by omega, hg, es4Val_2, if_neg (by omega),
          if_pos (by omega), show Dsub - 1 - 1 = Dsub - 2 by omega, hv4]
        push_cast; rfl
      rw [if_neg c4]
      by_cases c3 : i = Dsub * 3 - 2
      · rw [if_pos c3, c3, show Dsub * 3 - 2 = 3 * (Dsub - 1) + 1 by omega, hg, es4Val_1, if_neg (by omega),
          if_pos (by omega), show Dsub - 1 - 1 = Dsub - 2 by omega, hv3]
      rw [if_neg c3]
      by_cases c2 : i = 2
      · rw [if_pos c2, c2, show (2 : ℕ) = 3 * 0 + 2 by omega, hg, es4Val_2, if_pos (by omega),
          if_neg (by omega), hv2]
        push_cast; simp
      rw [if_neg c2]
      by_cases c1 : i = 1
      · rw [if_pos c1, c1, show (1 : ℕ) = 3 * 0 + 1 by omega, hg, es4Val_1, if_pos (by omega),
          if_neg (by omega), hv1]
        simp
      rw [if_neg c1]
      have hj : ∃ j, j < Dsub ∧ i = 3 * j := by
        rcases hi with hi | hi
        · exact ⟨0, by omega, by omega⟩
        · exact ⟨Dsub - 1, by omega, by omega⟩
      obtain ⟨j, hj1, hj2⟩ := hj
      rw [hj2, r0 j hj1, hg, es4Val_0]
  -- interior
  obtain ⟨b2, e2, l2, r2, r2', r2''⟩ : ∃ b2, forLoop (Dsub - 2) (preES4Body h) b1 = some b2 ∧ b2.len = Dsub * 3 ∧
      (∀ j, j < Dsub → b2.rd (3 * j) = some (x (s * j))) ∧
      (∀ i, Dsub * 3 - 3 ≤ i → i < Dsub * 3 → b2.rd i = some (g i)) ∧
      (∀ i, i < 3 * (Dsub - 2 + 1) → b2.rd i = some (g i)) := by
    refine forLoop_inv (fun k (b : Buf ℂ) => b.len = Dsub * 3 ∧
      (∀ j, j < Dsub → b.rd (3 * j) = some (x (s * j))) ∧
      (∀ i, Dsub * 3 - 3 ≤ i → i < Dsub * 3 → b.rd i = some (g i)) ∧
      (∀ i, i < 3 * (k + 1) → b.rd i = some (g i))) ?_ ?_
    · exact ⟨l1, r1, fun i h1 h2 => r1' i (Or.inr h1) h2, fun i hi => r1' i (Or.inl (by omega)) (by omega)⟩
    · rintro k b hk ⟨hl, hr, hr', hr''⟩
      have p1 := hr (k + 2) (by omega)
      have p2 := hr (k + 1) (by omega)
      have p3 := hr k (by omega)
      rw [show 3 * (k + 2) = 3 * (k + 1) + 3 by omega] at p1
      rw [show 3 * k = 3 * (k + 1) - 3 by omega] at p3
      have g1 : g (3 * (k + 1) + 1) = (x (s * (k + 2)) - x (s * k)) / (2 * (h : ℂ)) := by
        rw [hg, es4Val_1, if_pos (by omega), if_pos (by omega)]; rfl
      have g2 : g (3 * (k + 1) + 2) = (x (s * (k + 2)) - 2 * x (s * (k + 1)) + x (s * k)) / ((h ^ 2 : ℝ) : ℂ) := by
        rw [hg, es4Val_2, if_pos (by omega), if_pos (by omega)]; push_cast; rfl
      refine ⟨(b.set (3 * (k + 1) + 1) (g (3 * (k + 1) + 1))).set (3 * (k + 1) + 2) (g (3 * (k + 1) + 2)),
        ?_, by simp [hl], ?_, ?_, ?_⟩
      · unfold preES4Body
        simp only [p1, p3, Option.bind_eq_bind, Option.bind_some,
          Buf.wr_eq _ (show 3 * (k + 1) + 1 < b.len by omega), ← g1]
        simp only [Buf.rd_set _ (show 3 * (k + 1) + 1 < b.len by omega),
          if_neg (show ¬ 3 * (k + 1) + 3 = 3 * (k + 1) + 1 by omega),
          if_neg (show ¬ 3 * (k + 1) = 3 * (k + 1) + 1 by omega),
          if_neg (show ¬ 3 * (k + 1) - 3 = 3 * (k + 1) + 1 by omega), p1, p2, p3, Option.bind_some, ← g2]
        exact Buf.wr_eq _ (by simp only [Buf.set_len]; omega)
      · intro j hj
        rw [Buf.rd_set _ (by simp only [Buf.set_len]; omega), Buf.rd_set _ (by omega), if_neg (by omega),
          if_neg (by omega)]
        exact hr j hj
      · intro i hi hi'
        rw [Buf.rd_set _ (by simp only [Buf.set_len]; omega), Buf.rd_set _ (by omega), if_neg (by omega),
          if_neg (by omega)]
        exact hr' i hi hi'
      · intro i hi
        rw [Buf.rd_set _ (by simp only [Buf.set_len]; omega), Buf.rd_set _ (by omega)]
        split_ifs with c1 c2
        · rw [c1]
        · rw [c2]
        · by_cases c3 : i = 3 * (k + 1)
          · rw [c3, p2, hg, es4Val_0]
          · exact hr'' i (by omega)
  have hall : ∀ i, i < Dsub * 3 → b2.rd i = some (g i) := by
    intro i hi
    by_cases c : Dsub * 3 - 3 ≤ i
    · exact r2' i c hi
    · exact r2'' i (by omega)
  -- r
  obtain ⟨b3, e3, l3, r3⟩ := nested_inv (n := Dsub) (up := 3) (s := (Buf.malloc (Dsub * 3) : Buf ℂ))
    (body := fun j i (b : Buf ℂ) => (do
      let v ← b2.rd (3 * j + i)
      b.wr (3 * j + i) (rf i v)))
    (fun k (b : Buf ℂ) => b.len = Dsub * 3 ∧ ∀ i, i < k → b.rd i = some (rf (i % 3) (g i)))
    ⟨by simp, by omega⟩ (by
      rintro j m b hj hm ⟨hl, hr⟩
      refine ⟨b.set (3 * j + m) (rf m (g (3 * j + m))), ?_, by simp [hl], ?_⟩
      · simp only [hall (3 * j + m) (by omega), Option.bind_eq_bind, Option.bind_some]
        exact Buf.wr_eq _ (by omega)
      · intro i hi
        rw [Buf.rd_set _ (by omega)]
        split_ifs with hc
        · rw [hc, show (3 * j + m) % 3 = m by omega]
        · exact hr i (by omega))
  refine ⟨(b2, b3), ?_, l2, l3, hall, fun i hi => r3 i (by omega)⟩
  unfold preES4
  dsimp only
  rw [e0]
  simp only [Option.bind_eq_bind, Option.bind_some]
  rw [← hh, e1]
  simp only [Option.bind_some]
  rw [e2]
  simp only [Option.bind_some]
  simp only [Option.bind_eq_bind] at e3
  rw [e3]
  rfl

theorem pre_arith (D Dsub0 : ℕ) (hD : 2 ≤ D) :
    let d := if (if Dsub0 < 2 then 2 else Dsub0) > D then D else (if Dsub0 < 2 then 2 else Dsub0)
    let s := roundDiv D d
    let m := roundDiv D s
    1 ≤ s ∧ 2 ≤ m ∧ m ≤ D ∧ (m - 1) * s < D ∧
      (2 ≤ Dsub0 → Dsub0 ∣ D → m = Dsub0 ∧ s * m = D) ∧ (D ≤ Dsub0 → m = D ∧ s = 1) := by
  intro d s m
  have hd2 : 2 ≤ d := by simp only [d]; split_ifs <;> omega
  have hdD : d ≤ D := by simp only [d]; split_ifs <;> omega
  rcases Nat.lt_or_ge D 3 with h | h
  · have hD2 : D = 2 := by omega
    have hd : d = 2 := by omega
    have hs : s = 1 := by simp only [s]; rw [roundDiv_eq _ _ (by omega), hD2, hd]
    have hm : m = 2 := by simp only [m]; rw [roundDiv_eq _ _ (by omega), hD2, hs]
    rw [hs, hm, hD2]
    refine ⟨by omega, by omega, by omega, by omega, ?_, by omega⟩
    intro h1 h2
    have := Nat.le_of_dvd (by omega) h2
    omega
  · obtain ⟨hs1, hm2, hmD, hlt, hdiv⟩ := downsample_arith D d h hd2 hdD
    have e1 : s = (2 * D + d) / (2 * d) := roundDiv_eq D d (by omega)
    rw [← e1] at hs1 hm2 hmD hlt hdiv
    have e2 : m = (2 * D + s) / (2 * s) := roundDiv_eq D s (by omega)
    rw [← e2] at hm2 hmD hlt hdiv
    refine ⟨hs1, hm2, hmD, hlt, ?_, ?_⟩
    · intro h2 hdvd
      have hle : Dsub0 ≤ D := Nat.le_of_dvd (by omega) hdvd
      have hdd : d = Dsub0 := by simp only [d]; split_ifs <;> omega
      obtain ⟨h5, h6⟩ := hdiv (hdd ▸ hdvd)
      exact ⟨by rw [h5, hdd], by rw [h5]; exact h6⟩
    · intro hle
      have hdd : d = D := by simp only [d]; split_ifs <;> omega
      obtain ⟨h5, h6⟩ := hdiv (by rw [hdd])
      refine ⟨by rw [h5, hdd], ?_⟩
      rw [hdd] at h6
      exact Nat.eq_of_mul_eq_mul_right (show 0 < D by omega) (by rw [h6, Nat.one_mul])

theorem preResample_ok {D : ℕ} (hD : 3 ≤ D) (hlt : D < 2 * 3 ^ 32) {eps : ℝ} (he : eps ≠ 0) (delta : ℝ) {q : Buf ℂ}
    {x : ℕ → ℂ} (hq : q.Holds 0 D x) :
    ∃ b, preResample D q eps delta = some (.ok b) ∧ b.Holds 0 D (resampled D eps delta x) := by
  obtain ⟨r, h1, -, h3, -⟩ := misc_resample_ok D hD hlt eps delta he q (Buf.malloc D) x hq (by simp)
  refine ⟨r, ?_, h3⟩
  unfold preResample
  rw [h1]; rfl

end FNFT

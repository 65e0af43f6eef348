import Verif.Proofs.InvSeed
/-!
# fnft_nsev_inverse with both spectra
-/
namespace FNFT
open Complex Filter Spec

local notation "conj" => starRingEnd ℂ

/-- The frequencies of the continuous spectrum. -/
noncomputable def invXi (XI0 XI1 : ℝ) (M i : ℕ) : ℝ := XI0 + i * ((XI1 - XI0) / ((M : ℝ) - 1))

theorem blaschke_succ (lf : ℕ → ℂ) (k : ℕ) (l : ℂ) :
    blaschke ((List.range (k + 1)).map lf) l = blaschke ((List.range k).map lf) l * ((l - lf k) / (l - conj (lf k))) := by
  unfold blaschke; rw [List.range_succ, List.map_append, List.map_append, List.prod_append]; simp

/-- The precompensation multiplies with Blaschke factors. -/
theorem invPrecomp_ok {M K : ℕ} {cs bs : Buf ℂ} {cf lf : ℕ → ℂ} {XI0 XI1 : ℝ} (hc : cs.Holds 0 M cf) (hb : bs.Holds 0 K lf) (hl : ∀ k, k < K → 0 < (lf k).im) :
    ∃ cs', invPrecomp M cs XI0 XI1 K bs = some cs' ∧ cs'.len = cs.len ∧
      cs'.Holds 0 M (fun i => cf i * blaschke ((List.range K).map lf) (invXi XI0 XI1 M i)) := by
  unfold invPrecomp
  by_cases hK : K = 0
  · rw [if_pos hK]
    refine ⟨cs, rfl, rfl, ?_⟩
    rw [hK]
    simpa [blaschke] using hc
  rw [if_neg hK]
  dsimp only
  obtain ⟨b, h1, h2, h3⟩ := forLoop_inv (n := M) (s := cs) (body := fun i (b : Buf ℂ) => forLoop K (fun k (b : Buf ℂ) => do
      let v ← b.rd i
      let l ← bs.rd k
      let f ← cdiv (((XI0 + i * ((XI1 - XI0) / ((M : ℝ) - 1)) : ℝ) : ℂ) - l) (((XI0 + i * ((XI1 - XI0) / ((M : ℝ) - 1)) : ℝ) : ℂ) - conj l)
      b.wr i (v * f)) b)
    (fun i (b : Buf ℂ) => b.len = cs.len ∧ ∀ j, j < M → b.rd j = some (if j < i then cf j * blaschke ((List.range K).map lf) (invXi XI0 XI1 M j) else cf j))
    ⟨rfl, fun j hj => by have := hc j hj; rw [Nat.zero_add] at this; simpa using this⟩ (by
      rintro i b hi ⟨g1, g2⟩
      obtain ⟨c, k1, k2, k3, k4⟩ := forLoop_inv (n := K) (s := b) (body := fun k (b : Buf ℂ) => do
          let v ← b.rd i
          let l ← bs.rd k
          let f ← cdiv (((XI0 + i * ((XI1 - XI0) / ((M : ℝ) - 1)) : ℝ) : ℂ) - l) (((XI0 + i * ((XI1 - XI0) / ((M : ℝ) - 1)) : ℝ) : ℂ) - conj l)
          b.wr i (v * f))
        (fun k (c : Buf ℂ) => c.len = cs.len ∧ c.rd i = some (cf i * blaschke ((List.range k).map lf) (invXi XI0 XI1 M i)) ∧ ∀ j, j ≠ i → c.rd j = b.rd j)
        ⟨g1, by rw [g2 i hi]; simp [blaschke], fun _ _ => rfl⟩ (by
          rintro k c hk ⟨q1, q2, q3⟩
          have eb := hb k hk
          rw [Nat.zero_add] at eb
          have hne : ((XI0 + i * ((XI1 - XI0) / ((M : ℝ) - 1)) : ℝ) : ℂ) - conj (lf k) ≠ 0 := sub_conj_ne (le_of_eq (Complex.ofReal_im _).symm) (hl k hk)
          have hlen : i < c.len := by
            have := hc i hi
            rw [Nat.zero_add] at this
            rw [q1]; exact Buf.rd_lt this
          obtain ⟨d, w1, w2, w3, w4⟩ := Buf.wr_spec (b := c) (i := i)
            (cf i * blaschke ((List.range k).map lf) (invXi XI0 XI1 M i) * ((((XI0 + i * ((XI1 - XI0) / ((M : ℝ) - 1)) : ℝ) : ℂ) - lf k) / (((XI0 + i * ((XI1 - XI0) / ((M : ℝ) - 1)) : ℝ) : ℂ) - conj (lf k)))) hlen
          refine ⟨d, ?_, w2.trans q1, ?_, fun j hj => (w4 j hj).trans (q3 j hj)⟩
          · simp only [q2, eb, cdiv_ok hne, Option.bind_eq_bind, Option.bind_some]
            exact w1
          · rw [w3, blaschke_succ, ← mul_assoc]; rfl)
      refine ⟨c, k1, k2, fun j hj => ?_⟩
      by_cases e : j = i
      · rw [e, k3, if_pos (by omega)]
      · rw [k4 j e, g2 j hj]
        by_cases h : j < i
        · rw [if_pos h, if_pos (by omega)]
        · rw [if_neg h, if_neg (by omega)])
  refine ⟨b, h1, h2, fun i hi => ?_⟩
  rw [Nat.zero_add, h3 i hi, if_pos hi]

/-- The top level with continuous spectrum. -/
theorem inverse_cont {M K D : ℕ} {cs q : Buf ℂ} {bs nc : Option (Buf ℂ)} {T0 T1 : ℝ} {XI : Option (ℝ × ℝ)} {kappa : ℤ} {o : InvOpts} {g : Garbage}
    (hM : M % 2 = 0) (hDM : D ≤ M) (hkap : kappa = 1 ∨ kappa = -1) (hKk : 0 < K → kappa = 1) (hbs : 0 < K → bs ≠ none) (hnc : 0 < K → nc ≠ none)
    (hlow : invLower K (bs.getD (Buf.malloc 0)) = some false) (hD : ∃ p, 1 ≤ p ∧ D = 2 ^ p) (hT : T0 < T1)
    (hd : o.disc = .D2SPLIT2A ∨ o.disc = .D2SPLIT2_MODAL) (hXI : XI ≠ none ∨ o.cs = .B_OF_TAU) :
    fnft_nsev_inverse M (some cs) XI K bs nc D (some q) (some (T0, T1)) kappa o g = (do
      let C ← invCont M cs (XI.getD (0, 0)) K (bs.getD (Buf.malloc 0)) D q T0 T1 kappa o
      if C.1 ≠ SUCCESS then return ⟨C.1, some C.2.1, some C.2.2⟩
      else
        let R ← invDisc K (bs.getD (Buf.malloc 0)) (nc.getD (Buf.malloc 0)) D C.2.2 T0 T1 true o g
        return ⟨R.1, some C.2.1, some R.2⟩) := by
  obtain ⟨p, hp, rfl⟩ := hD
  have h2 : ¬ (2 ^ p < 2 ∨ 2 ^ p &&& (2 ^ p - 1) ≠ 0) := by
    rw [two_pow_and]
    have : 2 ^ 1 ≤ 2 ^ p := Nat.pow_le_pow_right (by norm_num) hp
    simp; omega
  have hd' : ¬ (o.disc ≠ .D2SPLIT2A ∧ o.disc ≠ .D2SPLIT2_MODAL) := by rcases hd with h | h <;> simp [h]
  unfold fnft_nsev_inverse
  dsimp only
  rw [if_neg (by simp), if_neg (by simp [hM]), if_neg (by simp; omega), if_neg h2, if_neg (not_not.mpr hT),
    if_neg (by rcases hkap with h | h <;> simp [h]), if_neg (by rintro ⟨a, b⟩; exact b (hKk a)), if_neg (by rintro ⟨a, b⟩; exact hbs a b)]
  simp only [hlow, Option.bind_eq_bind, Option.bind_some, Bool.false_eq_true, if_false]
  rw [if_neg (by rintro ⟨a, b⟩; exact hnc a b), if_neg hd', if_neg (by simp), if_neg (by rintro ⟨a, _, b⟩; rcases hXI with h | h; exact h a; exact b h)]

/-- The continuous part with bound states. -/
theorem invCont_precomp {M K D : ℕ} {cs cs' bs b0 q : Buf ℂ} {XI : ℝ × ℝ} {T0 T1 : ℝ} {kappa : ℤ} {o : InvOpts}
    (h : if o.cs = .REFLECTION_COEFFICIENT then invPrecomp M cs XI.1 XI.2 K bs = some cs' else cs' = cs) (hcs : ∀ n, o.cs ≠ .other n)
    (hdeg : D * nse_degree o.disc ≠ 0) :
    invCont M cs XI K bs D q T0 T1 kappa o = invCont M cs' XI 0 b0 D q T0 T1 kappa o := by
  have e : ∀ deg, invTransfer M cs XI K bs D T0 T1 deg kappa o = invTransfer M cs' XI 0 b0 D T0 T1 deg kappa o := by
    intro deg
    unfold invTransfer
    cases ho : o.cs with
    | REFLECTION_COEFFICIENT =>
      rw [ho, if_pos rfl] at h
      simp only [h]
      have : invPrecomp M cs' XI.1 XI.2 0 b0 = some cs' := by unfold invPrecomp; rw [if_pos rfl]
      rw [this]
    | B_OF_XI => rw [ho, if_neg (by simp)] at h; rw [h]
    | B_OF_TAU => rw [ho, if_neg (by simp)] at h; rw [h]
    | other n => exact absurd ho (hcs n)
  unfold invCont
  simp only [e]
  simp only [if_neg hdeg]

end FNFT

import Verif.Proofs.NsevMixed
import Verif.Props.NseDisc
/-!
# Proofs: Richardson extrapolation of the continuous spectrum
-/
namespace FNFT
open Complex AknsDisc

variable {D Dg : ℕ} {q r : Buf ℂ} {qf rf : ℕ → ℂ} {T0 T1 eps : ℝ} {kappa : ℤ} {o : NsevOpts} {a : AknsDisc}

theorem richContBody_ok {n M : ℕ} (hM : 0 < M) {scl eps_sub XI0 dxi : ℝ} {sub c0 : Buf ℂ} {x y : ℕ → ℂ}
    (hc : c0.Holds 0 (n * M) x) (hs : sub.Holds 0 (n * M) y) :
    ∃ c', forLoop M (richContBody n M scl eps_sub XI0 dxi sub) c0 = some c' ∧ c'.len = c0.len ∧
      (∀ j, n * M ≤ j → c'.rd j = c0.rd j) ∧
      c'.Holds 0 (n * M) (fun j => if |XI0 + dxi * (j % M : ℕ)| < 0.9 * Real.pi / (2 * eps_sub) then richStep scl (x j) (y j) else x j) := by
  obtain ⟨out, hout⟩ : ∃ out : ℕ → ℂ, out = fun j => if |XI0 + dxi * (j % M : ℕ)| < 0.9 * Real.pi / (2 * eps_sub) then
    richStep scl (x j) (y j) else x j := ⟨_, rfl⟩
  rw [← hout]
  have hidx : ∀ i j, i < M → j < n → i + j * M < n * M := fun i j hi hj => by
    have : (j + 1) * M ≤ n * M := Nat.mul_le_mul_right _ hj
    rw [Nat.add_mul] at this
    omega
  have hmod : ∀ i j, i < M → (i + j * M) % M = i := fun i j hi => by rw [Nat.add_mul_mod_self_right]; exact Nat.mod_eq_of_lt hi
  have hdiv : ∀ i j, i < M → (i + j * M) / M = j := fun i j hi => by
    rw [Nat.add_mul_div_right _ _ hM, Nat.div_eq_of_lt hi, Nat.zero_add]
  have hrec : ∀ idx, idx = idx % M + idx / M * M := fun idx => by
    have := Nat.mod_add_div idx M
    rw [Nat.mul_comm] at this
    exact this.symm
  have hx : ∀ k, k < n * M → c0.rd k = some (x k) := fun k hk => by simpa using hc k hk
  have hy : ∀ k, k < n * M → sub.rd k = some (y k) := fun k hk => by simpa using hs k hk
  have key := forLoop_inv (n := M) (body := richContBody n M scl eps_sub XI0 dxi sub) (s := c0)
    (fun k c => c.len = c0.len ∧ ∀ j, c.rd j = if j < n * M ∧ j % M < k then some (out j) else c0.rd j) ⟨rfl, fun j => by simp⟩ ?_
  · obtain ⟨c', h1, h2, h3⟩ := key
    refine ⟨c', h1, h2, fun j hj => by rw [h3, if_neg (by omega)], fun j hj => ?_⟩
    rw [Nat.zero_add, h3, if_pos ⟨hj, Nat.mod_lt _ hM⟩]
  · rintro i c hi ⟨hl, hrd⟩
    have hlen : n * M ≤ c.len ∨ n = 0 := by
      rcases Nat.eq_zero_or_pos n with h | h
      · exact Or.inr h
      · left
        have hpos : 0 < n * M := Nat.mul_pos h hM
        have := Buf.rd_lt (hx (n * M - 1) (by omega))
        omega
    unfold richContBody
    split_ifs with hcond
    · have key2 := forLoop_inv (n := n) (body := fun j (c : Buf ℂ) => do
          let x ← c.rd (i + j * M)
          let y ← sub.rd (i + j * M)
          c.wr (i + j * M) (richStep scl x y)) (s := c)
        (fun l b => b.len = c0.len ∧ ∀ j, b.rd j = if j < n * M ∧ (j % M < i ∨ j % M = i ∧ j / M < l) then some (out j) else c0.rd j)
        ⟨hl, fun j => by rw [hrd]; simp⟩ ?_
      · obtain ⟨b, h1, h2, h3⟩ := key2
        refine ⟨b, h1, h2, fun j => ?_⟩
        rw [h3]
        by_cases hj : j < n * M
        · have hq : j / M < n := (Nat.div_lt_iff_lt_mul hM).mpr hj
          refine if_congr ?_ rfl rfl
          omega
        · rw [if_neg (by tauto), if_neg (by tauto)]
      · rintro l b hlt ⟨b1, b2⟩
        have hb := hidx i l hi hlt
        have e1 : b.rd (i + l * M) = some (x (i + l * M)) := by
          rw [b2, hmod i l hi, hdiv i l hi, if_neg (by omega)]
          exact hx _ hb
        have e2 := hy _ hb
        have hbl : i + l * M < b.len := Buf.rd_lt e1
        obtain ⟨b', w1, w2, w3, w4⟩ := Buf.wr_spec (richStep scl (x (i + l * M)) (y (i + l * M))) hbl
        refine ⟨b', ?_, by rw [w2, b1], fun j => ?_⟩
        · simp only [e1, e2, Option.bind_eq_bind, Option.bind_some]
          exact w1
        · by_cases hj : j = i + l * M
          · subst hj
            rw [w3, hmod i l hi, hdiv i l hi, if_pos ⟨hb, Or.inr ⟨rfl, by omega⟩⟩, hout]
            dsimp only
            rw [hmod i l hi, if_pos hcond]
          · rw [w4 j hj, b2]
            refine if_congr ?_ rfl rfl
            have : j % M = i → j / M ≠ l := fun h1 h2 => hj (by rw [hrec j, h1, h2])
            constructor
            · rintro ⟨g1, g2 | ⟨g2, g3⟩⟩
              · exact ⟨g1, Or.inl g2⟩
              · exact ⟨g1, Or.inr ⟨g2, by omega⟩⟩
            · rintro ⟨g1, g2 | ⟨g2, g3⟩⟩
              · exact ⟨g1, Or.inl g2⟩
              · exact ⟨g1, Or.inr ⟨g2, by have := this g2; omega⟩⟩
    · refine ⟨c, rfl, hl, fun j => ?_⟩
      rw [hrd]
      by_cases hj : j < n * M ∧ j % M = i
      · rw [if_neg (by omega), if_pos (by omega), hout]
        dsimp only
        rw [hj.2, if_neg hcond]
        exact hx j hj.1
      · refine if_congr ?_ rfl rfl
        omega

/-- The step that the preprocessing chooses. -/
theorem pre_step {d : NseDisc} {eps : ℝ} {Dsub0 : ℕ} {R : PreRes} (h : nse_preprocess_signal D (some q) eps kappa Dsub0 d = some R)
    {fl : ℕ × ℕ} (hR : R.first_last = some fl) :
    ∃ m s, m = (if (if Dsub0 < 2 then 2 else Dsub0) > D then D else (if Dsub0 < 2 then 2 else Dsub0)) ∧ s = roundDiv D m ∧
      R.Dsub = roundDiv D s ∧ fl.2 = (R.Dsub - 1) * s := by
  refine ⟨_, _, rfl, rfl, ?_⟩
  have main : ∀ a (rf : ℕ → ℂ → ℂ) (P : PreRes), akns_preprocess_signal D (some q) rf eps Dsub0 a = some P → P.first_last = some fl →
      P.Dsub = roundDiv D (roundDiv D (if (if Dsub0 < 2 then 2 else Dsub0) > D then D else (if Dsub0 < 2 then 2 else Dsub0))) ∧
      fl.2 = (P.Dsub - 1) * roundDiv D (if (if Dsub0 < 2 then 2 else Dsub0) > D then D else (if Dsub0 < 2 then 2 else Dsub0)) := by
    intro a rf P hP hfl
    unfold akns_preprocess_signal at hP
    dsimp only at hP
    split at hP
    · cases hP; cases hfl
    · split at hP
      · cases hP; cases hfl
      · split at hP
        · cases hP; cases hfl
        · rw [Option.bind_eq_bind, Option.bind_eq_some_iff] at hP
          obtain ⟨S, -, hP⟩ := hP
          cases S with
          | error ec => cases hP; cases hfl
          | ok t =>
            cases hP; cases hfl
            exact ⟨rfl, rfl⟩
  unfold nse_preprocess_signal at h
  split at h
  · cases h; cases hR
  · rw [Option.bind_eq_bind, Option.bind_eq_some_iff] at h
    obtain ⟨P, hP, h⟩ := h
    cases h
    by_cases hs : P.ret = SUCCESS
    · rw [if_pos hs] at hR ⊢
      exact main _ _ P hP hR
    · rw [if_neg hs] at hR ⊢
      exact main _ _ P hP hR

/-- With at most half of the samples, the step is at least two. -/
theorem half_step (hD : 3 ≤ D) {d : NseDisc} {eps : ℝ} {R : PreRes} (h : nse_preprocess_signal D (some q) eps kappa (D / 2) d = some R)
    {s : ℕ} (h2 : 2 ≤ R.Dsub) (hR : R.first_last = some (0, (R.Dsub - 1) * s)) : 2 ≤ s := by
  obtain ⟨m, s', hm, hs', -, he⟩ := pre_step h hR
  have he : (R.Dsub - 1) * s = (R.Dsub - 1) * s' := he
  have : s = s' := Nat.eq_of_mul_eq_mul_left (by omega) he
  subst this
  have hm2 : 2 ≤ m ∧ 2 * m ≤ D + 1 := by
    rw [hm]
    split_ifs <;> omega
  have hle : 2 * m ≤ D ∨ D = 3 ∧ m = 2 := by
    have : m = 2 ∨ m = D / 2 := by rw [hm]; split_ifs <;> omega
    omega
  rw [hs', roundDiv_eq D m (by omega)]
  apply (Nat.le_div_iff_mul_le (by omega)).mpr
  omega

/-- A call with Richardson extrapolation: the skeleton. -/
theorem nsev_run_rich {x : ℕ → ℂ} (h : Spec.NsevArgs D q x T0 T1 kappa o a) {XI : Option (ℝ × ℝ)} {s : NsevSt}
    (hr : Spec.NsevReq kappa o XI s) (hrich : o.rich = 1) {m0 : NsevMain} (hres : nsevReserve ⟨s, o, none⟩ = some m0) :
    ∃ qp rp qf rf, Spec.Processed a kappa D ((T1 - T0) / (D - 1)) x D 1 qf rf ∧
      (∀ o' : NsevOpts, o'.disc = o.disc →
        BaseArgs (D * akns_upsampling_factor a) D qp rp qf rf T0 T1 ((T1 - T0) / (D - 1)) kappa o' a) ∧
      ∀ (roots : RootFinder) (M : ℕ) (g : ℕ → Garbage),
        fnft_nsev roots D (some q) (some (T0, T1)) M XI kappa o g s = (do
          let F ← nsevFirst roots D q (qp, rp) (T0, T1) ((T1 - T0) / (D - 1)) M XI kappa g m0
          if F.1 ≠ SUCCESS then return (F.1, F.2.st, F.2.opts)
          let R ← nsevRich roots D q (T0, T1) ((T1 - T0) / (D - 1)) M XI kappa (g 2) o.ds F.2
          return (R.1, R.2.st, R.2.opts)) := by
  obtain ⟨qp, rp, qf, rf, h1, h2, h3⟩ := nsev_pre h
  refine ⟨qp, rp, qf, rf, h2, h3, fun roots M g => ?_⟩
  have hup : nse_upsampling_factor o.disc = akns_upsampling_factor a := by rw [nse_upsampling_factor, h.hd]
  have hup0 : akns_upsampling_factor a ≠ 0 := ((C32_nse_names o.disc).1 a h.hd).2
  unfold fnft_nsev
  rw [if_neg (nsev_not_reject h hr), hup, if_neg hup0]
  simp only [Option.bind_eq_bind, Option.bind_some, hres, h1]
  rcases hF : nsevFirst roots D q (qp, rp) (T0, T1) ((T1 - T0) / (D - 1)) M XI kappa g m0 with _ | F
  · rfl
  · simp only [Option.bind_some]
    split_ifs with hs
    · rfl
    · have ho : F.2.opts.rich = 1 := by
        rw [nsevFirst_opts hF (not_not.mp hs)]
        unfold nsevReserve at hres
        split_ifs at hres with hc
        · rw [Option.bind_eq_bind, Option.bind_eq_some_iff] at hres
          obtain ⟨K, -, hres⟩ := hres
          cases hres
          exact hrich
        · cases hres; exact hrich
      unfold nsevRichIf
      rw [if_pos ho]

end FNFT

import Verif.Proofs.KdvNormc
import Verif.Proofs.ExpOde
/-!
# Properties of `fnft_kdvv`: continuous spectrum
-/
namespace FNFT
open Complex AknsDisc

variable {D : ℕ} {q : Buf ℂ} {x : ℕ → ℝ} {T0 T1 : ℝ} {o : KdvvOpts} {a : AknsDisc} {v : ℕ}

/-- C48. Continuous spectrum, when no bound states are requested. Let `U` be the steps of the chosen discretization for the signal as
that discretization uses it, and `a(ξ)`, `b(ξ)` the scattering coefficients of these steps in the basis `exp(-iξt)`, `exp(iξt)`. If
all `a(ξ_i)` are different from zero (not needed for the type `AB`), the call succeeds and writes the requested quantities in
the documented order to `contspec`; `*K_ptr` becomes zero, and nothing else is changed. If some `a(ξ_i)` is zero, a call
that has to divide by it fails. -/
theorem C48_continuous_spectrum (h : Spec.KdvvArgs D q x T0 T1 o a v) {M : ℕ} {XI0 XI1 : ℝ} {c : Buf ℂ}
    (hc : Spec.KdvContReq D M XI0 XI1 o a c) (hrich : o.rich ≠ 1) (K : Option ℕ) (nc : Option (Buf ℂ)) :
    let eps := (T1 - T0) / (D - 1)
    ∃ qf rf U, Spec.KdvProcessed a D eps (fun i => (x i : ℂ)) D 1 qf rf ∧
      (if v ≠ 0 then Spec.NseSteps a eps qf rf U else Spec.NseSteps a eps rf qf U) ∧
      let n := Spec.slowCount a (D * akns_upsampling_factor a)
      let av := fun i => Spec.kdvA (v ≠ 0) U n T0 T1 eps (Spec.grid XI0 XI1 M i)
      let bv := fun i => Spec.kdvB (v ≠ 0) U n T0 T1 eps (Spec.grid XI0 XI1 M i)
      ∀ (next : NextToward) (g : ℕ → Garbage),
      ((o.cs = .AB ∨ ∀ i, i < M → av i ≠ 0) →
        ∃ c', fnft_kdvv next D (some q) (some (T0, T1)) M (some (XI0, XI1)) o g ⟨some c, K, none, nc⟩ =
            some (SUCCESS, ⟨some c', K.map fun _ => 0, none, nc⟩, o) ∧
          Spec.ContWritten o.cs M av bv c c') ∧
      (o.cs ≠ .AB → (∃ i, i < M ∧ av i = 0) →
        ∃ c', fnft_kdvv next D (some q) (some (T0, T1)) M (some (XI0, XI1)) o g ⟨some c, K, none, nc⟩ =
            some (E_SUBROUTINE EC_DIV_BY_ZERO, ⟨some c', K, none, nc⟩, o) ∧ c'.len = c.len ∧ ∀ j, M ≤ j → c'.rd j = c.rd j) := by
  intro eps
  have hr : Spec.KdvvReq o M (some (XI0, XI1)) ⟨some c, K, none, nc⟩ :=
    { hXI := fun _ => ⟨_, rfl, hc.hXI⟩
      hM := Or.inr (by simp)
      hgrid := fun X hX _ => by cases hX; exact hc.hgrid
      hM1 := by have := hc.hM; omega
      hK := fun h => by cases h
      hguess := fun _ bs K i u hb => by cases hb }
  obtain ⟨qp, rp, qf, rf, h1, h2, h3⟩ := kdvv_run h hr hrich
  obtain ⟨deg, W, tm, U, h4, h5⟩ := kdv_base_run h2
  refine ⟨qf, rf, U, h1, ?_, ?_⟩
  · have := h4.steps
    unfold swapIf at this
    split_ifs at this ⊢ <;> exact this
  intro n av bv next g
  obtain ⟨b1, b2⟩ := kdvBaseCont_ok h2 h4 hc.hM hc.hsz XI0 XI1 hc.hgrid hc.hcs (s := ⟨some c, K, none, nc⟩) rfl hc.hlen
  have hrun : ∀ C, kdvBaseCont (D * akns_upsampling_factor a) qp rp T0 T1 M (some (XI0, XI1)) o deg W tm ⟨some c, K, none, nc⟩ =
        some C → C.2.bs = none →
      fnft_kdvv next D (some q) (some (T0, T1)) M (some (XI0, XI1)) o g ⟨some c, K, none, nc⟩ =
        some (chk C.1, if C.1 = SUCCESS then { C.2 with K := C.2.K.map fun _ => 0 } else C.2, o) := by
    intro C hC hbs
    rw [h3, h5 next M _ (g 0) _ hr.hXI hr.hK, hC]
    simp only [Option.bind_eq_bind, Option.bind_some]
    by_cases hs : C.1 = SUCCESS
    · rw [if_neg (not_not.mpr hs), if_pos hs, kdvBaseDisc_none (Or.inl hbs), hs]
      rfl
    · rw [if_pos hs, if_neg hs]
      rfl
  constructor
  · intro h0
    obtain ⟨c', e1, e2⟩ := b1 h0
    exact ⟨c', by rw [hrun _ e1 rfl]; rfl, e2⟩
  · intro h0 h0'
    obtain ⟨c', e1, e2⟩ := b2 h0 h0'
    exact ⟨c', by rw [hrun _ e1 rfl]; rfl, e2⟩

/-- C48, any request. Whatever else is requested: if the call succeeds, `contspec` contains the continuous spectrum. -/
theorem C48_any_request (h : Spec.KdvvArgs D q x T0 T1 o a v) {M : ℕ} {XI0 XI1 : ℝ} {c : Buf ℂ}
    (hc : Spec.KdvContReq D M XI0 XI1 o a c) (hrich : o.rich ≠ 1) {s : NsevSt} (hs : s.contspec = some c)
    (hr : Spec.KdvvReq o M (some (XI0, XI1)) s) :
    let eps := (T1 - T0) / (D - 1)
    ∃ qf rf U, Spec.KdvProcessed a D eps (fun i => (x i : ℂ)) D 1 qf rf ∧
      (if v ≠ 0 then Spec.NseSteps a eps qf rf U else Spec.NseSteps a eps rf qf U) ∧
      let n := Spec.slowCount a (D * akns_upsampling_factor a)
      let av := fun i => Spec.kdvA (v ≠ 0) U n T0 T1 eps (Spec.grid XI0 XI1 M i)
      let bv := fun i => Spec.kdvB (v ≠ 0) U n T0 T1 eps (Spec.grid XI0 XI1 M i)
      ∀ (next : NextToward) (g : ℕ → Garbage) (s' : NsevSt) (o' : KdvvOpts),
        fnft_kdvv next D (some q) (some (T0, T1)) M (some (XI0, XI1)) o g s = some (SUCCESS, s', o') →
        o' = o ∧ (o.cs = .AB ∨ ∀ i, i < M → av i ≠ 0) ∧ ∃ c', s'.contspec = some c' ∧ Spec.ContWritten o.cs M av bv c c' := by
  intro eps
  obtain ⟨qp, rp, qf, rf, h1, h2, h3⟩ := kdvv_run h hr hrich
  obtain ⟨deg, W, tm, U, h4, h5⟩ := kdv_base_run h2
  refine ⟨qf, rf, U, h1, ?_, ?_⟩
  · have := h4.steps
    unfold swapIf at this
    split_ifs at this ⊢ <;> exact this
  intro n av bv next g s' o' hrun
  obtain ⟨b1, b2⟩ := kdvBaseCont_ok h2 h4 hc.hM hc.hsz XI0 XI1 hc.hgrid hc.hcs hs hc.hlen
  rw [h3, h5 next M _ (g 0) _ hr.hXI hr.hK, Option.bind_eq_bind, Option.bind_eq_some_iff] at hrun
  obtain ⟨F, hF, hrun⟩ := hrun
  have e := Option.some.inj hrun
  have ho : o = o' := congrArg (fun p => p.2.2) e
  have hF1 : F.1 = SUCCESS := chk_success.mp (congrArg (fun p => p.1) e)
  have hF2 : F.2 = s' := congrArg (fun p => p.2.1) e
  refine ⟨ho.symm, ?_⟩
  by_cases h0 : o.cs = .AB ∨ ∀ i, i < M → av i ≠ 0
  · refine ⟨h0, ?_⟩
    obtain ⟨c', e1, e2⟩ := b1 h0
    rw [e1] at hF
    simp only [Option.bind_eq_bind, Option.bind_some, ne_eq, not_true_eq_false, if_false] at hF
    exact ⟨c', by rw [← hF2]; exact kdvBaseDisc_contspec hF, e2⟩
  · exfalso
    push Not at h0
    obtain ⟨c', e1, e2⟩ := b2 h0.1 h0.2
    rw [e1] at hF
    simp only [Option.bind_eq_bind, Option.bind_some] at hF
    rw [if_pos (by decide)] at hF
    have hc' : E_SUBROUTINE EC_DIV_BY_ZERO = F.1 := congrArg Prod.fst (Option.some.inj hF)
    rw [hF1] at hc'
    revert hc'; decide

/-- C48, rejected requests: a signal with a sample that is not real, a frequency grid that contains zero (requested or not), a missing
signal, fewer than two samples, an empty interval or an unknown discretization lead to an error; nothing is written. -/
theorem C48_rejects (next : NextToward) (D : ℕ) (q : Option (Buf ℂ)) (T XI : Option (ℝ × ℝ)) (M : ℕ) (o : KdvvOpts)
    (g : ℕ → Garbage) (s : NsevSt)
    (h : D < 2 ∨ q = none ∨ (∃ b v i, q = some b ∧ i < D ∧ b.rd i = some v ∧ v.im ≠ 0) ∨ T = none ∨ (∃ X, T = some X ∧ X.2 ≤ X.1) ∨
      (∃ X, XI = some X ∧ (s.contspec.isSome ∧ X.2 ≤ X.1 ∨ 2 ≤ M ∧ ∃ i, i < M ∧ Spec.grid X.1 X.2 M i = 0)) ∨
      (s.contspec.isSome ∧ XI = none) ∨ (XI ≠ none ∧ s.bs.isSome ∧ s.K = none) ∨ (XI ≠ none ∧ ∃ n, o.disc = .other n)) :
    fnft_kdvv next D q T M XI o g s = some (EC_INVALID_ARGUMENT, s, o) := by
  unfold fnft_kdvv
  by_cases h1 : kdvReject1 D q T XI s
  · rw [if_pos h1]
  rw [if_neg h1]
  have hXI : XI ≠ none := by
    rintro rfl
    have h2 : ¬ s.contspec.isSome := fun hc => h1 (Or.inr (Or.inr (Or.inr (Or.inr ⟨hc, by rintro ⟨X, hX, -⟩; cases hX⟩))))
    rcases h with h | h | h | h | ⟨X, h, h'⟩ | ⟨X, h, -⟩ | ⟨h, -⟩ | ⟨h, -⟩ | ⟨h, -⟩
    · exact h1 (Or.inl h)
    · exact h1 (Or.inr (Or.inl h))
    · exact h1 (Or.inr (Or.inr (Or.inl h)))
    · exact h1 (Or.inr (Or.inr (Or.inr (Or.inl (by rw [h]; rintro ⟨X, hX, -⟩; cases hX)))))
    · exact h1 (Or.inr (Or.inr (Or.inr (Or.inl (by rw [h]; rintro ⟨X, hX, h3⟩; cases hX; linarith)))))
    · cases h
    · exact h2 h
    · exact h rfl
    · exact h rfl
  rw [if_neg (fun h => hXI h.2)]
  by_cases h3 : ∃ X, XI = some X ∧ kdvGridZero M X
  · rw [if_pos h3]
  rw [if_neg h3]
  by_cases h4 : kdvReject2 o s
  · rw [if_pos h4]
  rw [if_neg h4]
  rcases h with h | h | h | h | ⟨X, h, h'⟩ | ⟨X, h, ⟨h5, h6⟩ | ⟨h5, i, h6, h7⟩⟩ | ⟨h, h'⟩ | ⟨-, h5, h6⟩ | ⟨-, n, h⟩
  · exact absurd (Or.inl h) h1
  · exact absurd (Or.inr (Or.inl h)) h1
  · exact absurd (Or.inr (Or.inr (Or.inl h))) h1
  · exact absurd (Or.inr (Or.inr (Or.inr (Or.inl (by rw [h]; rintro ⟨X, hX, -⟩; cases hX))))) h1
  · exact absurd (Or.inr (Or.inr (Or.inr (Or.inl (by rw [h]; rintro ⟨X, hX, h3⟩; cases hX; linarith))))) h1
  · exact absurd (Or.inr (Or.inr (Or.inr (Or.inr ⟨h5, by rw [h]; rintro ⟨X, hX, h3⟩; cases hX; linarith⟩)))) h1
  · refine absurd ⟨X, h, i, h6, by omega, ?_⟩ h3
    rw [← h7, Spec.grid]; ring
  · exact absurd h' hXI
  · obtain ⟨bs, hbs⟩ := Option.isSome_iff_exists.mp h5
    exact absurd ⟨bs, hbs, Or.inl h6⟩ h4
  · have hq : ∃ b, q = some b := by
      rcases q with _ | b
      · exact absurd (Or.inr (Or.inl rfl)) h1
      · exact ⟨b, rfl⟩
    have hT : ∃ b, T = some b := by
      rcases T with _ | b
      · exact absurd (Or.inr (Or.inr (Or.inr (Or.inl (by rintro ⟨X, hX, -⟩; cases hX))))) h1
      · exact ⟨b, rfl⟩
    obtain ⟨b, rfl⟩ := hq
    obtain ⟨t, rfl⟩ := hT
    simp only [Option.bind_eq_bind, Option.bind_some]
    unfold kdvvRun
    rw [if_pos (by rw [h]; rfl)]

/-! ## Meaning of the scattering coefficients -/

/-- `ψ` solves `ψ'' + (q + λ²) ψ = 0` with constant `q`; `ψ'` is its derivative. -/
def Spec.Schroedinger (q l : ℂ) (psi psi' : ℝ → ℂ) : Prop :=
  ∀ t, HasDerivAt psi (psi' t) t ∧ HasDerivAt psi' (-(q + l ^ 2) * psi t) t

/-- `s₁`, `s₂` with `ψ = s₁ + s₂`, `ψ' = -iλ s₁ + iλ s₂`. -/
noncomputable def sComp (l p p' : ℂ) : Fin 2 → ℂ := ![(p - p' / (I * l)) / 2, (p + p' / (I * l)) / 2]

/-- The AKNS matrix for the KdV equation. -/
noncomputable def Spec.kdvP (van : Bool) (q l : ℂ) : Spec.M2 := if van then Spec.aknsP q (-1) l else Spec.aknsP (-1) q l

theorem schroedinger_step (van : Bool) {q l : ℂ} (hl : l ≠ 0) {psi psi' : ℝ → ℂ} (h : Spec.Schroedinger q l psi psi') (t dt : ℝ) :
    sComp l (psi (t + dt)) (psi' (t + dt)) =
      ((Spec.fromS true van l)⁻¹ * NormedSpace.exp ((dt : ℂ) • Spec.kdvP van q l) * Spec.fromS true van l).mulVec (sComp l (psi t) (psi' t)) := by
  have hI : I * l ≠ 0 := mul_ne_zero I_ne_zero hl
  have hdet : IsUnit (Spec.fromS true van l).det := by
    refine isUnit_iff_ne_zero.mpr ?_
    cases van <;> simp [Spec.fromS, Matrix.det_fin_two, hl]
  -- the vector of the AKNS system
  let w : ℝ → Fin 2 → ℂ := fun t => if van then ![I * l * psi t - psi' t, psi t] else ![psi t, -I * l * psi t - psi' t]
  have hw : ∀ t, w t = (Spec.fromS true van l).mulVec (sComp l (psi t) (psi' t)) := by
    intro t
    cases van
    · funext i
      fin_cases i
      · simp [w, Spec.fromS, sComp]; ring
      · simp [w, Spec.fromS, sComp]; field_simp; ring
    · funext i
      fin_cases i
      · simp [w, Spec.fromS, sComp]; field_simp
      · simp [w, Spec.fromS, sComp]; ring
  have hode : ∀ t i, HasDerivAt (fun t => w t i) ((Spec.kdvP van q l).mulVec (w t) i) t := by
    intro t i
    obtain ⟨d1, d2⟩ := h t
    have hsq : I * I = -1 := I_mul_I
    cases van
    · fin_cases i
      · refine (show HasDerivAt (fun t => psi t) _ t from d1).congr_deriv ?_
        simp [w, Spec.kdvP, Spec.aknsP]
        ring
      · refine (show HasDerivAt (fun t => -I * l * psi t - psi' t) _ t from (d1.const_mul (-I * l)).sub d2).congr_deriv ?_
        simp [w, Spec.kdvP, Spec.aknsP]
        linear_combination (l ^ 2 * psi t) * hsq
    · fin_cases i
      · refine (show HasDerivAt (fun t => I * l * psi t - psi' t) _ t from (d1.const_mul (I * l)).sub d2).congr_deriv ?_
        simp [w, Spec.kdvP, Spec.aknsP]
        linear_combination (l ^ 2 * psi t) * hsq
      · refine (show HasDerivAt (fun t => psi t) _ t from d1).congr_deriv ?_
        simp [w, Spec.kdvP, Spec.aknsP]
        ring
  have key := exp_solves (Spec.kdvP van q l) w hode t dt
  rw [hw, hw] at key
  have := congrArg (fun u => ((Spec.fromS true van l)⁻¹).mulVec u) key
  simp only [Matrix.mulVec_mulVec] at this
  rwa [Matrix.nonsing_inv_mul _ hdet, Matrix.one_mulVec, ← mul_assoc] at this

/-- C48, meaning. Let the potential be `x n` on the interval of length `h` around the sample `T0 + n h` and zero outside, and `ψ` the solution
of the Schroedinger equation (`ψ n` on interval `n`) that is `exp(-iλt)` on the left. On the right it is `α exp(-iλt) + β exp(iλt)`, where
`α`, `β` are the coefficients `a(λ)`, `b(λ)` of the steps `exp(h P_n)` (the discretization `BO`), in either AKNS system. -/
theorem C48_schroedinger (van : Bool) (D : ℕ) (hD : 1 ≤ D) (x : ℕ → ℝ) (l : ℂ) (hl : l ≠ 0) (T0 T1 h : ℝ) (hT : T1 = T0 + (D - 1) * h)
    (psi psi' : ℕ → ℝ → ℂ) (hpsi : ∀ n, n < D → Spec.Schroedinger (x n) l (psi n) (psi' n))
    (hcont : ∀ n, n + 1 < D → psi (n + 1) (T0 - h / 2 + (n + 1) * h) = psi n (T0 - h / 2 + (n + 1) * h) ∧
      psi' (n + 1) (T0 - h / 2 + (n + 1) * h) = psi' n (T0 - h / 2 + (n + 1) * h))
    (hleft : psi 0 (T0 - h / 2) = exp (-I * l * (T0 - h / 2 : ℝ)) ∧ psi' 0 (T0 - h / 2) = -I * l * exp (-I * l * (T0 - h / 2 : ℝ)))
    (al be : ℂ)
    (hright : psi (D - 1) (T1 + h / 2) = al * exp (-I * l * (T1 + h / 2 : ℝ)) + be * exp (I * l * (T1 + h / 2 : ℝ)) ∧
      psi' (D - 1) (T1 + h / 2) = -I * l * (al * exp (-I * l * (T1 + h / 2 : ℝ))) + I * l * (be * exp (I * l * (T1 + h / 2 : ℝ)))) :
    let U : ℂ → ℕ → Spec.M2 := fun l n => NormedSpace.exp ((h : ℂ) • Spec.kdvP van (x n) l)
    Spec.kdvA van U D T0 T1 h l = al ∧ Spec.kdvB van U D T0 T1 h l = be := by
  intro U
  have hI : I * l ≠ 0 := mul_ne_zero I_ne_zero hl
  have hdet : IsUnit (Spec.fromS true van l).det := by
    refine isUnit_iff_ne_zero.mpr ?_
    cases van <;> simp [Spec.fromS, Matrix.det_fin_two, hl]
  have key : ∀ n, n < D → sComp l (psi n (T0 - h / 2 + (n + 1) * h)) (psi' n (T0 - h / 2 + (n + 1) * h)) =
      (Spec.kdvS van (U l) (n + 1) l).mulVec ![exp (-I * l * (T0 - h / 2 : ℝ)), 0] := by
    intro n
    induction n with
    | zero =>
      intro hn
      have := schroedinger_step van hl (hpsi 0 hn) (T0 - h / 2) h
      rw [hleft.1, hleft.2] at this
      have e : sComp l (exp (-I * l * (T0 - h / 2 : ℝ))) (-I * l * exp (-I * l * (T0 - h / 2 : ℝ))) = ![exp (-I * l * (T0 - h / 2 : ℝ)), 0] := by
        unfold sComp
        congr 1
        · field_simp; ring
        · congr 1; field_simp; ring
      rw [e] at this
      simp only [Nat.cast_zero, zero_add, one_mul]
      rw [this, Spec.kdvS]
      simp [Spec.chain, U]
    | succ n ih =>
      intro hn
      have := schroedinger_step van hl (hpsi (n + 1) hn) (T0 - h / 2 + (n + 1) * h) h
      rw [(hcont n hn).1, (hcont n hn).2, ih (by omega), Matrix.mulVec_mulVec] at this
      rw [Nat.cast_succ, show T0 - h / 2 + ((n : ℝ) + 1 + 1) * h = T0 - h / 2 + (n + 1) * h + h by ring, this]
      congr 1
      rw [Spec.kdvS, Spec.kdvS, chain_succ (U l) (n + 1)]
      have : Spec.fromS true van l * (Spec.fromS true van l)⁻¹ = 1 := Matrix.mul_nonsing_inv _ hdet
      calc _ = (Spec.fromS true van l)⁻¹ * U l (n + 1) * (Spec.fromS true van l * (Spec.fromS true van l)⁻¹) *
            (Spec.chain (U l) (n + 1) * Spec.fromS true van l) := by simp only [mul_assoc, U]
        _ = _ := by rw [this]; simp only [mul_assoc, mul_one]
  have hend := key (D - 1) (by omega)
  have ec : ((D - 1 : ℕ) : ℝ) = D - 1 := by rw [Nat.cast_sub hD, Nat.cast_one]
  rw [ec, show T0 - h / 2 + ((D : ℝ) - 1 + 1) * h = T1 + h / 2 by rw [hT]; ring, hright.1, hright.2, show D - 1 + 1 = D by omega] at hend
  unfold Spec.kdvA Spec.kdvB Spec.jostA Spec.jostB
  rw [← hend]
  constructor
  · rw [div_eq_iff (exp_ne_zero _)]
    simp only [sComp, Matrix.cons_val_zero]
    field_simp
    ring
  · rw [div_eq_iff (exp_ne_zero _)]
    simp only [sComp, Matrix.cons_val_one, Matrix.cons_val_zero]
    field_simp
    ring

/-- The hypotheses of `C48_schroedinger` can be met: zero potential, one sample. -/
example : Spec.Schroedinger 0 2 (fun t => exp (-I * 2 * t)) (fun t => -I * 2 * exp (-I * 2 * t)) := by
  intro t
  have h : ∀ t : ℝ, HasDerivAt (fun t : ℝ => exp (-I * 2 * t)) (-I * 2 * exp (-I * 2 * t)) t := by
    intro t
    have := ((hasDerivAt_id (t : ℂ)).const_mul (-I * 2)).cexp.comp_ofReal
    simpa [mul_comm] using this
  refine ⟨h t, ((h t).const_mul (-I * 2)).congr_deriv ?_⟩
  have := I_mul_I
  linear_combination (4 * exp (-I * 2 * t)) * this

/-- The hypotheses of C48 are met with the default options (discretization `2SPLIT4B`) ... -/
example :
    Spec.KdvvArgs 4 (Buf.ofList [1, 2, -3, 4]) (fun i => [1, 2, -3, 4].getD i 0) (-1) 1 kdvv_default_opts .D2SPLIT4B 0 ∧
    Spec.KdvContReq 4 2 (-2) 2 kdvv_default_opts .D2SPLIT4B (Buf.malloc 3) ∧ kdvv_default_opts.rich ≠ 1 where
  left :=
    { hd := rfl, hv := rfl, hD := by norm_num, hCF := fun h => (by norm_num), hsize := by decide
      hq := by intro i hi; have : i < 4 := by omega
               interval_cases i <;> simp [Buf.ofList, Buf.rd]
      hT := by norm_num, hal := fun h => by cases h }
  right := ⟨{ hM := by norm_num, hXI := by norm_num
              hgrid := by
                intro i hi
                have : i < 2 := hi
                interval_cases i <;> norm_num [Spec.grid]
              hsz := by decide, hcs := fun n h => (by cases h), hlen := by decide },
    by decide⟩

/-- ... and with the Ablowitz-Ladik method in the other AKNS system. -/
example :
    Spec.KdvvArgs 3 (Buf.ofList [1, 3, -5]) (fun i => [1, 3, -5].getD i 0) 0 1 { kdvv_default_opts with disc := .D2SPLIT2_MODAL_VANILLA }
      .D2SPLIT2_MODAL 1 where
  hd := rfl
  hv := rfl
  hD := by norm_num
  hCF := fun h => by norm_num
  hsize := by decide
  hq := by intro i hi; have : i < 3 := by omega
           interval_cases i <;> simp [Buf.ofList, Buf.rd]
  hT := by norm_num
  hal := by
    intro _ n hn h
    interval_cases n <;> norm_num at h

end FNFT

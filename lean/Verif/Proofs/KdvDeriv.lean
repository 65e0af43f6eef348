import Verif.Proofs.KdvNewton
/-!
# Proofs: the derivative of `Re a(iκ)`
-/
namespace FNFT
open Complex Matrix AknsDisc

local notation "mexp" => NormedSpace.exp

/-- `y` is the derivative of `κ ↦ Re a(iκ)` at `κ ≠ 0`: exactly if the determinants of all exponents are at least one; otherwise up to the error
of a Taylor polynomial in the derivative of each step (`NearDeriv`). The steps are those of the slow discretization `d`. -/
structure Spec.KdvDerivA (E : Spec.M2 → Spec.M2) (d : AknsDisc) (vanilla : Bool) (D : ℕ) (T0 T1 eps : ℝ) (qf rf : ℕ → ℂ) (k y : ℝ) : Prop where
  exact' : Spec.Regular d eps (Spec.cfWeight d) qf rf (I * k) (Spec.slowCount d D) →
    (∀ n, n < Spec.slowCount d D → 1 ≤ ‖(Spec.mainExponent d eps (Spec.cfWeight d) qf rf n (I * k)).det‖) →
    HasDerivAt (Spec.kdvReA mexp d vanilla D T0 T1 eps qf rf) y k
  near : (∀ n, n < Spec.slowCount d D → (Spec.mainExponent d eps (Spec.cfWeight d) qf rf n (I * k)).det ≠ 0) →
    ∃ V : ℕ → Spec.M2, (∀ n, n < Spec.slowCount d D → Spec.NearDeriv (V n) (Spec.mainExponent d eps (Spec.cfWeight d) qf rf n) (I * k)) ∧
      let U := Spec.slowStep E d eps (Spec.cfWeight d) qf rf (I * k)
      let U' := fun n => ((Spec.outerExponents d eps qf rf n).1.map E).prod * V n * ((Spec.outerExponents d eps qf rf n).2.map E).prod
      let B := Spec.fromS true vanilla (I * k)
      let C := Spec.chain U (Spec.slowCount d D)
      let C' := Spec.dchain U U' (Spec.slowCount d D)
      ∀ B' A', Spec.MDeriv (Spec.fromS true vanilla) B' (I * k) → Spec.MDeriv (fun l => (Spec.fromS true vanilla l)⁻¹) A' (I * k) →
        y = (I * (exp (I * (I * k) * (T1 - T0 + eps : ℝ)) * ((A' * C * B + B⁻¹ * C' * B + B⁻¹ * C * B') 0 0 +
          I * (T1 - T0 + eps : ℝ) * (B⁻¹ * C * B) 0 0))).re

theorem kdvReA'_spec {d : AknsDisc} (hd : Spec.slow d) (vanilla : Bool) (D : ℕ) (T0 T1 eps : ℝ) (qf rf : ℕ → ℂ) {k : ℝ} (hk : k ≠ 0) :
    Spec.KdvDerivA expS d vanilla D T0 T1 eps qf rf k (kdvReA' d vanilla D T0 T1 eps qf rf k) := by
  constructor
  · exact fun h1 h2 => kdvReA'_deriv hd vanilla D T0 T1 eps qf rf hk h1 h2
  · intro h0
    choose! V hV using fun n (hn : n < Spec.slowCount d D) => slowStepD_near d eps (Spec.cfWeight d) qf rf (I * k) n (h0 n hn)
    refine ⟨V, fun n hn => (hV n hn).1, ?_⟩
    intro U U' B C C' B' A' hB' hA'
    have hl : I * (k : ℂ) ≠ 0 := by simp [hk]
    obtain ⟨hB, hA⟩ := fromS_deriv hd eps vanilla .KdV (I * k) (fun _ => hl)
    have hkk : decide (AknsPde.KdV = AknsPde.KdV) = true := rfl
    rw [hkk] at hB hA
    have eB : B' = basisFrom' eps d vanilla .KdV (I * k) := by
      ext i j; exact (hB' i j).unique (hB i j)
    have eA : A' = basisTo' eps d vanilla .KdV (I * k) := by
      ext i j; exact (hA' i j).unique (hA i j)
    have hto : basisTo eps d vanilla .KdV (I * k) = (Spec.fromS true vanilla (I * k))⁻¹ := slow_to hd eps vanilla .KdV (I * k) (fun _ => hl)
    have hfr : basisFrom eps d vanilla .KdV (I * k) = Spec.fromS true vanilla (I * k) := slow_from hd eps vanilla .KdV (I * k)
    have hC : Spec.dchain U (slowStepD d eps (Spec.cfWeight d) qf rf (I * k)) (Spec.slowCount d D) = C' :=
      (dchain_congr (Spec.slowCount d D) (fun _ _ => rfl) fun n hn => (hV n hn).2).2
    unfold kdvReA'
    rw [← I_mul_re]
    congr 2
    unfold kdvSlowA' phiS' phiS
    rw [hto, hfr]
    change exp (I * (I * k) * (T1 + eps / 2 : ℝ)) * (((_ : Spec.V2) 0) + I * (T1 + eps / 2 : ℝ) * ((_ : Spec.V2) 0)) = _
    rw [← eA, ← eB]
    rw [show Spec.dchain (Spec.slowStep expS d eps (Spec.cfWeight d) qf rf (I * k)) (slowStepD d eps (Spec.cfWeight d) qf rf (I * k))
      (Spec.slowCount d D) = C' from hC]
    have e : exp (I * (I * k) * (T1 - T0 + eps : ℝ)) = exp (I * (I * k) * (T1 + eps / 2 : ℝ)) * exp (-I * (I * k) * (T0 - eps / 2 : ℝ)) := by
      rw [← exp_add]; congr 1; push_cast; ring
    rw [e]
    obtain ⟨t0, ht0⟩ : ∃ t : ℝ, t = T0 - eps / 2 := ⟨_, rfl⟩
    obtain ⟨tb, htb⟩ : ∃ t : ℝ, t = T1 + eps / 2 := ⟨_, rfl⟩
    have e2 : T1 - T0 + eps = tb - t0 := by rw [ht0, htb]; ring
    rw [← ht0, ← htb, e2]
    have m2 : ∀ (M : Spec.M2) (x : ℂ), (M *ᵥ ![x, 0]) 0 = M 0 0 * x := by
      intro M x; simp [Matrix.mulVec, dotProduct, Fin.sum_univ_two]
    simp only [Matrix.mulVec_add, Matrix.mulVec_mulVec, Pi.add_apply, m2, Matrix.add_apply]
    push_cast
    show _ * ((A' * (C * B)) 0 0 * _ + ((B⁻¹ * (C' * B)) 0 0 * _ + ((B⁻¹ * (C * B')) 0 0 * _ + (B⁻¹ * (C * B)) 0 0 * _)) +
      _ * ((B⁻¹ * (C * B)) 0 0 * _)) = _
    simp only [← Matrix.mul_assoc]
    ring

end FNFT

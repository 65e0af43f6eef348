import Verif.Proofs.InvDarboux
import Verif.Proofs.ScatUnique
/-!
# Adding eigenvalues to a seed potential with fnft_nsev_inverse
-/
namespace FNFT
open Complex Filter Spec

local notation "conj" => starRingEnd ℂ

/-- The seed potential with the additional eigenvalues. -/
noncomputable def seedS (K : ℕ) (lf bf : ℕ → ℂ) (T0 eps : ℝ) (D : ℕ) (qf : ℕ → ℂ) : ℝ → ℂ :=
  (dbN (srtL K lf) (fun i => bf (sortP K lf i)) (seedQ T0 eps D qf) (pcPhi T0 (halfL (eps / 2) qf 0 (D - 1))) (pcPsi T0 (halfL (eps / 2) qf 0 (D - 1))) K).1

theorem seedS_scat {K D : ℕ} {lf bf qf : ℕ → ℂ} {T0 eps : ℝ} (he : 0 < eps) (hD : 2 ≤ D) (hl : ∀ i, i < K → 0 < (lf i).im) (hb0 : ∀ i, i < K → bf i ≠ 0)
    (hinj : ∀ i j, i < K → j < K → lf i = lf j → i = j) (hno : ∀ k, k < K → NoEigen (seedQ T0 eps D qf) (lf k)) :
    AddedTo (seedQ T0 eps D qf) K lf bf (seedS K lf bf T0 eps D qf) := by
  have hJ := JF.seed (T0 := T0) he hD qf
  have hfin := pcE_finite T0 (halfL (eps / 2) qf 0 (D - 1))
  have hmap : ((List.range K).map fun k => (srtL K lf k, bf (sortP K lf k))).map Prod.fst = (List.range K).map (srtL K lf) := by
    rw [List.map_map]; rfl
  obtain ⟨h, hb⟩ := JF.all ((List.range K).map fun k => (srtL K lf k, bf (sortP K lf k))) hJ (by
    intro x hx
    obtain ⟨k, hk, rfl⟩ := List.mem_map.mp hx
    have hk := (sortP_lt K lf k).mp (List.mem_range.mp hk)
    refine ⟨hl _ hk, hb0 _ hk, fun h0 => ?_⟩
    have := JF.upper hJ (hl _ hk)
    dsimp only at h0
    unfold srtL at h0
    rw [h0] at this
    exact hno _ hk _ hfin this) (by
    rw [hmap]
    exact List.Nodup.map_on (fun x hx y hy he => srt_inj hinj x y (List.mem_range.mp hx) (List.mem_range.mp hy) he) List.nodup_range)
  rw [hmap] at h
  refine ⟨_, hfin, _, _, h.dec, fun l => ⟨hJ.real l, ?_⟩, fun l hl' => ⟨hJ.upper hl', ?_⟩, ?_⟩
  · have := h.real l; rwa [blaschke_perm] at this
  · have := h.upper hl'; rwa [blaschke_perm] at this
  · exact perm_all (lf := lf) (P := fun k => Bound _ (seedS K lf bf T0 eps D qf) (lf k) (bf k)) fun k hk =>
      h.bound (srt_im hl k hk) (hb (srtL K lf k, bf (sortP K lf k)) (List.mem_map.mpr ⟨k, List.mem_range.mpr hk, rfl⟩))

theorem ks_ne {l c : ℂ} (h : l ^ 2 ≠ -((‖c‖ ^ 2 : ℝ) : ℂ)) : c * conj c + l * l ≠ 0 := by
  rw [norm_sq_conj]
  intro h0
  apply h
  linear_combination h0

/-- The samples after adding eigenvalues to a potential. -/
theorem invDiscrete_seed {K D : ℕ} {bs nc q : Buf ℂ} {lf rf bf qf : ℕ → ℂ} {T0 T1 eps : ℝ} {fl : Bool} {o : InvOpts} {g : Garbage} {R : ℤ × Buf ℂ}
    (hb : bs.Holds 0 K lf) (hn : nc.Holds 0 K rf) (hq : q.Holds 0 D qf) (hl : ∀ i, i < K → 0 < (lf i).im)
    (hinj : ∀ i j, i < K → j < K → lf i = lf j → i = j) (hD : 2 ≤ D) (hT : T0 < T1) (he : eps = (T1 - T0) / ((D : ℝ) - 1))
    (hk : ∀ k n, k < K → n < D → lf k ^ 2 ≠ -((‖qf n‖ ^ 2 : ℝ) : ℂ)) (hm : (fl = false ∧ o.meth = .USE_SEED) ∨ (fl = true ∧ o.meth ≠ .USE_SEED))
    (hnorm : ∀ bs' nc', bs'.Holds 0 K (srtL K lf) → nc'.Holds 0 K (fun i => rf (sortP K lf i)) →
      ∃ nc2, invNorm K bs' nc' D q T0 T1 fl o.ds g = some (.ok nc2) ∧ nc2.Holds 0 K (fun i => bf (sortP K lf i))) :
    (invDiscrete K bs nc D q T0 T1 fl o g = some R →
      R.1 = SUCCESS ∧ R.2.len = q.len ∧ ∀ n, n < D → R.2.rd n = some (seedS K lf bf T0 eps D qf (T0 + eps * n))) ∧
    ((∀ n i, n < D → i < K → (dbNV (srtL K lf) (fun i => bf (sortP K lf i)) (seedQ T0 eps D qf) (pcPhi T0 (halfL (eps / 2) qf 0 (D - 1)))
        (pcPsi T0 (halfL (eps / 2) qf 0 (D - 1))) i i (T0 + eps * n)).2 ≠ 0) → ∃ R, invDiscrete K bs nc D q T0 T1 fl o g = some R) := by
  obtain ⟨zc, bs', nc', z, hb', hn', heq⟩ := invDiscrete_eq (K := K) (D := D) (q := q) (T0 := T0) (T1 := T1) (fl := fl) (o := o) (g := g) hb hn hinj
  obtain ⟨nc2, e1, e2⟩ := hnorm bs' nc' hb' hn'
  have c1 : ¬ (fl = false ∧ o.meth ≠ .USE_SEED) := by
    rintro ⟨h1, h2⟩
    rcases hm with h | h
    · exact h2 h.2
    · rw [h1] at h; exact Bool.noConfusion h.1
  have hred : invDiscrete K bs nc D q T0 T1 fl o g = (invDarboux K bs' nc2 D T0 T1 q).bind fun q => some (SUCCESS, q) := by
    rw [heq, e1]
    simp only [Option.bind_eq_bind, Option.bind_some, if_neg c1, if_pos hm]
    rfl
  obtain ⟨d1, d2⟩ := invDarboux_ok hb' e2 hq hD hT he (srt_im hl) (fun i n hi hn => ks_ne (hk _ n ((sortP_lt K lf i).mp hi) hn))
  rw [hred]
  refine ⟨fun h => ?_, fun h => ?_⟩
  · obtain ⟨q', h1, h2⟩ := Option.bind_eq_some_iff.mp h
    cases h2
    obtain ⟨a1, a2⟩ := d2 q' h1
    exact ⟨rfl, a1, a2⟩
  · obtain ⟨q', h1⟩ := d1 h
    exact ⟨_, by rw [h1]; rfl⟩

theorem invNorm_id {K D : ℕ} {bs nc q : Buf ℂ} {T0 T1 : ℝ} {fl : Bool} {ds : InvDs} {g : Garbage} (h : ds ≠ .RESIDUES) :
    invNorm K bs nc D q T0 T1 fl ds g = some (.ok nc) := by unfold invNorm; rw [if_neg h]

end FNFT

import Verif.Proofs.NsepBase
/-!
# Proofs: grid search in fnft_nsep.c
-/
namespace FNFT
open Complex

structure GsArgs (deg : ℕ) (PHI : ℝ × ℝ) (o : NsepOpts) (a : AknsDisc) : Prop where
  hd : nse_to_akns o.disc = .ok a
  hdeg : akns_degree a ≠ 0
  h2 : 2 ≤ deg
  hsize : 33 * deg < 3 ^ 32
  hPHI : PHI.1 < PHI.2
  heps : Spec.gridEps PHI (32 * deg) < 1
  hbox : o.filt = .NONE ∨ Spec.ValidBox o.box

theorem hits_ne {P : Polynomial ℂ} {PHI : ℝ × ℝ} {M : ℕ} (hM : 2 ≤ M) (hPHI : PHI.1 < PHI.2) (he : Spec.gridEps PHI M < 1) :
    ∀ z ∈ Spec.gridHits P PHI M, z ≠ 0 := by
  rintro z hz rfl
  obtain ⟨i, -, -, -, h⟩ := C38_near P PHI M hM hPHI 0 hz
  rw [zero_sub, norm_neg, unitPt_eq] at h
  have : ‖exp (I * (PHI.1 + i * Spec.gridEps PHI M))‖ = 1 := by
    have e : I * ((PHI.1 : ℂ) + i * Spec.gridEps PHI M) = ((PHI.1 + i * Spec.gridEps PHI M : ℝ) : ℂ) * I := by push_cast; ring
    rw [e, norm_exp_ofReal_mul_I]
  rw [this] at h
  linarith

theorem gsPoints_ok {deg : ℕ} {PHI : ℝ × ℝ} {o : NsepOpts} {a : AknsDisc} (h : GsArgs deg PHI o a) (limit : Bool) {p roots : Buf ℂ}
    {c : ℕ → ℂ} (hp : p.Holds 0 (deg + 1) c) (eps : ℝ) (hr : 32 * deg ≤ roots.len) :
    (limit = true ∧ deg < (Spec.gsHits a eps (Spec.poly deg c) PHI deg).length →
      gsPoints limit deg p PHI eps o roots = some (.error EC_OTHER)) ∧
    (¬ (limit = true ∧ deg < (Spec.gsHits a eps (Spec.poly deg c) PHI deg).length) →
      ∃ b, gsPoints limit deg p PHI eps o roots =
          some (.ok ((Spec.Kept o.filt o.box (Spec.gsHits a eps (Spec.poly deg c) PHI deg)).length, b)) ∧
        b.HoldsList (Spec.Kept o.filt o.box (Spec.gsHits a eps (Spec.poly deg c) PHI deg)) ∧ b.len = roots.len) := by
  have hl : (Spec.gsHits a eps (Spec.poly deg c) PHI deg).length = (Spec.gridHits (Spec.poly deg c) PHI (32 * deg)).length := by
    unfold Spec.gsHits; simp
  obtain ⟨b, h1, h2, h3, -⟩ := C38_gridsearch deg (32 * deg) p roots c PHI hp h.h2 (by have := h.h2; omega) h.hPHI (ne_of_lt h.heps) hr
    (by have := h.hsize; omega)
  rw [hl]
  constructor
  · intro hc
    unfold gsPoints
    rw [show nsepOver = 32 from rfl, h1]
    simp only [Option.bind_eq_bind, Option.bind_some, ne_eq, not_true_eq_false, if_false]
    rw [if_pos ⟨hc.1, hc.2⟩]; rfl
  · intro hc
    obtain ⟨b', g1, g2, g3⟩ := z_to_lambda_list (eps := eps) h.hd h.hdeg h2 (hits_ne (by have := h.h2; omega) h.hPHI h.heps)
    obtain ⟨b'', f1, f2, f3⟩ := nsepFilter_ok h.hbox g3
    rw [List.length_map] at f1
    refine ⟨b'', ?_, f2, by rw [f3, g2, h3]⟩
    unfold gsPoints
    rw [show nsepOver = 32 from rfl, h1]
    simp only [Option.bind_eq_bind, Option.bind_some, ne_eq, not_true_eq_false, if_false]
    rw [if_neg (fun hh => hc ⟨hh.1, hh.2⟩), g1]
    simp only [Option.bind_some, not_true_eq_false, if_false]
    exact f1

theorem take_append_take {α : Type*} (l l' : List α) (K : ℕ) :
    (l ++ l').take K = l.take (if l.length > K then K else l.length) ++
      l'.take (if (if l.length > K then K else l.length) + l'.length > K then
        (if (if l.length > K then K else l.length) < K then K - (if l.length > K then K else l.length) else 0) else l'.length) := by
  rw [List.take_append]
  by_cases h : l.length > K
  · rw [if_pos h, show K - l.length = 0 by omega]
    simp only [lt_self_iff_false, if_false]
    split_ifs with h1
    · rfl
    · have : l'.length = 0 := by omega
      rw [this]
  · rw [if_neg h, List.take_of_length_le (show l.length ≤ K by omega), List.take_of_length_le (show l.length ≤ l.length by omega)]
    congr 1
    split_ifs with h1 h2
    · rfl
    · rw [show K - l.length = 0 by omega]
    · rw [List.take_of_length_le (by omega), List.take_of_length_le le_rfl]

theorem gsMain_ok {deg : ℕ} {PHI : ℝ × ℝ} {o : NsepOpts} {a : AknsDisc} (h : GsArgs deg PHI o a) {W : ℤ} {tm main roots : Buf ℂ}
    {y : ℕ → ℂ} (hy : tm.Holds 0 (deg + 1) y) (eps : ℝ) (hr : 32 * deg ≤ roots.len) {off K0 : ℕ} (hm : off + K0 ≤ main.len)
    {Pp Pm : Polynomial ℂ}
    (hPp : Pp = Spec.poly deg fun i => (y i + (starRingEnd ℂ) (y (deg - i))) + if i = deg / 2 then 2 * 2 ^ (-W) else 0)
    (hPm : Pm = Spec.poly deg fun i => (y i + (starRingEnd ℂ) (y (deg - i))) + if i = deg / 2 then (-2) * 2 ^ (-W) else 0)
    {L1 L2 : List ℂ} (hL1 : L1 = Spec.gsHits a eps Pp PHI deg) (hL2 : L2 = Spec.gsHits a eps Pm PHI deg) :
    (deg < L1.length ∨ deg < L2.length → ∃ K m r, gsMain deg W tm PHI eps o off K0 main roots = some (EC_OTHER, K, m, r)) ∧
    (L1.length ≤ deg ∧ L2.length ≤ deg → ∃ m r, gsMain deg W tm PHI eps o off K0 main roots =
        some (SUCCESS, ((Spec.Kept o.filt o.box L1 ++ Spec.Kept o.filt o.box L2).take K0).length, m, r) ∧
      Spec.WroteAt off ((Spec.Kept o.filt o.box L1 ++ Spec.Kept o.filt o.box L2).take K0) main m ∧ r.len = roots.len) := by
  obtain ⟨p0, e1, e2, e3⟩ := nsepPoly_ok hy
  obtain ⟨p1, f1, f2, f3⟩ := addCentre_ok e2 e3 (2 * 2 ^ (-W))
  obtain ⟨p2, g1, g2, g3⟩ := addCentre_ok f2 f3 (-(4 * 2 ^ (-W)))
  have g3' : p2.Holds 0 (deg + 1) fun i => (y i + (starRingEnd ℂ) (y (deg - i))) + if i = deg / 2 then (-2) * 2 ^ (-W) else 0 := by
    intro i hi
    rw [g3 i hi]
    dsimp only
    split_ifs
    · congr 1; ring
    · rw [add_zero]
  obtain ⟨a1, a2⟩ := gsPoints_ok h true f3 eps hr
  rw [← hPp, ← hL1] at a1 a2
  unfold gsMain
  simp only [e1, f1, Option.bind_eq_bind, Option.bind_some]
  by_cases c1 : deg < L1.length
  · constructor
    · intro _
      rw [a1 ⟨rfl, c1⟩]
      exact ⟨_, _, _, rfl⟩
    · intro hc
      exact absurd hc.1 (by omega)
  · obtain ⟨b, b1, b2, b3⟩ := a2 (fun hh => c1 hh.2)
    obtain ⟨m1, k1, k2⟩ := copyAt_ok (off := off) (K := if (Spec.Kept o.filt o.box L1).length > K0 then K0 else (Spec.Kept o.filt o.box L1).length)
      (dst := main) b2 (by split_ifs <;> omega) (by split_ifs <;> omega)
    obtain ⟨d1, d2⟩ := gsPoints_ok h true (roots := b) g3' eps (by omega)
    rw [← hPm, ← hL2] at d1 d2
    rw [b1]
    simp only [Option.bind_some, k1, g1]
    by_cases c2 : deg < L2.length
    · constructor
      · intro _
        rw [d1 ⟨rfl, c2⟩]
        exact ⟨_, _, _, rfl⟩
      · intro hc
        exact absurd hc.2 (by omega)
    · refine ⟨fun hc => absurd hc (by omega), fun _ => ?_⟩
      obtain ⟨b', b1', b2', b3'⟩ := d2 (fun hh => c2 hh.2)
      rw [b1']
      simp only [Option.bind_some]
      have hlen : ((Spec.Kept o.filt o.box L1).take (if (Spec.Kept o.filt o.box L1).length > K0 then K0 else
          (Spec.Kept o.filt o.box L1).length)).length = if (Spec.Kept o.filt o.box L1).length > K0 then K0 else
          (Spec.Kept o.filt o.box L1).length := by
        rw [List.length_take]; split_ifs <;> omega
      obtain ⟨k, hk⟩ : ∃ k, k = if (Spec.Kept o.filt o.box L1).length > K0 then K0 else (Spec.Kept o.filt o.box L1).length := ⟨_, rfl⟩
      have hk0 : k ≤ K0 := by rw [hk]; split_ifs <;> omega
      rw [take_append_take]
      rw [← hk] at hlen k2 ⊢
      obtain ⟨m2, n1, n2⟩ := copyAt_ok (off := off + k) (K := if k + (Spec.Kept o.filt o.box L2).length > K0 then
          (if k < K0 then K0 - k else 0) else (Spec.Kept o.filt o.box L2).length)
        (dst := m1) b2' (by split_ifs <;> omega) (by rw [k2.1]; split_ifs <;> omega)
      rw [n1]
      rw [show off + k = off + ((Spec.Kept o.filt o.box L1).take k).length by rw [hlen]] at n2
      refine ⟨m2, b', ?_, WroteAt.append k2 n2, by rw [b3', b3]⟩
      simp only [Option.bind_some, Option.pure_def, Option.some.injEq, Prod.mk.injEq, true_and, and_true]
      rw [List.length_append, hlen, List.length_take]
      split_ifs <;> omega

theorem gsAux_ok {deg : ℕ} {PHI : ℝ × ℝ} {o : NsepOpts} {a : AknsDisc} (h : GsArgs deg PHI o a) {tm aux roots : Buf ℂ}
    {y : ℕ → ℂ} (hy : tm.Holds 0 (2 * (deg + 1)) y) (eps : ℝ) (hr : 32 * deg ≤ roots.len) {off M0 : ℕ} (hm : off + M0 ≤ aux.len)
    {Pa : Polynomial ℂ} (hPa : Pa = Spec.poly deg fun i => y (deg + 1 + i))
    {L : List ℂ} (hL : L = Spec.Kept o.filt o.box (Spec.gsHits a eps Pa PHI deg)) :
    ∃ m, gsAux deg tm PHI eps o off M0 aux roots = some (SUCCESS, (L.take M0).length, m) ∧ Spec.WroteAt off (L.take M0) aux m := by
  have hv : (tm.view (deg + 1)).Holds 0 (deg + 1) fun i => y (deg + 1 + i) := by
    intro i hi
    have := hy (deg + 1 + i) (by omega)
    rw [Nat.zero_add] at this
    rw [Nat.zero_add, rd_view, this]
  obtain ⟨-, a2⟩ := gsPoints_ok h false hv eps hr
  rw [← hPa, ← hL] at a2
  obtain ⟨b, b1, b2, b3⟩ := a2 (fun hh => absurd hh.1 (by decide))
  obtain ⟨m1, k1, k2⟩ := copyAt_ok (off := off) (K := if L.length > M0 then M0 else L.length)
    (dst := aux) b2 (by split_ifs <;> omega) (by split_ifs <;> omega)
  have ht : L.take (if L.length > M0 then M0 else L.length) = L.take M0 := by
    split_ifs with hc
    · rfl
    · rw [List.take_of_length_le le_rfl, List.take_of_length_le (by omega)]
  unfold gsAux
  rw [b1]
  simp only [Option.bind_eq_bind, Option.bind_some, k1]
  refine ⟨m1, ?_, ht ▸ k2⟩
  simp only [Option.pure_def, Option.some.injEq, Prod.mk.injEq, true_and, and_true]
  rw [List.length_take]
  split_ifs <;> omega

end FNFT

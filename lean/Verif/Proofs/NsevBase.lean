import Verif.Model.Nsev
import Verif.Proofs.NsevCont
import Verif.Proofs.NsevPre
/-!
# Proofs about `fnft_nsev_base` and the skeleton of `fnft_nsev`
-/
namespace FNFT
open Complex AknsDisc

/-- `a(ξ)` after all steps, on the grid. -/
noncomputable def Spec.gridA (a : AknsDisc) (D : ℕ) (T0 T1 eps XI0 XI1 : ℝ) (M : ℕ) (U : ℂ → ℕ → Spec.M2) (i : ℕ) : ℂ :=
  Spec.jostA (Spec.chain (U (Spec.grid XI0 XI1 M i)) (Spec.slowCount a D)) T0 T1 eps (Spec.grid XI0 XI1 M i)

/-- `b(ξ)` after all steps, on the grid. -/
noncomputable def Spec.gridB (a : AknsDisc) (D : ℕ) (T0 T1 eps XI0 XI1 : ℝ) (M : ℕ) (U : ℂ → ℕ → Spec.M2) (i : ℕ) : ℂ :=
  Spec.jostB (Spec.chain (U (Spec.grid XI0 XI1 M i)) (Spec.slowCount a D)) T0 T1 eps (Spec.grid XI0 XI1 M i)

/-- The array `c'` is `c` with its first cells overwritten by the continuous spectrum. -/
structure Spec.ContWritten (cs : CsType) (M : ℕ) (av bv : ℕ → ℂ) (c c' : Buf ℂ) : Prop where
  len : c'.len = c.len
  vals : c'.Holds 0 (Spec.csLen cs * M) (Spec.csOut cs M av bv)
  rest : ∀ j, Spec.csLen cs * M ≤ j → c'.rd j = c.rd j

/-- Arguments that both `fnft_nsev_base` calls accept. -/
structure BaseArgs (D Dg : ℕ) (q r : Buf ℂ) (qf rf : ℕ → ℂ) (T0 T1 eps : ℝ) (kappa : ℤ) (o : NsevOpts) (a : AknsDisc) : Prop where
  hd : nse_to_akns o.disc = .ok a
  hDg : D = Dg * akns_upsampling_factor a
  hDg2 : 2 ≤ Dg
  hD : D ≤ 2147483647
  hq : q.Holds 0 D qf
  hr : r.Holds 0 D rf
  hT : T0 < T1
  hk : |kappa| = 1
  heps : eps = (T1 - T0) / (Dg - 1)
  hal : a = .D2SPLIT2_MODAL → ∀ n < D, (eps * qf n) * (eps * rf n) ≠ 1

variable {D Dg : ℕ} {q r : Buf ℂ} {qf rf : ℕ → ℂ} {T0 T1 eps : ℝ} {kappa : ℤ} {o : NsevOpts} {a : AknsDisc}

theorem BaseArgs.eps_pos (h : BaseArgs D Dg q r qf rf T0 T1 eps kappa o a) : 0 < eps := by
  rw [h.heps]
  have : (2 : ℝ) ≤ Dg := by exact_mod_cast h.hDg2
  exact div_pos (by linarith [h.hT]) (by linarith)

theorem BaseArgs.up_ne (h : BaseArgs D Dg q r qf rf T0 T1 eps kappa o a) : akns_upsampling_factor a ≠ 0 :=
  ((C32_nse_names o.disc).1 a h.hd).2

theorem BaseArgs.up_eq (h : BaseArgs D Dg q r qf rf T0 T1 eps kappa o a) : nse_upsampling_factor o.disc = akns_upsampling_factor a := by
  rw [nse_upsampling_factor, h.hd]

theorem BaseArgs.two_le (h : BaseArgs D Dg q r qf rf T0 T1 eps kappa o a) : 2 ≤ D := by
  rw [h.hDg]; nlinarith [Nat.pos_of_ne_zero h.up_ne, h.hDg2]

theorem BaseArgs.div (h : BaseArgs D Dg q r qf rf T0 T1 eps kappa o a) : D / akns_upsampling_factor a = Dg := by
  rw [h.hDg, Nat.mul_div_cancel _ (Nat.pos_of_ne_zero h.up_ne)]

/-- `fnft_nsev_base` is the computation of the two parts of the spectrum from the transfer matrix. -/
theorem base_run (h : BaseArgs D Dg q r qf rf T0 T1 eps kappa o a) :
    ∃ deg W tm U, TransferData o.disc a D Dg eps qf rf U deg W tm ∧
      ∀ (roots : RootFinder) (M : ℕ) (XI : Option (ℝ × ℝ)) (g : Garbage) (s : NsevSt),
        (s.contspec.isSome → ∃ X, XI = some X ∧ X.1 < X.2) → (s.bs.isSome → s.K ≠ none) →
        nsev_base roots D q r T0 T1 M XI kappa o g s = (do
          let C ← baseCont D q r T0 T1 M XI kappa o deg W tm s
          if C.1 ≠ SUCCESS then return C
          baseDisc roots D q r T0 T1 eps kappa o g deg tm C.2) := by
  obtain ⟨deg, W, tm, U, e1, e2⟩ := transfer_ok h.hd h.hDg h.hDg2 h.hD h.hq h.hr h.eps_pos h.hal o.nrm
  refine ⟨deg, W, tm, U, e2, fun roots M XI g s h1 h2 => ?_⟩
  unfold nsev_base
  rw [if_neg (by have := h.two_le; omega), if_neg (not_le.mpr h.hT), if_neg (by rintro ⟨x1, x2⟩; exact x2 (h1 x1)),
    if_neg (not_not.mpr h.hk), if_neg (by rintro ⟨x1, x2⟩; exact h2 x1 x2)]
  dsimp only
  rw [h.up_eq, if_neg h.up_ne, h.div, if_neg (by have := h.hDg2; omega), ← h.heps, e1]
  simp only [Option.bind_eq_bind, Option.bind_some]

theorem baseCont_ok (h : BaseArgs D Dg q r qf rf T0 T1 eps kappa o a) {U : ℂ → ℕ → Spec.M2} {deg : ℕ} {W : ℤ}
    {tm : Option (Buf ℂ)} (ht : TransferData o.disc a D Dg eps qf rf U deg W tm) {M : ℕ} (hM : 2 ≤ M)
    (hsz : D * akns_degree a + M < 3 ^ 32) (XI0 XI1 : ℝ) (hcs : ∀ n, o.cs ≠ .other n) {s : NsevSt} {c : Buf ℂ}
    (hc : s.contspec = some c) (hlen : Spec.csLen o.cs * M ≤ c.len) :
    let av := Spec.gridA a D T0 T1 eps XI0 XI1 M U
    let bv := Spec.gridB a D T0 T1 eps XI0 XI1 M U
    ((o.cs = .AB ∨ ∀ i, i < M → av i ≠ 0) →
      ∃ c', baseCont D q r T0 T1 M (some (XI0, XI1)) kappa o deg W tm s = some (SUCCESS, { s with contspec := some c' }) ∧
        Spec.ContWritten o.cs M av bv c c') ∧
    (o.cs ≠ .AB → (∃ i, i < M ∧ av i = 0) →
      ∃ c', baseCont D q r T0 T1 M (some (XI0, XI1)) kappa o deg W tm s =
          some (E_SUBROUTINE EC_DIV_BY_ZERO, { s with contspec := some c' }) ∧
        c'.len = c.len ∧ ∀ j, M ≤ j → c'.rd j = c.rd j) := by
  intro av bv
  obtain ⟨h1, h2⟩ := contspec_ok h.hd h.hDg h.hDg2 h.hq h.hr h.hT h.hk hM hsz XI0 XI1 h.heps ht o.nrm hcs hlen av bv
    (fun _ => rfl) (fun _ => rfl)
  have hb : ∀ R, nsev_compute_contspec deg W tm (some q) (some r) T0 T1 D XI0 XI1 M c kappa o.cs o.nrm o.disc = some R →
      baseCont D q r T0 T1 M (some (XI0, XI1)) kappa o deg W tm s =
        some (if R.1 = SUCCESS then SUCCESS else E_SUBROUTINE R.1, { s with contspec := some R.2 }) := by
    intro R hR
    unfold baseCont
    rw [hc]
    dsimp only
    rw [if_pos (by omega), hR]
    rfl
  constructor
  · intro h0
    obtain ⟨c', e1, e2, e3, e4⟩ := h1 h0
    exact ⟨c', by rw [hb _ e1]; rfl, e2, e3, e4⟩
  · intro hne h0
    obtain ⟨c', e1, e2, e3⟩ := h2 hne h0
    exact ⟨c', by rw [hb _ e1]; rfl, e2, e3⟩

/-- Nothing is computed if no continuous spectrum is requested. -/
theorem baseCont_none {M : ℕ} {XI : Option (ℝ × ℝ)} {deg : ℕ} {W : ℤ} {tm : Option (Buf ℂ)} {s : NsevSt}
    (h : s.contspec = none ∨ M = 0) : baseCont D q r T0 T1 M XI kappa o deg W tm s = some (SUCCESS, s) := by
  unfold baseCont
  rcases hs : s.contspec with _ | c
  · rfl
  · rcases h with h | rfl
    · rw [h] at hs; cases hs
    · rfl

/-- Nothing is computed if no discrete spectrum is requested or the system is defocusing. -/
theorem baseDisc_none {roots : RootFinder} {g : Garbage} {deg : ℕ} {tm : Option (Buf ℂ)} {s : NsevSt}
    (h : s.bs = none ∨ kappa = -1) :
    baseDisc roots D q r T0 T1 eps kappa o g deg tm s = some (SUCCESS, { s with K := s.K.map fun _ => 0 }) := by
  unfold baseDisc
  rcases hs : s.bs with _ | b
  · rfl
  · rcases h with h | rfl
    · rw [h] at hs; cases hs
    · rfl

/-- The discrete part does not touch the continuous spectrum. -/
theorem baseDisc_contspec {roots : RootFinder} {g : Garbage} {deg : ℕ} {tm : Option (Buf ℂ)} {s : NsevSt} {R : ℤ × NsevSt}
    (h : baseDisc roots D q r T0 T1 eps kappa o g deg tm s = some R) : R.2.contspec = s.contspec := by
  unfold baseDisc at h
  rcases hs : s.bs with _ | b
  · rw [hs] at h; cases h; rfl
  · rw [hs] at h
    dsimp only at h
    split_ifs at h with hk
    · rw [Option.bind_eq_bind, Option.bind_eq_some_iff] at h
      obtain ⟨K, -, h⟩ := h
      rw [Option.bind_eq_bind, Option.bind_eq_some_iff] at h
      obtain ⟨B, -, h⟩ := h
      split_ifs at h with h1
      · cases h; rfl
      · unfold baseNorm at h
        dsimp only at h
        rcases hn : s.nc with _ | nc
        · rw [hn] at h; cases h; rfl
        · rw [hn] at h
          dsimp only at h
          split_ifs at h with h2
          · rw [Option.bind_eq_bind, Option.bind_eq_some_iff] at h
            obtain ⟨B, -, h⟩ := h
            cases h; rfl
          · cases h; rfl
    · cases h; rfl

theorem baseCont_other {M : ℕ} {XI : Option (ℝ × ℝ)} {deg : ℕ} {W : ℤ} {tm : Option (Buf ℂ)} {s : NsevSt} {R : ℤ × NsevSt}
    (h : baseCont D q r T0 T1 M XI kappa o deg W tm s = some R) : R.2.K = s.K ∧ R.2.bs = s.bs ∧ R.2.nc = s.nc := by
  unfold baseCont at h
  split at h
  · cases h; exact ⟨rfl, rfl, rfl⟩
  · split_ifs at h
    · split at h
      · cases h
      · rw [Option.bind_eq_bind, Option.bind_eq_some_iff] at h
        obtain ⟨B, -, h⟩ := h
        cases h; exact ⟨rfl, rfl, rfl⟩
    · cases h; exact ⟨rfl, rfl, rfl⟩

theorem baseNorm_other {g : Garbage} {K : ℕ} {bs : Buf ℂ} {s : NsevSt} {R : ℤ × NsevSt}
    (h : baseNorm D q r T0 T1 o g K bs s = some R) : R.2.K = s.K ∧ R.2.bs = s.bs ∧ R.2.contspec = s.contspec := by
  unfold baseNorm at h
  split at h
  · cases h; exact ⟨rfl, rfl, rfl⟩
  · split_ifs at h
    · rw [Option.bind_eq_bind, Option.bind_eq_some_iff] at h
      obtain ⟨B, -, h⟩ := h
      cases h; exact ⟨rfl, rfl, rfl⟩
    · cases h; exact ⟨rfl, rfl, rfl⟩

theorem baseDisc_K {roots : RootFinder} {g : Garbage} {deg : ℕ} {tm : Option (Buf ℂ)} {s : NsevSt} {R : ℤ × NsevSt}
    (h : baseDisc roots D q r T0 T1 eps kappa o g deg tm s = some R) (hK : s.K ≠ none) : R.2.K ≠ none := by
  have hm : s.K.map (fun _ => 0) ≠ none := by simpa using hK
  unfold baseDisc at h
  split at h
  · split_ifs at h
    · rw [Option.bind_eq_bind, Option.bind_eq_some_iff] at h
      obtain ⟨K, -, h⟩ := h
      rw [Option.bind_eq_bind, Option.bind_eq_some_iff] at h
      obtain ⟨B, -, h⟩ := h
      split_ifs at h with h1
      · cases h; exact Option.some_ne_none _
      · rw [(baseNorm_other h).1]; exact Option.some_ne_none _
    · cases h; exact hm
  · cases h; exact hm

theorem base_K {roots : RootFinder} {M : ℕ} {XI : Option (ℝ × ℝ)} {g : Garbage} {s : NsevSt} {R : ℤ × NsevSt}
    (h : nsev_base roots D q r T0 T1 M XI kappa o g s = some R) (hK : s.K ≠ none) : R.2.K ≠ none := by
  unfold nsev_base at h
  dsimp only at h
  split_ifs at h
  iterate 6 (cases h; exact hK)
  rw [Option.bind_eq_bind, Option.bind_eq_some_iff] at h
  obtain ⟨T, -, h⟩ := h
  split at h
  · cases h; exact hK
  · rw [Option.bind_eq_bind, Option.bind_eq_some_iff] at h
    obtain ⟨C, hC, h⟩ := h
    have hCK := (baseCont_other hC).1
    split_ifs at h
    · cases h; rw [hCK]; exact hK
    · exact baseDisc_K h (by rw [hCK]; exact hK)

/-! ## The skeleton of `fnft_nsev` -/

/-- Arguments of `fnft_nsev` with a signal that satisfies the documented conditions. -/
structure Spec.NsevArgs (D : ℕ) (q : Buf ℂ) (x : ℕ → ℂ) (T0 T1 : ℝ) (kappa : ℤ) (o : NsevOpts) (a : AknsDisc) : Prop where
  hd : nse_to_akns o.disc = .ok a
  hD : 2 ≤ D
  hCF : Spec.isCF a → 3 ≤ D
  hsize : D * akns_upsampling_factor a ≤ 2147483647
  hq : q.Holds 0 D x
  hT : T0 < T1
  hk : |kappa| = 1
  /-- The Ablowitz-Ladik method divides by `sqrt(1 - |eps q|²)` in the defocusing case. -/
  hal : a = .D2SPLIT2_MODAL → kappa = -1 → ∀ n < D, (T1 - T0) / (D - 1) * ‖x n‖ ≠ 1

theorem modal_ok {kappa : ℤ} (hk : |kappa| = 1) {eps : ℝ} (heps : 0 < eps) {z : ℂ} (h : kappa = -1 → eps * ‖z‖ ≠ 1) :
    ((eps : ℂ) * z) * (eps * (-(kappa : ℂ) * (starRingEnd ℂ) z)) ≠ 1 := by
  have e : ((eps : ℂ) * z) * (eps * (-(kappa : ℂ) * (starRingEnd ℂ) z)) = ((-(kappa : ℝ) * (eps * ‖z‖) ^ 2 : ℝ) : ℂ) := by
    have := Complex.mul_conj' z
    push_cast
    linear_combination (-(kappa : ℂ) * eps ^ 2) * this
  rw [e]
  intro h1
  have h1 : -(kappa : ℝ) * (eps * ‖z‖) ^ 2 = 1 := by exact_mod_cast h1
  have hp : 0 ≤ eps * ‖z‖ := mul_nonneg heps.le (norm_nonneg _)
  rcases (abs_eq (by norm_num)).mp hk with rfl | rfl
  · have h2 : -(eps * ‖z‖) ^ 2 = 1 := by simpa using h1
    nlinarith [sq_nonneg (eps * ‖z‖)]
  · apply h rfl
    have : (eps * ‖z‖) ^ 2 = 1 := by simpa using h1
    nlinarith

theorem Spec.NsevArgs.eps_pos {x : ℕ → ℂ} (h : Spec.NsevArgs D q x T0 T1 kappa o a) : 0 < (T1 - T0) / ((D : ℝ) - 1) := by
  have : (2 : ℝ) ≤ D := by exact_mod_cast h.hD
  exact div_pos (by linarith [h.hT]) (by linarith)

theorem Spec.NsevArgs.lt {x : ℕ → ℂ} (h : Spec.NsevArgs D q x T0 T1 kappa o a) : D < 2 * 3 ^ 32 := by
  have hup : akns_upsampling_factor a ≠ 0 := ((C32_nse_names o.disc).1 a h.hd).2
  have := h.hsize
  have : D ≤ D * akns_upsampling_factor a := Nat.le_mul_of_pos_right _ (Nat.pos_of_ne_zero hup)
  have : (2147483647 : ℕ) < 2 * 3 ^ 32 := by norm_num
  omega

/-- The preprocessed signal and the arguments of `fnft_nsev_base`. -/
theorem nsev_pre {x : ℕ → ℂ} (h : Spec.NsevArgs D q x T0 T1 kappa o a) :
    ∃ qp rp qf rf, nse_preprocess_signal D (some q) ((T1 - T0) / (D - 1)) kappa D o.disc =
        some ⟨SUCCESS, D, some (qp, rp), some (0, (D - 1) * 1)⟩ ∧
      Spec.Processed a kappa D ((T1 - T0) / (D - 1)) x D 1 qf rf ∧
      ∀ o' : NsevOpts, o'.disc = o.disc →
        BaseArgs (D * akns_upsampling_factor a) D qp rp qf rf T0 T1 ((T1 - T0) / (D - 1)) kappa o' a := by
  have hup : akns_upsampling_factor a ≠ 0 := ((C32_nse_names o.disc).1 a h.hd).2
  obtain ⟨Dsub, s, qp, rp, qf, rf, h1, h2, h3, h4, h5⟩ := nse_pre_ok h.hd h.hD h.hCF h.lt h.hq h.eps_pos h.hk D
  obtain ⟨rfl, rfl⟩ : Dsub = D ∧ s = 1 := h2.2.2.2.2.2 le_rfl
  refine ⟨qp, rp, qf, rf, h1, h5, fun o' ho' => ⟨by rw [ho']; exact h.hd, rfl, h.hD, h.hsize, h3, h4, h.hT, h.hk, rfl, ?_⟩⟩
  rintro rfl n hn
  rw [Spec.Processed, if_pos (by rfl)] at h5
  have hn' : n < Dsub := by simpa [akns_upsampling_factor] using hn
  obtain ⟨e1, e2⟩ := h5 n hn'
  rw [e1, e2, Nat.one_mul]
  have := modal_ok h.hk h.eps_pos (z := x n) (fun hk => h.hal rfl hk n hn')
  push_cast at this ⊢
  exact this

/-- Requests that `fnft_nsev` accepts. -/
structure Spec.NsevReq (kappa : ℤ) (o : NsevOpts) (XI : Option (ℝ × ℝ)) (s : NsevSt) : Prop where
  hXI : s.contspec.isSome → ∃ X, XI = some X ∧ X.1 < X.2
  hK : s.bs.isSome → s.K ≠ none
  hloc : kappa = 1 → s.bs.isSome → nse_degree o.disc = 0 → o.loc = .NEWTON

theorem nsevFast_iff {d : NseDisc} (h : ∀ n, d ≠ .other n) : nsevFast d = false ↔ nse_degree d = 0 := by
  cases d <;> first | exact absurd rfl (h _) | (unfold nsevFast nse_degree; simp [nse_to_akns, akns_degree])

theorem nsev_not_reject {x : ℕ → ℂ} (h : Spec.NsevArgs D q x T0 T1 kappa o a) {XI : Option (ℝ × ℝ)} {s : NsevSt}
    (hr : Spec.NsevReq kappa o XI s) : ¬ nsevReject D (some q) (some (T0, T1)) XI kappa o s := by
  have hkn : ∀ n, o.disc ≠ .other n := ((C32_nse_names o.disc).2).1 ⟨a, h.hd⟩
  rintro (c | c | c | ⟨c, c'⟩ | c | ⟨c, c'⟩ | ⟨n, c⟩ | ⟨c1, c2, c3, c4⟩)
  · have := h.hD; omega
  · cases c
  · exact c ⟨_, rfl, h.hT⟩
  · exact c' (hr.hXI c)
  · exact c h.hk
  · exact hr.hK c c'
  · exact hkn n c
  · exact c2 (hr.hloc c3 c4 ((nsevFast_iff hkn).mp c1))

theorem chk_success {ec : ℤ} : chk ec = SUCCESS ↔ ec = SUCCESS := by
  unfold chk E_SUBROUTINE SUCCESS
  split_ifs with h
  · simp [h]
  · simp [h]

theorem nsevCallBase_opts {roots : RootFinder} {qr : Buf ℂ × Buf ℂ} {T : ℝ × ℝ} {M : ℕ} {XI : Option (ℝ × ℝ)} {g : Garbage}
    {useResv : Bool} {m : NsevMain} {F : ℤ × NsevMain}
    (h : nsevCallBase roots D qr T M XI kappa g useResv m = some F) : F.2.opts = m.opts := by
  unfold nsevCallBase at h
  split at h
  all_goals
    rw [Option.bind_eq_bind, Option.bind_eq_some_iff] at h
    obtain ⟨R, -, h⟩ := h
    cases h; rfl

/-- The first approximation leaves `*opts` as it was, if it succeeds. -/
theorem nsevFirst_opts {roots : RootFinder} {qr : Buf ℂ × Buf ℂ} {T : ℝ × ℝ} {M : ℕ} {XI : Option (ℝ × ℝ)} {g : ℕ → Garbage}
    {m : NsevMain} {F : ℤ × NsevMain} (h : nsevFirst roots D q qr T eps M XI kappa g m = some F) (hs : F.1 = SUCCESS) :
    F.2.opts = m.opts := by
  unfold nsevFirst at h
  split_ifs at h with hm
  · unfold nsevMixed at h
    rw [Option.bind_eq_bind, Option.bind_eq_some_iff] at h
    obtain ⟨Dsub, -, h⟩ := h
    rw [Option.bind_eq_bind, Option.bind_eq_some_iff] at h
    obtain ⟨P, -, h⟩ := h
    split at h
    · rw [Option.bind_eq_bind, Option.bind_eq_some_iff] at h
      obtain ⟨R, -, h⟩ := h
      split_ifs at h with h1
      · cases h
        exact absurd (chk_success.mp hs) h1
      · rw [Option.bind_eq_bind, Option.bind_eq_some_iff] at h
        obtain ⟨S, h2, h⟩ := h
        split_ifs at h with h3
        · cases h; exact absurd hs h3
        · cases h
          have := nsevCallBase_opts h2
          dsimp only at this ⊢
          rw [this, ← hm.2.2]
    · cases h; rfl
  · exact nsevCallBase_opts h

/-- `fnft_nsev` without Richardson extrapolation. -/
theorem nsev_run {x : ℕ → ℂ} (h : Spec.NsevArgs D q x T0 T1 kappa o a) {XI : Option (ℝ × ℝ)} {s : NsevSt}
    (hr : Spec.NsevReq kappa o XI s) (hrich : o.rich ≠ 1) :
    ∃ qp rp qf rf, Spec.Processed a kappa D ((T1 - T0) / (D - 1)) x D 1 qf rf ∧
      (∀ o' : NsevOpts, o'.disc = o.disc →
        BaseArgs (D * akns_upsampling_factor a) D qp rp qf rf T0 T1 ((T1 - T0) / (D - 1)) kappa o' a) ∧
      ∀ (roots : RootFinder) (M : ℕ) (g : ℕ → Garbage),
        fnft_nsev roots D (some q) (some (T0, T1)) M XI kappa o g s = (do
          let F ← nsevFirst roots D q (qp, rp) (T0, T1) ((T1 - T0) / (D - 1)) M XI kappa g ⟨s, o, none⟩
          return (F.1, F.2.st, F.2.opts)) := by
  obtain ⟨qp, rp, qf, rf, h1, h2, h3⟩ := nsev_pre h
  refine ⟨qp, rp, qf, rf, h2, h3, fun roots M g => ?_⟩
  have hup : nse_upsampling_factor o.disc = akns_upsampling_factor a := by rw [nse_upsampling_factor, h.hd]
  have hup0 : akns_upsampling_factor a ≠ 0 := ((C32_nse_names o.disc).1 a h.hd).2
  unfold fnft_nsev
  rw [if_neg (nsev_not_reject h hr), hup, if_neg hup0]
  have hres : nsevReserve ⟨s, o, none⟩ = some ⟨s, o, none⟩ := by
    unfold nsevReserve
    rw [if_neg (by rintro ⟨c, -⟩; exact hrich c)]
  simp only [Option.bind_eq_bind, Option.bind_some, hres, h1]
  rcases hF : nsevFirst roots D q (qp, rp) (T0, T1) ((T1 - T0) / (D - 1)) M XI kappa g ⟨s, o, none⟩ with _ | F
  · rfl
  · simp only [Option.bind_some]
    split_ifs with hs
    · rfl
    · have ho : F.2.opts.rich = o.rich := by
        rw [nsevFirst_opts hF (not_not.mp hs)]
      unfold nsevRichIf
      rw [if_neg (by rw [ho]; exact hrich)]
      have : F.1 = SUCCESS := not_not.mp hs
      simp [this]

end FNFT

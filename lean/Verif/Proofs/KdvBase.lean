import Verif.Proofs.KdvCont
import Verif.Proofs.NsevBase
import Verif.Spec.Kdv
/-!
# Proofs about `fnft_kdvv_base` and the skeleton of `fnft_kdvv`
-/
namespace FNFT
open Complex AknsDisc

theorem kdv_pre_ok {d : KdvDisc} {a : AknsDisc} (hd : kdv_to_akns d = .ok a) {D : ℕ} (hD : 2 ≤ D) (hCF : Spec.isCF a → 3 ≤ D)
    (hlt : D < 2 * 3 ^ 32) {q : Buf ℂ} {x : ℕ → ℂ} (hq : q.Holds 0 D x) {eps : ℝ} (heps : 0 < eps) (Dsub0 : ℕ) :
    ∃ Dsub s qp rp qf rf, kdv_preprocess_signal D (some q) eps Dsub0 d =
        some ⟨SUCCESS, Dsub, some (qp, rp), some (0, (Dsub - 1) * s)⟩ ∧
      Spec.SubGrid D Dsub0 Dsub s ∧ qp.Holds 0 (Dsub * akns_upsampling_factor a) qf ∧
      rp.Holds 0 (Dsub * akns_upsampling_factor a) rf ∧ Spec.KdvProcessed a D eps x Dsub s qf rf := by
  have hu : akns_upsampling_factor a ≠ 0 := (kdv_known hd).1
  have hrun : ∀ R, akns_preprocess_signal D (some q) kdv_r_from_q eps Dsub0 a = some R → R.ret = SUCCESS →
      kdv_preprocess_signal D (some q) eps Dsub0 d = some R := by
    intro R h1 h2
    simp only [kdv_preprocess_signal, hd, h1, Option.bind_eq_bind, Option.bind_some, h2, if_true, Option.pure_def]
  rcases disc_cases hu with h | h | h
  · obtain ⟨Dsub, s, qp, rp, h1, h2, h3, h4, h5, h6⟩ := C34_pointwise a h D hD q x hq eps heps kdv_r_from_q Dsub0
    refine ⟨Dsub, s, qp, rp, _, _, hrun _ h1 rfl, h2, by rw [h, Nat.mul_one]; exact h5, by rw [h, Nat.mul_one]; exact h6, ?_⟩
    rw [Spec.KdvProcessed, if_pos h]
    exact fun j hj => ⟨rfl, rfl⟩
  · have hup : akns_upsampling_factor a = 3 := by rcases h with h | h <;> subst h <;> rfl
    obtain ⟨Dsub, s, qp, rp, h1, h2, h3, h4, h5, h6⟩ := C34_es4 a h D hD q x hq eps heps kdv_r_from_q Dsub0
    refine ⟨Dsub, s, qp, rp, _, _, hrun _ h1 rfl, h2, by rw [hup]; exact h5, by rw [hup]; exact h6, ?_⟩
    rw [Spec.KdvProcessed, if_neg (by omega), if_pos h]
    exact fun j hj => ⟨rfl, rfl⟩
  · obtain ⟨c, hc⟩ := (C36_interpolant D (by omega) eps heps.ne' x).1
    obtain ⟨w, ew, hw⟩ := weights_exist h
    obtain ⟨Dsub, s, qp, rp, h1, h2, h3, h4, h5, h6⟩ := C34_commutator_free a h D (hCF h) hlt q x hq eps heps
      kdv_r_from_q Dsub0 c hc w ew hw
    refine ⟨Dsub, s, qp, rp, _, _, hrun _ h1 rfl, h2, h5, h6, ?_⟩
    have n1 : akns_upsampling_factor a ≠ 1 := by rcases h with h | h | h | h | h | h <;> subst h <;> decide
    have n2 : ¬ (a = ES4 ∨ a = TES4) := by rcases h with h | h | h | h | h | h <;> subst h <;> decide
    rw [Spec.KdvProcessed, if_neg n1, if_neg n2]
    exact ⟨c, w, ew, hc, hw, fun i hi => ⟨rfl, rfl⟩⟩

/-- Arguments that both `fnft_kdvv_base` calls accept. -/
structure KdvBaseArgs (D Dg : ℕ) (q r : Buf ℂ) (qf rf : ℕ → ℂ) (T0 T1 eps : ℝ) (o : KdvvOpts) (a : AknsDisc) (v : ℕ) : Prop where
  hd : kdv_to_akns o.disc = .ok a
  hv : kdv_vanilla_flag o.disc = .ok v
  hDg : D = Dg * akns_upsampling_factor a
  hDg2 : 2 ≤ Dg
  hD : D ≤ 2147483647
  hq : q.Holds 0 D qf
  hr : r.Holds 0 D rf
  hT : T0 < T1
  heps : eps = (T1 - T0) / (Dg - 1)
  hal : a = .D2SPLIT2_MODAL → ∀ n < D, (eps * qf n) * (eps * rf n) ≠ 1

variable {D Dg : ℕ} {q r : Buf ℂ} {qf rf : ℕ → ℂ} {T0 T1 eps : ℝ} {o : KdvvOpts} {a : AknsDisc} {v : ℕ}

theorem KdvBaseArgs.eps_pos (h : KdvBaseArgs D Dg q r qf rf T0 T1 eps o a v) : 0 < eps := by
  rw [h.heps]
  have : (2 : ℝ) ≤ Dg := by exact_mod_cast h.hDg2
  exact div_pos (by linarith [h.hT]) (by linarith)

theorem KdvBaseArgs.up_ne (h : KdvBaseArgs D Dg q r qf rf T0 T1 eps o a v) : akns_upsampling_factor a ≠ 0 := (kdv_known h.hd).1

theorem KdvBaseArgs.up_eq (h : KdvBaseArgs D Dg q r qf rf T0 T1 eps o a v) :
    kdv_upsampling_factor o.disc = akns_upsampling_factor a := by
  rw [kdv_upsampling_factor, h.hd]

theorem KdvBaseArgs.two_le (h : KdvBaseArgs D Dg q r qf rf T0 T1 eps o a v) : 2 ≤ D := by
  rw [h.hDg]; nlinarith [Nat.pos_of_ne_zero h.up_ne, h.hDg2]

theorem KdvBaseArgs.div (h : KdvBaseArgs D Dg q r qf rf T0 T1 eps o a v) : D / akns_upsampling_factor a = Dg := by
  rw [h.hDg, Nat.mul_div_cancel _ (Nat.pos_of_ne_zero h.up_ne)]

/-- `fnft_kdvv_base` is the computation of the two parts of the spectrum from the transfer matrix. -/
theorem kdv_base_run (h : KdvBaseArgs D Dg q r qf rf T0 T1 eps o a v) :
    ∃ deg W tm U, KdvTransferData a D Dg eps (swapIf v qf rf) (swapIf v rf qf) U deg W tm ∧
      ∀ (next : NextToward) (M : ℕ) (XI : Option (ℝ × ℝ)) (g : Garbage) (s : NsevSt),
        (s.contspec.isSome → ∃ X, XI = some X ∧ X.1 < X.2) → (s.bs.isSome → s.K ≠ none) →
        kdvv_base next D q r T0 T1 M XI o g s = (do
          let C ← kdvBaseCont D q r T0 T1 M XI o deg W tm s
          if C.1 ≠ SUCCESS then return C
          kdvBaseDisc next D q r T0 T1 eps o g C.2) := by
  obtain ⟨deg, W, tm, U, e1, e2⟩ := kdvTransfer_ok h.hd h.hv h.hDg h.hDg2 h.hD h.hq h.hr h.eps_pos h.hal o.nrm
  refine ⟨deg, W, tm, U, e2, fun next M XI g s h1 h2 => ?_⟩
  unfold kdvv_base
  rw [if_neg (by have := h.two_le; omega), if_neg (not_le.mpr h.hT), if_neg (by rintro ⟨x1, x2⟩; exact x2 (h1 x1)),
    if_neg (by rintro ⟨x1, x2⟩; exact h2 x1 x2)]
  dsimp only
  rw [h.up_eq, if_neg h.up_ne, h.div, if_neg (by have := h.hDg2; omega), ← h.heps, e1]
  simp only [Option.bind_eq_bind, Option.bind_some]

theorem kdvBaseCont_ok (h : KdvBaseArgs D Dg q r qf rf T0 T1 eps o a v) {U : ℂ → ℕ → Spec.M2} {deg : ℕ} {W : ℤ}
    {tm : Option (Buf ℂ)} (ht : KdvTransferData a D Dg eps (swapIf v qf rf) (swapIf v rf qf) U deg W tm) {M : ℕ} (hM : 2 ≤ M)
    (hsz : D * akns_degree a + M < 3 ^ 32) (XI0 XI1 : ℝ) (hXI : ∀ i, i < M → Spec.grid XI0 XI1 M i ≠ 0)
    (hcs : ∀ n, o.cs ≠ .other n) {s : NsevSt} {c : Buf ℂ}
    (hc : s.contspec = some c) (hlen : Spec.csLen o.cs * M ≤ c.len) :
    let av := fun i => Spec.kdvA (v ≠ 0) U (Spec.slowCount a D) T0 T1 eps (Spec.grid XI0 XI1 M i)
    let bv := fun i => Spec.kdvB (v ≠ 0) U (Spec.slowCount a D) T0 T1 eps (Spec.grid XI0 XI1 M i)
    ((o.cs = .AB ∨ ∀ i, i < M → av i ≠ 0) →
      ∃ c', kdvBaseCont D q r T0 T1 M (some (XI0, XI1)) o deg W tm s = some (SUCCESS, { s with contspec := some c' }) ∧
        Spec.ContWritten o.cs M av bv c c') ∧
    (o.cs ≠ .AB → (∃ i, i < M ∧ av i = 0) →
      ∃ c', kdvBaseCont D q r T0 T1 M (some (XI0, XI1)) o deg W tm s =
          some (E_SUBROUTINE EC_DIV_BY_ZERO, { s with contspec := some c' }) ∧
        c'.len = c.len ∧ ∀ j, M ≤ j → c'.rd j = c.rd j) := by
  intro av bv
  obtain ⟨h1, h2⟩ := kdv_contspec_ok h.hd h.hv h.hDg h.hDg2 h.hq h.hr h.hT hM hsz XI0 XI1 hXI h.heps ht o.nrm hcs hlen
    (fun i => Spec.kdvS (v ≠ 0) (U (Spec.grid XI0 XI1 M i)) (Spec.slowCount a D) (Spec.grid XI0 XI1 M i)) av bv
    (fun _ => rfl) (fun _ => rfl) (fun _ => rfl)
  have hb : ∀ R, kdvv_compute_contspec deg W tm (some q) (some r) T0 T1 D XI0 XI1 M c o.cs o.nrm o.disc = some R →
      kdvBaseCont D q r T0 T1 M (some (XI0, XI1)) o deg W tm s =
        some (chk R.1, { s with contspec := some R.2 }) := by
    intro R hR
    unfold kdvBaseCont
    rw [hc]
    dsimp only
    rw [if_pos (by omega), hR]
    rfl
  constructor
  · intro h0
    obtain ⟨c', e1, e2, e3, e4⟩ := h1 h0
    exact ⟨c', by rw [hb _ e1]; rfl, e2, e3, e4⟩
  · intro hne h0
    obtain ⟨c', e1, e2, e3⟩ := h2 hne h0
    exact ⟨c', by rw [hb _ e1]; rfl, e2, e3⟩

theorem kdvBaseCont_none {M : ℕ} {XI : Option (ℝ × ℝ)} {deg : ℕ} {W : ℤ} {tm : Option (Buf ℂ)} {s : NsevSt}
    (h : s.contspec = none ∨ M = 0) : kdvBaseCont D q r T0 T1 M XI o deg W tm s = some (SUCCESS, s) := by
  unfold kdvBaseCont
  rcases hs : s.contspec with _ | c
  · rfl
  · rcases h with h | rfl
    · rw [h] at hs; cases hs
    · rfl

theorem kdvBaseDisc_none {next : NextToward} {g : Garbage} {s : NsevSt} (h : s.bs = none ∨ s.K = some 0) :
    kdvBaseDisc next D q r T0 T1 eps o g s = some (SUCCESS, { s with K := s.K.map fun _ => 0 }) := by
  unfold kdvBaseDisc
  rcases hs : s.bs with _ | b
  · rfl
  · rcases h with h | h
    · rw [h] at hs; cases hs
    · rw [h]; rfl

/-- The parts that the norming constants do not touch. -/
theorem kdvBaseNorm_other {g : Garbage} {K : ℕ} {bs : Buf ℂ} {s : NsevSt} {R : ℤ × NsevSt}
    (h : kdvBaseNorm D q r T0 T1 o g K bs s = some R) : R.2.K = s.K ∧ R.2.bs = s.bs ∧ R.2.contspec = s.contspec := by
  unfold kdvBaseNorm at h
  split at h
  · cases h; exact ⟨rfl, rfl, rfl⟩
  · split_ifs at h
    · rw [Option.bind_eq_bind, Option.bind_eq_some_iff] at h
      obtain ⟨B, -, h⟩ := h
      cases h; exact ⟨rfl, rfl, rfl⟩
    · cases h; exact ⟨rfl, rfl, rfl⟩

/-- The discrete part does not touch the continuous spectrum. -/
theorem kdvBaseDisc_contspec {next : NextToward} {g : Garbage} {s : NsevSt} {R : ℤ × NsevSt}
    (h : kdvBaseDisc next D q r T0 T1 eps o g s = some R) : R.2.contspec = s.contspec := by
  unfold kdvBaseDisc at h
  split at h
  · rw [Option.bind_eq_bind, Option.bind_eq_some_iff] at h
    obtain ⟨K, -, h⟩ := h
    split_ifs at h with h0
    · rw [Option.bind_eq_bind, Option.bind_eq_some_iff] at h
      obtain ⟨B, -, h⟩ := h
      split_ifs at h with h1
      · cases h; rfl
      · rw [(kdvBaseNorm_other h).2.2]
    · cases h; rfl
  · cases h; rfl

theorem kdvBaseCont_other {M : ℕ} {XI : Option (ℝ × ℝ)} {deg : ℕ} {W : ℤ} {tm : Option (Buf ℂ)} {s : NsevSt} {R : ℤ × NsevSt}
    (h : kdvBaseCont D q r T0 T1 M XI o deg W tm s = some R) : R.2.K = s.K ∧ R.2.bs = s.bs ∧ R.2.nc = s.nc := by
  unfold kdvBaseCont at h
  split at h
  · cases h; exact ⟨rfl, rfl, rfl⟩
  · split_ifs at h
    · split at h
      · cases h
      · rw [Option.bind_eq_bind, Option.bind_eq_some_iff] at h
        obtain ⟨B, -, h⟩ := h
        cases h; exact ⟨rfl, rfl, rfl⟩
    · cases h; exact ⟨rfl, rfl, rfl⟩

/-! ## The skeleton of `fnft_kdvv` -/

/-- Arguments of `fnft_kdvv` with a real signal that satisfies the documented conditions. -/
structure Spec.KdvvArgs (D : ℕ) (q : Buf ℂ) (x : ℕ → ℝ) (T0 T1 : ℝ) (o : KdvvOpts) (a : AknsDisc) (v : ℕ) : Prop where
  hd : kdv_to_akns o.disc = .ok a
  hv : kdv_vanilla_flag o.disc = .ok v
  hD : 2 ≤ D
  hCF : Spec.isCF a → 3 ≤ D
  hsize : D * akns_upsampling_factor a ≤ 2147483647
  hq : q.Holds 0 D (fun i => (x i : ℂ))
  hT : T0 < T1
  /-- The Ablowitz-Ladik method divides by `sqrt(1 + eps² q)`. -/
  hal : a = .D2SPLIT2_MODAL → ∀ n < D, ((T1 - T0) / (D - 1)) ^ 2 * x n ≠ -1

variable {x : ℕ → ℝ}

theorem Spec.KdvvArgs.eps_pos (h : Spec.KdvvArgs D q x T0 T1 o a v) : 0 < (T1 - T0) / ((D : ℝ) - 1) := by
  have : (2 : ℝ) ≤ D := by exact_mod_cast h.hD
  exact div_pos (by linarith [h.hT]) (by linarith)

theorem Spec.KdvvArgs.lt (h : Spec.KdvvArgs D q x T0 T1 o a v) : D < 2 * 3 ^ 32 := by
  have hup : akns_upsampling_factor a ≠ 0 := (kdv_known h.hd).1
  have := h.hsize
  have : D ≤ D * akns_upsampling_factor a := Nat.le_mul_of_pos_right _ (Nat.pos_of_ne_zero hup)
  have : (2147483647 : ℕ) < 2 * 3 ^ 32 := by norm_num
  omega

/-- The preprocessed signal and the arguments of `fnft_kdvv_base`. -/
theorem kdvv_pre (h : Spec.KdvvArgs D q x T0 T1 o a v) :
    ∃ qp rp qf rf, kdv_preprocess_signal D (some q) ((T1 - T0) / (D - 1)) D o.disc =
        some ⟨SUCCESS, D, some (qp, rp), some (0, (D - 1) * 1)⟩ ∧
      Spec.KdvProcessed a D ((T1 - T0) / (D - 1)) (fun i => (x i : ℂ)) D 1 qf rf ∧
      ∀ o' : KdvvOpts, o'.disc = o.disc →
        KdvBaseArgs (D * akns_upsampling_factor a) D qp rp qf rf T0 T1 ((T1 - T0) / (D - 1)) o' a v := by
  obtain ⟨Dsub, s, qp, rp, qf, rf, h1, h2, h3, h4, h5⟩ := kdv_pre_ok h.hd h.hD h.hCF h.lt h.hq h.eps_pos D
  obtain ⟨rfl, rfl⟩ : Dsub = D ∧ s = 1 := h2.2.2.2.2.2 le_rfl
  refine ⟨qp, rp, qf, rf, h1, h5, fun o' ho' => ⟨by rw [ho']; exact h.hd, by rw [ho']; exact h.hv, rfl, h.hD, h.hsize, h3, h4, h.hT, rfl, ?_⟩⟩
  rintro rfl n hn
  rw [Spec.KdvProcessed, if_pos (by rfl)] at h5
  have hn' : n < Dsub := by simpa [akns_upsampling_factor] using hn
  obtain ⟨e1, e2⟩ := h5 n hn'
  rw [e1, e2, Nat.one_mul]
  intro hc
  apply h.hal rfl n hn'
  have : ((((T1 - T0) / (Dsub - 1)) ^ 2 * x n : ℝ) : ℂ) = ((-1 : ℝ) : ℂ) := by
    push_cast at hc ⊢
    linear_combination -hc
  exact_mod_cast this

/-- Requests that `fnft_kdvv` accepts. -/
structure Spec.KdvvReq (o : KdvvOpts) (M : ℕ) (XI : Option (ℝ × ℝ)) (s : NsevSt) : Prop where
  hXI : s.contspec.isSome → ∃ X, XI = some X ∧ X.1 < X.2
  hM : M = 0 ∨ XI ≠ none
  /-- The frequency zero is not on the grid. -/
  hgrid : ∀ X, XI = some X → 2 ≤ M → ∀ i, i < M → Spec.grid X.1 X.2 M i ≠ 0
  hM1 : M ≠ 1
  hK : s.bs.isSome → s.K ≠ none
  /-- Guesses for Newton's method are on the positive imaginary axis. -/
  hguess : o.loc = .NEWTON → ∀ bs K i u, s.bs = some bs → s.K = some K → i < K → bs.rd i = some u → u.re = 0 ∧ 0 < u.im

theorem kdvv_not_reject (h : Spec.KdvvArgs D q x T0 T1 o a v) {M : ℕ} {XI : Option (ℝ × ℝ)} {s : NsevSt}
    (hr : Spec.KdvvReq o M XI s) : ¬ kdvReject1 D (some q) (some (T0, T1)) XI s ∧ ¬ (M > 0 ∧ XI = none) ∧
      (¬ ∃ X, XI = some X ∧ kdvGridZero M X) ∧ ¬ kdvReject2 o s := by
  refine ⟨?_, ?_, ?_, ?_⟩
  · rintro (c | c | ⟨b, u, i, c1, c2, c3, c4⟩ | c | ⟨c, c'⟩)
    · have := h.hD; omega
    · cases c
    · cases c1
      have := h.hq i c2
      rw [Nat.zero_add, c3] at this
      cases this
      exact c4 (by simp)
    · exact c ⟨_, rfl, h.hT⟩
    · exact c' (hr.hXI c)
  · rintro ⟨c1, c2⟩
    rcases hr.hM with c | c
    · omega
    · exact c c2
  · rintro ⟨X, c1, i, c2, c3, c4⟩
    refine hr.hgrid X c1 (by omega) i c2 ?_
    rw [← c4, Spec.grid]; ring
  · rintro ⟨bs, c1, c2 | ⟨c2, K, i, u, c3, c4, c5, c6⟩⟩
    · exact hr.hK (by rw [c1]; rfl) c2
    · obtain ⟨e1, e2⟩ := hr.hguess c2 bs K i u c1 c3 c4 c5
      rcases c6 with c6 | c6
      · exact c6 e1
      · linarith

/-- `fnft_kdvv` without Richardson extrapolation. -/
theorem kdvv_run (h : Spec.KdvvArgs D q x T0 T1 o a v) {M : ℕ} {XI : Option (ℝ × ℝ)} {s : NsevSt}
    (hr : Spec.KdvvReq o M XI s) (hrich : o.rich ≠ 1) :
    ∃ qp rp qf rf, Spec.KdvProcessed a D ((T1 - T0) / (D - 1)) (fun i => (x i : ℂ)) D 1 qf rf ∧
      KdvBaseArgs (D * akns_upsampling_factor a) D qp rp qf rf T0 T1 ((T1 - T0) / (D - 1)) o a v ∧
      ∀ (next : NextToward) (g : ℕ → Garbage),
        fnft_kdvv next D (some q) (some (T0, T1)) M XI o g s = (do
          let F ← kdvv_base next (D * akns_upsampling_factor a) qp rp T0 T1 M XI o (g 0) s
          return (chk F.1, F.2, o)) := by
  obtain ⟨qp, rp, qf, rf, h1, h2, h3⟩ := kdvv_pre h
  refine ⟨qp, rp, qf, rf, h2, h3 o rfl, fun next g => ?_⟩
  have hup : kdv_upsampling_factor o.disc = akns_upsampling_factor a := by rw [kdv_upsampling_factor, h.hd]
  have hup0 : akns_upsampling_factor a ≠ 0 := (kdv_known h.hd).1
  obtain ⟨r1, r2, r3, r4⟩ := kdvv_not_reject h hr
  unfold fnft_kdvv
  rw [if_neg r1, if_neg r2, if_neg r3, if_neg r4]
  simp only [Option.bind_eq_bind, Option.bind_some]
  unfold kdvvRun
  rw [hup, if_neg hup0]
  have hres : kdvReserve ⟨s, o, none⟩ = some ⟨s, o, none⟩ := by
    unfold kdvReserve
    rw [if_neg (by rintro ⟨c, -⟩; exact hrich c)]
  simp only [Option.bind_eq_bind, Option.bind_some, hres, h1]
  rcases hF : kdvv_base next (D * akns_upsampling_factor a) qp rp T0 T1 M XI o (g 0) s with _ | F
  · rfl
  · simp only [Option.bind_some]
    split_ifs with hs
    · rfl
    · have : F.1 = SUCCESS := not_not.mp hs
      unfold kdvRichIf
      simp [hrich, this, chk]

end FNFT

import Verif.Model.Nsev
import Verif.Model.ManFscatter
import Verif.Model.ManScatter
/-!
# Model of /repo/src/fnft_manakovv.c

The root finder `poly_roots_fasteigen` (Fortran) is a parameter, as in `Model/Nsev`. All allocations succeed. The argument
`normconsts_or_residues` is not used by the code (apart from a comparison of pointers) and does not occur here.
-/
namespace FNFT
open Complex

/-- `fnft_manakovv_bsfilt_t`, /repo/include/fnft_manakovv.h:48-52. -/
inductive ManFilt | NONE | BASIC | FULL | other (n : ℤ)
  deriving DecidableEq

/-- `fnft_manakovv_opts_t`, /repo/include/fnft_manakovv.h:169-179. The types of the fields `loc`, `ds`, `cs` have the same
enumerators as those of `fnft_nsev_opts_t`. -/
structure ManvOpts where
  filt : ManFilt
  loc : BsLoc
  niter : ℕ
  Dsub : ℕ
  ds : DsType
  cs : CsType
  nrm : Bool
  disc : ManDisc
  rich : ℤ

/-- `default_opts` and `fnft_manakovv_default_opts`, fnft_manakovv.c:28-47. -/
def manakovv_default_opts : ManvOpts where
  filt := .FULL
  loc := .SUBSAMPLE_AND_REFINE
  niter := 10
  Dsub := 0
  ds := .NORMING_CONSTANTS
  cs := .REFLECTION_COEFFICIENT
  nrm := true
  disc := .D2SPLIT4B
  rich := 0

/-- `fnft_manakovv_max_K`, fnft_manakovv.c:53-59. -/
def manakovv_max_K (D : ℕ) (opts : Option ManvOpts) : ℕ :=
  match opts with
  | some o => man_degree o.disc * D
  | none => man_degree manakovv_default_opts.disc * D

/-- The output arguments: `contspec`, `*K_ptr`, `bound_states` (`none`: the pointer is NULL). -/
structure ManvSt where
  contspec : Option (Buf ℂ)
  K : Option ℕ
  bs : Option (Buf ℂ)

/-! ## Continuous spectrum -/

/-- `H11_vals`, `H21_vals`, `H31_vals` (three parts of one block in C). -/
abbrev Man3 := Buf ℂ × Buf ℂ × Buf ℂ

/-- Copy of the first column of the scattering matrix for frequency `i`, fnft_manakovv.c:579-583. -/
def manCopyBody (coef : Buf ℂ) (i : ℕ) (H : Man3) : Option Man3 := do
  let h11 ← coef.rd (i * 9)
  let a ← H.1.wr i h11
  let h21 ← coef.rd (i * 9 + 3)
  let b ← H.2.1.wr i h21
  let h31 ← coef.rd (i * 9 + 6)
  let c ← H.2.2.wr i h31
  return (a, b, c)

/-- Slow methods, fnft_manakovv.c:564-585. -/
noncomputable def manContSlow (D : ℕ) (q1 q2 : Buf ℂ) (eps_t : ℝ) (kappa : ℤ) (M : ℕ) (xi : Buf ℂ) (d : ManDisc) :
    Option (Except ℤ Man3) := do
  match ← man_scatter_matrix D (some q1) (some q2) eps_t M (some xi) kappa (some (Buf.malloc (9 * M))) d with
  | (rc, some coef) =>
    if rc ≠ SUCCESS then return .error (E_SUBROUTINE rc)
    let H ← forLoop M (manCopyBody coef) (Buf.malloc M, Buf.malloc M, Buf.malloc M)
    return .ok H
  | (rc, none) => return .error (E_SUBROUTINE rc)

/-- `manakov_discretization_lambda_to_z(1, eps_t, &x, ...)`. -/
noncomputable def manLambdaToZ1 (eps_t : ℝ) (x : ℂ) (d : ManDisc) : Option (ℤ × ℂ) := do
  let r ← man_lambda_to_z 1 eps_t (Buf.ofList [x]) d
  let z ← r.2.rd 0
  return (r.1, z)

/-- The three chirp transforms, fnft_manakovv.c:600-607. -/
noncomputable def manChirp3 (deg : ℕ) (tm : Buf ℂ) (A V : ℂ) (M : ℕ) : Option (Except ℤ Man3) := do
  match ← chirpzChk deg tm A V M with
  | .error ec => return .error ec
  | .ok H11 =>
    match ← chirpzChk deg (tm.view (3 * (deg + 1))) A V M with
    | .error ec => return .error ec
    | .ok H21 =>
      match ← chirpzChk deg (tm.view (6 * (deg + 1))) A V M with
      | .error ec => return .error ec
      | .ok H31 => return .ok (H11, H21, H31)

/-- Methods with a polynomial transfer matrix, fnft_manakovv.c:587-607. -/
noncomputable def manContFast (deg : ℕ) (tm : Buf ℂ) (eps_t XI0 eps_xi : ℝ) (M : ℕ) (d : ManDisc) : Option (Except ℤ Man3) := do
  let V ← manLambdaToZ1 eps_t (eps_xi : ℂ) d
  if V.1 ≠ SUCCESS then return .error (E_SUBROUTINE V.1)
  let A ← manLambdaToZ1 eps_t (-XI0 : ℂ) d
  if A.1 ≠ SUCCESS then return .error (E_SUBROUTINE A.1)
  manChirp3 deg tm A.2 V.2 M

/-- Loop over the reflection coefficients, fnft_manakovv.c:625-632; the flag tells that the function was left with
`E_DIV_BY_ZERO`. -/
noncomputable def manRhoBody (M : ℕ) (xi : Buf ℂ) (H : Man3) (ph : ℝ) (i : ℕ) (s : Bool × Buf ℂ) : Option (Bool × Buf ℂ) :=
  if s.1 then some s
  else do
    let h11 ← H.1.rd i
    if h11 = 0 then return (true, s.2)
    else
      let h21 ← H.2.1.rd i
      let h31 ← H.2.2.rd i
      let x ← xi.rd i
      let b ← s.2.wr i (h21 * exp (I * x * ph) / h11)
      let b ← b.wr (M + i) (h31 * exp (I * x * ph) / h11)
      return (false, b)

/-- Loop over `a`, `b1`, `b2`, fnft_manakovv.c:650-654. -/
noncomputable def manABBody (offset M : ℕ) (scale : ℂ) (xi : Buf ℂ) (H : Man3) (pa pb : ℝ) (i : ℕ) (b : Buf ℂ) : Option (Buf ℂ) := do
  let h11 ← H.1.rd i
  let h21 ← H.2.1.rd i
  let h31 ← H.2.2.rd i
  let x ← xi.rd i
  let b ← b.wr (offset + i) (h11 * scale * exp (I * x * pa))
  let b ← b.wr (offset + M + i) (h21 * scale * exp (I * x * pb))
  b.wr (offset + 2 * M + i) (h31 * scale * exp (I * x * pb))

/-- `case manakovv_cstype_REFLECTION_COEFFICIENT`, fnft_manakovv.c:620-632. -/
noncomputable def manRho (eps_t T1 : ℝ) (M : ℕ) (xi : Buf ℂ) (H : Man3) (result : Buf ℂ) (d : ManDisc) : Option CodeBuf :=
  match man_phase_factor_rho eps_t T1 d with
  | .error rc => some (E_SUBROUTINE rc, result)
  | .ok ph => do
    let s ← forLoop M (manRhoBody M xi H ph) (false, result)
    return (if s.1 then EC_DIV_BY_ZERO else SUCCESS, s.2)

/-- `case manakovv_cstype_AB`, fnft_manakovv.c:638-655. -/
noncomputable def manAB (eps_t : ℝ) (Dg : ℕ) (T0 T1 : ℝ) (W : ℤ) (offset M : ℕ) (xi : Buf ℂ) (H : Man3) (result : Buf ℂ)
    (d : ManDisc) : Option CodeBuf :=
  match man_phase_factor_a eps_t Dg T0 T1 d with
  | .error rc => some (E_SUBROUTINE rc, result)
  | .ok pa =>
    match man_phase_factor_b eps_t Dg T0 T1 d with
    | .error rc => some (E_SUBROUTINE rc, result)
    | .ok pb => do
      let b ← forLoop M (manABBody offset M ((2 : ℂ) ^ W) xi H pa pb) result
      return (SUCCESS, b)

/-- The `switch (opts->contspec_type)`, fnft_manakovv.c:610-660. -/
noncomputable def manContSwitch (cs : CsType) (eps_t : ℝ) (Dg : ℕ) (T0 T1 : ℝ) (W : ℤ) (M : ℕ) (xi : Buf ℂ) (H : Man3)
    (result : Buf ℂ) (d : ManDisc) : Option CodeBuf :=
  match cs with
  | .BOTH => do
    let r ← manRho eps_t T1 M xi H result d
    if r.1 ≠ SUCCESS then return r
    manAB eps_t Dg T0 T1 W (2 * M) M xi H r.2 d
  | .REFLECTION_COEFFICIENT => manRho eps_t T1 M xi H result d
  | .AB => manAB eps_t Dg T0 T1 W 0 M xi H result d
  | .other _ => some (EC_INVALID_ARGUMENT, result)

/-- Computation of `H11_vals`, `H21_vals`, `H31_vals`, fnft_manakovv.c:563-608. -/
noncomputable def manContH (deg : ℕ) (W : ℤ) (tm : Option (Buf ℂ)) (q1 q2 : Buf ℂ) (eps_t : ℝ) (D : ℕ) (XI0 eps_xi : ℝ) (M : ℕ)
    (xi : Buf ℂ) (kappa : ℤ) (d : ManDisc) : Option (Except ℤ Man3) :=
  match tm with
  | none =>
    if deg = 0 ∧ W = 0 then manContSlow D q1 q2 eps_t kappa M xi d
    else some (.error (E_SUBROUTINE EC_INVALID_ARGUMENT)) -- `poly_chirpz` rejects the NULL pointer
  | some tm => manContFast deg tm eps_t XI0 eps_xi M d

/-- `manakovv_compute_contspec`, fnft_manakovv.c:512-667. `T`, `XI` are not NULL. For `D_given ≤ 1` or `M ≤ 1` the step
sizes are not finite numbers in C; these cases are outside of the model (`none`). -/
noncomputable def man_compute_contspec (deg : ℕ) (W : ℤ) (tm : Option (Buf ℂ)) (q1 q2 : Buf ℂ) (T0 T1 : ℝ) (D : ℕ) (XI0 XI1 : ℝ)
    (M : ℕ) (result : Buf ℂ) (kappa : ℤ) (cs : CsType) (d : ManDisc) : Option CodeBuf :=
  let up := man_upsampling_factor d
  if up = 0 then some (EC_INVALID_ARGUMENT, result)
  else
    let Dg := D / up
    if Dg ≤ 1 ∨ M ≤ 1 then none
    else do
      let eps_t : ℝ := (T1 - T0) / (Dg - 1)
      let eps_xi : ℝ := (XI1 - XI0) / (M - 1)
      let xi ← fill 0 M (fun i => some ((XI0 + eps_xi * i : ℝ) : ℂ)) (Buf.malloc M)
      match ← manContH deg W tm q1 q2 eps_t D XI0 eps_xi M xi kappa d with
      | .error ec => return (ec, result)
      | .ok H => manContSwitch cs eps_t Dg T0 T1 W M xi H result d

/-! ## Bound states -/

/-- `bounding_box`, fnft_manakovv.c:459-462. -/
noncomputable def manBox : Fin 4 → Dbl := ![.num ⊥, .num ⊤, .num 0, .num ⊤]

/-- Roots of the polynomial in the buffer, mapped to the continuous-time domain, fnft_manakovv.c:477-482: code, buffer. -/
noncomputable def manBsFast (roots : RootFinder) (deg : ℕ) (tm : Buf ℂ) (eps_t : ℝ) (d : ManDisc) (buf : Buf ℂ) :
    Option (ℤ × Buf ℂ) := do
  let R ← roots deg tm buf
  if R.1 ≠ SUCCESS then return (E_SUBROUTINE R.1, R.2)
  let S ← man_z_to_lambda deg eps_t R.2 d
  return (if S.1 = SUCCESS then SUCCESS else E_SUBROUTINE S.1, S.2)

/-- `if (opts->bound_state_filtering != NONE) { misc_filter; misc_merge }`, fnft_manakovv.c:485-492: code, `K`, buffer. -/
noncomputable def manBsFilter (filt : ManFilt) (K : ℕ) (b : Buf ℂ) : Option (ℤ × ℕ × Buf ℂ) :=
  if filt = .NONE then some (SUCCESS, K, b)
  else do
    let F ← filterC K b manBox
    if F.1 ≠ SUCCESS then return (E_SUBROUTINE F.1, F.2)
    let G ← mergeC F.2.1 F.2.2 (Real.sqrt EPSILON)
    return (if G.1 = SUCCESS then SUCCESS else E_SUBROUTINE G.1, G.2)

/-- The buffer is the array of the user, fnft_manakovv.c:467-468, 477-492, 503-507. -/
noncomputable def manBsDirect (roots : RootFinder) (deg : ℕ) (tm : Buf ℂ) (eps_t : ℝ) (K0 : ℕ) (bs : Buf ℂ) (o : ManvOpts) :
    Option (ℤ × ℕ × Buf ℂ) := do
  let R ← manBsFast roots deg tm eps_t o.disc bs
  if R.1 ≠ SUCCESS then return (R.1, K0, R.2)
  let F ← manBsFilter o.filt deg R.2
  return if F.1 = SUCCESS then F else (F.1, K0, F.2.2)

/-- The buffer is the unused part of the transfer matrix, fnft_manakovv.c:470-507. -/
noncomputable def manBsBuffer (roots : RootFinder) (deg : ℕ) (tm : Buf ℂ) (eps_t : ℝ) (K0 : ℕ) (bs : Buf ℂ) (o : ManvOpts) :
    Option (ℤ × ℕ × Buf ℂ) := do
  let R ← manBsFast roots deg tm eps_t o.disc (tm.view (deg + 1))
  if R.1 ≠ SUCCESS then return (R.1, K0, bs)
  let F ← manBsFilter o.filt deg R.2
  if F.1 ≠ SUCCESS then return (F.1, K0, bs)
  let K := if K0 < F.2.1 then K0 else F.2.1
  let bs ← bsCopy K F.2.2 bs
  return (SUCCESS, K, bs)

/-- `manakovv_compute_boundstates`, fnft_manakovv.c:446-508: code, `*K_ptr`, `bound_states`. If there is no transfer matrix
(slow methods), `poly_roots_fasteigen` gets NULL and fails. -/
noncomputable def man_compute_boundstates (roots : RootFinder) (deg : ℕ) (tm : Option (Buf ℂ)) (eps_t : ℝ) (K0 : ℕ) (bs : Buf ℂ)
    (o : ManvOpts) : Option (ℤ × ℕ × Buf ℂ) :=
  match tm with
  | none => some (E_SUBROUTINE EC_INVALID_ARGUMENT, K0, bs)
  | some tm => if K0 ≥ deg then manBsDirect roots deg tm eps_t K0 bs o else manBsBuffer roots deg tm eps_t K0 bs o

/-! ## The base routine -/

/-- The transfer matrix, fnft_manakovv.c:395-421: `deg`, `W` and the polynomial matrix for fast methods, zeros and no matrix for
slow ones; or the code that is returned. -/
noncomputable def manTransfer (D : ℕ) (q1 q2 : Buf ℂ) (kappa : ℤ) (eps_t : ℝ) (normalize : Bool) (d : ManDisc) :
    Option (Except ℤ (ℕ × ℤ × Option (Buf ℂ))) := do
  let i ← man_fscatter_numel D d
  if i = 0 then return .ok (0, 0, none)
  else
    let R ← man_fscatter D (some q1) (some q2) kappa eps_t (some (Buf.malloc i)) (some 0) (if normalize then some 0 else none) d
    let rc ← R.ret
    if rc ≠ SUCCESS then return .error (E_SUBROUTINE rc)
    else return .ok (R.deg, R.W, some R.result)

/-- The continuous spectrum in `fnft_manakovv_base`, fnft_manakovv.c:424-428. -/
noncomputable def manBaseCont (D : ℕ) (q1 q2 : Buf ℂ) (T0 T1 : ℝ) (M : ℕ) (XI : Option (ℝ × ℝ)) (kappa : ℤ) (o : ManvOpts) (deg : ℕ)
    (W : ℤ) (tm : Option (Buf ℂ)) (s : ManvSt) : Option (ℤ × ManvSt) :=
  match s.contspec with
  | none => some (SUCCESS, s)
  | some c =>
    if M = 0 then some (SUCCESS, s)
    else do
      let X ← XI
      let R ← man_compute_contspec deg W tm q1 q2 T0 T1 D X.1 X.2 M c kappa o.cs o.disc
      return (chk R.1, { s with contspec := some R.2 })

/-- The discrete spectrum in `fnft_manakovv_base`, fnft_manakovv.c:431-439. -/
noncomputable def manBaseDisc (roots : RootFinder) (eps_t : ℝ) (kappa : ℤ) (o : ManvOpts) (deg : ℕ) (tm : Option (Buf ℂ))
    (s : ManvSt) : Option (ℤ × ManvSt) :=
  match s.bs with
  | none => some (SUCCESS, s)
  | some bs =>
    if kappa = 1 then do
      let K0 ← s.K
      let R ← man_compute_boundstates roots deg tm eps_t K0 bs o
      return (chk R.1, { s with K := some R.2.1, bs := some R.2.2 })
    else some (SUCCESS, s)

/-- `fnft_manakovv_base`, fnft_manakovv.c:342-444; `q1`, `q2`, `T` and `opts` are not NULL (they have been checked by
`fnft_manakovv`). -/
noncomputable def man_base (roots : RootFinder) (D : ℕ) (q1 q2 : Buf ℂ) (T0 T1 : ℝ) (M : ℕ) (XI : Option (ℝ × ℝ)) (kappa : ℤ)
    (o : ManvOpts) (s : ManvSt) : Option (ℤ × ManvSt) :=
  if D < 2 then some (EC_INVALID_ARGUMENT, s)
  else if T0 ≥ T1 then some (EC_INVALID_ARGUMENT, s)
  else if s.contspec.isSome ∧ ¬ (∃ X, XI = some X ∧ X.1 < X.2) then some (EC_INVALID_ARGUMENT, s)
  else if |kappa| ≠ 1 then some (EC_INVALID_ARGUMENT, s)
  else if s.bs.isSome ∧ s.K = none then some (EC_INVALID_ARGUMENT, s)
  else
    let up := man_upsampling_factor o.disc
    if up = 0 then some (EC_INVALID_ARGUMENT, s)
    else if D / up ≤ 1 then none
    else do
      let eps_t : ℝ := (T1 - T0) / ((D / up : ℕ) - 1)
      match ← manTransfer D q1 q2 kappa eps_t o.nrm o.disc with
      | .error ec => return (ec, s)
      | .ok (deg, W, tm) =>
        let C ← manBaseCont D q1 q2 T0 T1 M XI kappa o deg W tm s
        if C.1 ≠ SUCCESS then return C
        manBaseDisc roots eps_t kappa o deg tm C.2

/-! ## The main routine -/

/-- State of `fnft_manakovv`: the output arguments and `*opts`. -/
structure ManvMain where
  st : ManvSt
  opts : ManvOpts

/-- The discretizations with a polynomial transfer matrix that are accepted: first group of the `switch`,
fnft_manakovv.c:166-176. -/
def manvFast (d : ManDisc) : Bool :=
  match d with
  | .D2SPLIT3A | .D2SPLIT3B | .D2SPLIT4A | .D2SPLIT4B | .D2SPLIT6B | .D4SPLIT4A | .D4SPLIT4B | .D4SPLIT6B | .FTES4_4A
  | .FTES4_suzuki => true
  | _ => false

/-- The checks of fnft_manakovv.c:142-188: do they reject the call? -/
def manvReject (D : ℕ) (q1 q2 : Option (Buf ℂ)) (T XI : Option (ℝ × ℝ)) (kappa : ℤ) (o : ManvOpts) (s : ManvSt) : Prop :=
  D < 2 ∨ q1 = none ∨ q2 = none ∨ (¬ ∃ X, T = some X ∧ X.1 < X.2) ∨
    (s.contspec.isSome ∧ ¬ ∃ X, XI = some X ∧ X.1 < X.2) ∨ |kappa| ≠ 1 ∨ (s.bs.isSome ∧ s.K = none) ∨
    (manvFast o.disc = false ∧ o.disc ≠ .BO ∧ o.disc ≠ .CF4_2) ∨
    (manvFast o.disc = false ∧ o.loc ≠ .NEWTON ∧ kappa = 1 ∧ s.bs.isSome)

/-- Preparation for Richardson extrapolation, fnft_manakovv.c:205-215: dereferences `K_ptr`. -/
def manvReserve (m : ManvMain) : Option ManvMain :=
  if m.opts.rich = 1 ∧ m.opts.ds = .RESIDUES then do
    let _ ← m.st.K
    return { m with opts := { m.opts with ds := .BOTH } }
  else some m

/-- The calls for the continuous spectrum, fnft_manakovv.c:229-237: the first one computes bound states only. -/
noncomputable def manvCont (roots : RootFinder) (D : ℕ) (q1 q2 : Buf ℂ) (T : ℝ × ℝ) (M : ℕ) (XI : Option (ℝ × ℝ)) (kappa : ℤ)
    (m : ManvMain) : Option (ℤ × ManvMain) :=
  match m.st.contspec with
  | none => some (SUCCESS, m)
  | some c => do
    let R ← man_base roots D q1 q2 T.1 T.2 M XI kappa m.opts { m.st with contspec := none }
    if R.1 ≠ SUCCESS then return (chk R.1, { m with st := { R.2 with contspec := some c } })
    let S ← man_base roots D q1 q2 T.1 T.2 M XI kappa m.opts ⟨some c, R.2.K, none⟩
    return (chk S.1, { m with st := ⟨S.2.contspec, S.2.K, R.2.bs⟩ })

/-- The bound states from a subsampled signal, fnft_manakovv.c:239-258. (The interval handed over is `T`, not that of the
subsampled signal. The computation of `Dsub` is literally that of fnft_nsev.c:290-294.) -/
noncomputable def manvBound (roots : RootFinder) (D : ℕ) (q1 q2 : Buf ℂ) (T : ℝ × ℝ) (eps_t : ℝ) (M : ℕ) (XI : Option (ℝ × ℝ))
    (kappa : ℤ) (m : ManvMain) : Option (ℤ × ManvMain) :=
  if kappa = 1 ∧ m.st.bs.isSome then do
    let Dsub ← nsevDsub D m.opts.Dsub
    let P ← man_preprocess_signal D (some q1) (some q2) eps_t Dsub m.opts.disc
    match P.out with
    | none => return (chk P.ret, m)
    | some p =>
      let R ← man_base roots (P.Dsub * man_upsampling_factor m.opts.disc) p.1 p.2 T.1 T.2 M XI kappa m.opts
        { m.st with contspec := none }
      return (chk R.1, { m with st := { R.2 with contspec := m.st.contspec } })
  else some (SUCCESS, m)

/-- Number of values of the continuous spectrum divided by `M`, fnft_manakovv.c:265-278. -/
def manRichCs : CsType → Option ℕ
  | .BOTH => some 5
  | .REFLECTION_COEFFICIENT => some 2
  | .AB => some 3
  | .other _ => none

/-- The array `contspec_sub`, fnft_manakovv.c:264-285; or a code. -/
def manRichBuf (M : ℕ) (m : ManvMain) : Except ℤ (Option (Buf ℂ)) :=
  if m.st.contspec.isSome ∧ M > 0 then
    match manRichCs m.opts.cs with
    | some n => .ok (some (Buf.malloc (n * M)))
    | none => .error EC_INVALID_ARGUMENT
  else .ok none

/-- Extrapolation of the continuous spectrum, fnft_manakovv.c:316-326 (`XI` is dereferenced in any case). The body of the
loop is literally that of fnft_nsev.c:412-417. -/
noncomputable def manRichCont (M : ℕ) (scl eps_sub : ℝ) (XI : Option (ℝ × ℝ)) (sub : Option (Buf ℂ)) (m : ManvMain) :
    Option ManvMain :=
  match XI with
  | none => none
  | some XI =>
    match m.st.contspec, sub with
    | some c, some sub =>
      if M = 0 then some m
      else if M = 1 then none
      else
        match manRichCs m.opts.cs with
        | none => none
        | some n => do
          let c ← forLoop M (richContBody n M scl eps_sub XI.1 ((XI.2 - XI.1) / (M - 1)) sub) c
          return { m with st := { m.st with contspec := some c } }
    | _, _ => some m

/-- Richardson extrapolation, fnft_manakovv.c:260-327; `ds` is the type that the user has requested. `scl_den = 0` (`D = 2`)
is outside of the model. -/
noncomputable def manvRich (roots : RootFinder) (D : ℕ) (q1 q2 : Buf ℂ) (T : ℝ × ℝ) (eps_t : ℝ) (M : ℕ) (XI : Option (ℝ × ℝ))
    (kappa : ℤ) (ds : DsType) (m : ManvMain) : Option (ℤ × ManvMain) :=
  match manRichBuf M m with
  | .error ec => some (ec, m)
  | .ok csub =>
    if man_method_order m.opts.disc = 0 then some (EC_INVALID_ARGUMENT, m)
    else do
      let P ← man_preprocess_signal D (some q1) (some q2) eps_t (D / 2) m.opts.disc
      match P.out, P.first_last with
      | some p, some fl =>
        let T0 := T.1 + fl.1 * eps_t
        let T1 := T.1 + fl.2 * eps_t
        let eps_sub := (T1 - T0) / ((P.Dsub : ℝ) - 1)
        let R ← man_base roots (P.Dsub * man_upsampling_factor m.opts.disc) p.1 p.2 T0 T1 M XI kappa
          { m.opts with loc := .NEWTON } ⟨csub, some 0, none⟩
        if R.1 ≠ SUCCESS then return (chk R.1, { m with opts := { m.opts with loc := .NEWTON } })
        let scl := (eps_sub / eps_t) ^ man_method_order m.opts.disc
        if scl = 1 then none
        else
          let m ← manRichCont M scl eps_sub XI R.2.contspec { m with opts := { m.opts with ds := ds } }
          return (SUCCESS, m)
      | _, _ => return (chk P.ret, m)

/-- `if (opts->richardson_extrapolation_flag == 1)`, fnft_manakovv.c:260. -/
noncomputable def manvRichIf (roots : RootFinder) (D : ℕ) (q1 q2 : Buf ℂ) (T : ℝ × ℝ) (eps_t : ℝ) (M : ℕ) (XI : Option (ℝ × ℝ))
    (kappa : ℤ) (ds : DsType) (m : ManvMain) : Option (ℤ × ManvMain) :=
  if m.opts.rich = 1 then manvRich roots D q1 q2 T eps_t M XI kappa ds m else some (SUCCESS, m)

open Classical in
/-- `fnft_manakovv`, fnft_manakovv.c:111-337. `o` is the record that `opts` points to (`default_opts` for NULL). The result
contains the code, the output arguments and the record afterwards. -/
noncomputable def fnft_manakovv (roots : RootFinder) (D : ℕ) (q1 q2 : Option (Buf ℂ)) (T : Option (ℝ × ℝ)) (M : ℕ)
    (XI : Option (ℝ × ℝ)) (kappa : ℤ) (o : ManvOpts) (s : ManvSt) : Option (ℤ × ManvSt × ManvOpts) :=
  if manvReject D q1 q2 T XI kappa o s then some (EC_INVALID_ARGUMENT, s, o)
  else if man_upsampling_factor o.disc = 0 then some (EC_INVALID_ARGUMENT, s, o)
  else do
    let q1 ← q1
    let q2 ← q2
    let T ← T
    let eps_t : ℝ := (T.2 - T.1) / ((D : ℝ) - 1)
    let m ← manvReserve ⟨s, o⟩
    let P ← man_preprocess_signal D (some q1) (some q2) eps_t D o.disc
    match P.out with
    | none => return (chk P.ret, m.st, m.opts)
    | some p =>
      let C ← manvCont roots (D * man_upsampling_factor o.disc) p.1 p.2 T M XI kappa m
      if C.1 ≠ SUCCESS then return (C.1, C.2.st, C.2.opts)
      let F ← manvBound roots D q1 q2 T eps_t M XI kappa C.2
      if F.1 ≠ SUCCESS then return (F.1, F.2.st, F.2.opts)
      let R ← manvRichIf roots D q1 q2 T eps_t M XI kappa o.ds F.2
      return (R.1, R.2.st, R.2.opts)

end FNFT

import Verif.Model.KdvDisc
/-!
# Model of fnft_kdvv.c

Complex numbers are exact; all allocations succeed; the arrays of the caller do not overlap. `NULL` is `none`. The code that
fnft_kdvv.c shares word by word with fnft_nsev.c is modelled by the definitions for the latter.
-/
namespace FNFT
open Complex

/-! ## Options -/

/-- `fnft_kdvv_bsloc_t`, /repo/include/fnft_kdvv.h:66-69; `other` is a value that is not an enumerator. -/
inductive KdvLoc | NEWTON | GRIDSEARCH_AND_REFINE | other (n : ℤ)
  deriving DecidableEq

/-- `fnft_kdvv_opts_t`, /repo/include/fnft_kdvv.h:167-176. -/
structure KdvvOpts where
  loc : KdvLoc
  niter : ℕ
  ds : DsType
  cs : CsType
  nrm : Bool
  disc : KdvDisc
  rich : ℤ
  grid_spacing : ℝ

/-- `default_opts` and `fnft_kdvv_default_opts`, fnft_kdvv.c:28-46. -/
def kdvv_default_opts : KdvvOpts where
  loc := .GRIDSEARCH_AND_REFINE
  niter := 10
  ds := .NORMING_CONSTANTS
  cs := .REFLECTION_COEFFICIENT
  nrm := true
  disc := .D2SPLIT4B
  rich := 0
  grid_spacing := 0

/-! ## Continuous spectrum -/

/-- The branch for slow methods, fnft_kdvv.c:752-782: `H11_vals` and `H21_vals`, or the code that is returned. -/
noncomputable def kdvContSlow (D : ℕ) (q r : Option (Buf ℂ)) (eps_t : ℝ) (M : ℕ) (xi : Buf ℂ) (normalize : Bool) (d : KdvDisc) :
    Option (Except ℤ (Buf ℂ × Buf ℂ)) := do
  let Ws : Option (Buf ℤ) := if normalize then some (Buf.malloc (4 * M)) else none
  let R ← kdv_scatter_matrix D q r eps_t M (some xi) (some (Buf.malloc (4 * M))) Ws d 0
  if R.ret ≠ SUCCESS then return .error (E_SUBROUTINE R.ret)
  let H ← forLoop M (contCopyBody R.result R.W) (Buf.malloc M, Buf.malloc M)
  return .ok H

/-- `kdv_discretization_lambda_to_z(1, eps_t, &x, ...)`. -/
noncomputable def kdvLambdaToZ1 (eps_t : ℝ) (x : ℂ) (d : KdvDisc) : Option (ℤ × ℂ) := do
  let r ← kdv_lambda_to_z 1 eps_t (Buf.ofList [x]) d
  let z ← r.2.rd 0
  return (r.1, z)

/-- Evaluation of entry `n` of the transfer matrix on the grid: `poly_chirpz(deg, transfer_matrix+n*(deg+1), A, V, M,
H11_vals+n*M)` followed by `CHECK_RETCODE`, fnft_kdvv.c:797-807. State: code, the block `H11_vals` of `4*M` values. -/
noncomputable def kdvChirpBody (deg : ℕ) (tm : Buf ℂ) (A V : ℂ) (M : ℕ) (n : ℕ) (s : ℤ × Buf ℂ) : Option (ℤ × Buf ℂ) :=
  if s.1 ≠ SUCCESS then some s
  else do
    match ← chirpzChk deg (tm.view (n * (deg + 1))) A V M with
    | .error ec => return (ec, s.2)
    | .ok h =>
      let H ← fill (n * M) M (fun i => h.rd (i - n * M)) s.2
      return (SUCCESS, H)

/-- Change to the S basis at frequency `i`, fnft_kdvv.c:812-837. State: code, the block `H11_vals`. -/
noncomputable def kdvBasisBody (eps_t : ℝ) (M : ℕ) (xi : Buf ℂ) (d : KdvDisc) (i : ℕ) (s : ℤ × Buf ℂ) : Option (ℤ × Buf ℂ) :=
  if s.1 ≠ SUCCESS then some s
  else do
    let h0 ← s.2.rd (0 * M + i)
    let h1 ← s.2.rd (1 * M + i)
    let h2 ← s.2.rd (2 * M + i)
    let h3 ← s.2.rd (3 * M + i)
    let x ← xi.rd i
    match kdv_basis_from_S x false eps_t d with
    | .error ec => return (E_SUBROUTINE ec, s.2)
    | .ok F =>
      let Mmx ← misc_matrix_mult 2 2 2 (Buf.ofList [h0, h1, h2, h3]) (Buf.ofList F) (Buf.malloc 4)
      match kdv_basis_to_S x false eps_t d with
      | .error ec => return (E_SUBROUTINE ec, s.2)
      | .ok B =>
        let Hmx ← misc_matrix_mult 2 2 2 (Buf.ofList B) Mmx (Buf.ofList [h0, h1, h2, h3])
        let H ← forLoop 4 (fun n H => do
          let v ← Hmx.rd n
          H.wr (n * M + i) v) s.2
        return (SUCCESS, H)

/-- The branch for polynomial transfer matrices, fnft_kdvv.c:784-838: `H11_vals` and `H21_vals`, or the code that is returned. -/
noncomputable def kdvContFast (deg : ℕ) (tm : Buf ℂ) (eps_t XI0 eps_xi : ℝ) (M : ℕ) (xi : Buf ℂ) (d : KdvDisc) :
    Option (Except ℤ (Buf ℂ × Buf ℂ)) := do
  let V ← kdvLambdaToZ1 eps_t (eps_xi : ℂ) d
  if V.1 ≠ SUCCESS then return .error (E_SUBROUTINE V.1)
  let A ← kdvLambdaToZ1 eps_t (-XI0 : ℂ) d
  if A.1 ≠ SUCCESS then return .error (E_SUBROUTINE A.1)
  let C ← forLoop 4 (kdvChirpBody deg tm A.2 V.2 M) (SUCCESS, Buf.malloc (4 * M))
  if C.1 ≠ SUCCESS then return .error C.1
  let H ← forLoop M (kdvBasisBody eps_t M xi d) C
  if H.1 ≠ SUCCESS then return .error H.1
  return .ok (H.2, H.2.view (2 * M))

/-- `case kdvv_cstype_REFLECTION_COEFFICIENT`, fnft_kdvv.c:848-859; as `contRho`. -/
noncomputable def kdvContRho (eps_t T1 : ℝ) (M : ℕ) (xi H11 H21 result : Buf ℂ) (d : KdvDisc) : Option CodeBuf :=
  match kdv_phase_factor_rho eps_t T1 d with
  | (rc, ph) =>
    if rc ≠ SUCCESS then some (E_SUBROUTINE rc, result)
    else match ph with
      | some (some ph) => do
        let s ← forLoop M (contRhoBody xi H11 H21 ph) (false, result)
        return (if s.1 then EC_DIV_BY_ZERO else SUCCESS, s.2)
      | _ => none

/-- `case kdvv_cstype_AB`, fnft_kdvv.c:865-881. -/
noncomputable def kdvContAB (eps_t : ℝ) (Dg : ℕ) (T0 T1 : ℝ) (W : ℤ) (offset M : ℕ) (xi H11 H21 result : Buf ℂ)
    (d : KdvDisc) : Option CodeBuf :=
  match kdv_phase_factor_a eps_t Dg T0 T1 d with
  | (rc, pa) =>
    if rc ≠ SUCCESS then some (E_SUBROUTINE rc, result)
    else match kdv_phase_factor_b eps_t Dg T0 T1 d with
      | (rc, pb) =>
        if rc ≠ SUCCESS then some (E_SUBROUTINE rc, result)
        else match pa, pb with
          | some (some pa), some (some pb) => do
            let b ← forLoop M (contABBody offset M ((2 : ℂ) ^ W) xi H11 H21 pa pb) result
            return (SUCCESS, b)
          | _, _ => none

/-- The `switch (opts->contspec_type)`, fnft_kdvv.c:840-887. -/
noncomputable def kdvContSwitch (cs : CsType) (eps_t : ℝ) (Dg : ℕ) (T0 T1 : ℝ) (W : ℤ) (M : ℕ)
    (xi H11 H21 result : Buf ℂ) (d : KdvDisc) : Option CodeBuf :=
  match cs with
  | .BOTH => do
    let r ← kdvContRho eps_t T1 M xi H11 H21 result d
    if r.1 ≠ SUCCESS then return r
    kdvContAB eps_t Dg T0 T1 W M M xi H11 H21 r.2 d
  | .REFLECTION_COEFFICIENT => kdvContRho eps_t T1 M xi H11 H21 result d
  | .AB => kdvContAB eps_t Dg T0 T1 W 0 M xi H11 H21 result d
  | .other _ => some (EC_INVALID_ARGUMENT, result)

/-- Computation of `H11_vals`, `H21_vals`, fnft_kdvv.c:751-838. -/
noncomputable def kdvContH (deg : ℕ) (W : ℤ) (tm : Option (Buf ℂ)) (q r : Option (Buf ℂ)) (eps_t : ℝ) (D : ℕ)
    (XI0 eps_xi : ℝ) (M : ℕ) (xi : Buf ℂ) (normalize : Bool) (d : KdvDisc) :
    Option (Except ℤ (Buf ℂ × Buf ℂ)) :=
  match tm with
  | none =>
    if deg = 0 ∧ W = 0 then kdvContSlow D q r eps_t M xi normalize d
    else some (.error (E_SUBROUTINE EC_INVALID_ARGUMENT)) -- `poly_chirpz` rejects the NULL pointer
  | some tm => kdvContFast deg tm eps_t XI0 eps_xi M xi d

/-- `kdvv_compute_contspec`, fnft_kdvv.c:700-895. For `D_given ≤ 1` or `M ≤ 1` the step sizes are not finite numbers in C;
these cases are outside of the model (`none`). -/
noncomputable def kdvv_compute_contspec (deg : ℕ) (W : ℤ) (tm : Option (Buf ℂ)) (q r : Option (Buf ℂ)) (T0 T1 : ℝ)
    (D : ℕ) (XI0 XI1 : ℝ) (M : ℕ) (result : Buf ℂ) (cs : CsType) (normalize : Bool) (d : KdvDisc) : Option CodeBuf :=
  let up := kdv_upsampling_factor d
  if up = 0 then some (EC_INVALID_ARGUMENT, result)
  else
    let Dg := D / up
    if Dg ≤ 1 ∨ M ≤ 1 then none
    else do
      let eps_t : ℝ := (T1 - T0) / (Dg - 1)
      let eps_xi : ℝ := (XI1 - XI0) / (M - 1)
      let xi ← fill 0 M (fun i => some ((XI0 + eps_xi * i : ℝ) : ℂ)) (Buf.malloc M)
      match ← kdvContH deg W tm q r eps_t D XI0 eps_xi M xi normalize d with
      | .error ec => return (ec, result)
      | .ok H => kdvContSwitch cs eps_t Dg T0 T1 W M xi H.1 H.2 result d

/-- The transfer matrix of `fnft_kdvv_base`, fnft_kdvv.c:439-466; as `nsevTransfer`. -/
noncomputable def kdvTransfer (D : ℕ) (q r : Option (Buf ℂ)) (eps_t : ℝ) (normalize : Bool) (d : KdvDisc) :
    Option (Except ℤ (ℕ × ℤ × Option (Buf ℂ))) := do
  let i ← kdv_fscatter_numel D d
  if i = 0 then return .ok (0, 0, none)
  else
    let R ← kdv_fscatter D q r eps_t (some (Buf.malloc i)) (some 0) (if normalize then some 0 else none) d
    let rc ← R.ret
    if rc ≠ SUCCESS then return .error (E_SUBROUTINE rc)
    else return .ok (R.deg, R.W, some R.result)

/-! ## Newton's method -/

/-- `a(λ)`, `a'(λ)` at one point (up to a common power of two), fnft_kdvv.c:1021-1026. -/
noncomputable def kdvNewtonEval (D : ℕ) (q r : Option (Buf ℂ)) (T0 T1 : ℝ) (d : KdvDisc) (nrm : Bool) (g : Garbage) (l : ℂ) :
    Option (Except ℤ (ℂ × ℂ)) := do
  let R ← kdv_scatter_bound_states D q r T0 T1 1 (some (Buf.ofList [l])) (some (Buf.malloc 1)) (some (Buf.malloc 1))
    (some (Buf.malloc 1)) (if nrm then some (Buf.ofList [0]) else none) d 1 (g 0) (g 1)
  if R.ret ≠ SUCCESS then return .error (E_SUBROUTINE (E_SUBROUTINE R.ret))
  let a ← R.a.rd 0
  let a' ← R.aprime.rd 0
  return .ok (a, a')

/-- The bounding box `{0, 0, 0, b}`: has the iterate left it? fnft_kdvv.c:1038-1042. -/
def kdvOutside (b : ℝ) (l : ℂ) : Prop := b < l.im ∨ 0 < l.re ∨ l.re < 0 ∨ l.im < 0

open Classical in
/-- The `do ... while` loop, fnft_kdvv.c:1019-1044: code and value. The first argument bounds the number of passes. When
`a'` is a nonzero real number, the C code divides by zero; this is outside of the model (`none`). -/
noncomputable def kdvNewtonLoop (eval : ℂ → Option (Except ℤ (ℂ × ℂ))) (b : ℝ) (niter : ℕ) : ℕ → ℕ → ℂ → Option (ℤ × ℂ)
  | 0, _, _ => none
  | fuel + 1, iter, l => do
    match ← eval l with
    | .error ec => return (ec, l)
    | .ok (a, a') =>
      if a = 0 then return (SUCCESS, l)
      else if a' = 0 then return (EC_DIV_BY_ZERO, l)
      else if a'.im = 0 then none
      else
        let error : ℂ := (a.re : ℂ) / (I * (a'.im : ℂ))
        if kdvOutside b (l - error) then return (SUCCESS, l - error)
        else if ‖error‖ > EPSILON * 100 ∧ iter + 1 < niter then kdvNewtonLoop eval b niter fuel (iter + 1) (l - error)
        else return (SUCCESS, l - error)

/-- One iteration of the outer loop, fnft_kdvv.c:1017-1045. State: code (`≠ SUCCESS`: the function was left), array. -/
noncomputable def kdvNewtonBody (eval : ℂ → Option (Except ℤ (ℂ × ℂ))) (b : ℝ) (niter : ℕ) (i : ℕ) (s : ℤ × Buf ℂ) :
    Option (ℤ × Buf ℂ) :=
  if s.1 ≠ SUCCESS then some s
  else do
    let l ← s.2.rd i
    let o ← kdvNewtonLoop eval b niter niter 0 l
    let bs ← s.2.wr i o.2
    return (o.1, bs)

/-- `kdvv_refine_bound_states_newton`, fnft_kdvv.c:977-1049, with the bounding box `{0, 0, 0, b}`: code and array. -/
noncomputable def kdvv_refine_newton (D : ℕ) (q r : Option (Buf ℂ)) (T0 T1 : ℝ) (K : ℕ) (bs : Buf ℂ) (d : KdvDisc)
    (niter : ℕ) (b : ℝ) (nrm : Bool) (g : Garbage) : Option (ℤ × Buf ℂ) :=
  if K = 0 then some (SUCCESS, bs)
  else if niter = 0 then some (SUCCESS, bs)
  else if q = none then some (EC_INVALID_ARGUMENT, bs)
  else if ¬ 0 ≤ b then some (EC_INVALID_ARGUMENT, bs)
  else forLoop K (kdvNewtonBody (kdvNewtonEval D q r T0 T1 d nrm g) b niter) (SUCCESS, bs)

/-! ## Bound states -/

/-- `bound_squared = bound_squared > CREAL(q[i]) ? bound_squared : CREAL(q[i]);` for `i = stride*j`. -/
noncomputable def kdvMaxBody (q : Buf ℂ) (stride : ℕ) (j : ℕ) (m : ℝ) : Option ℝ := do
  let v ← q.rd (stride * j)
  return if m > v.re then m else v.re

/-- `bound_squared`, fnft_kdvv.c:526-564. -/
noncomputable def kdvBoundSq (D up : ℕ) (q : Buf ℂ) (d : KdvDisc) : Option ℝ :=
  if up ≤ 2 then forLoop D (kdvMaxBody q 1) 0
  else
    match d with
    | .ES4_VANILLA | .TES4_VANILLA | .ES4 | .TES4 => do
      let m ← forLoop ((D + 2) / 3) (kdvMaxBody q 3) 0
      return m * 2
    | _ => do
      let m ← forLoop D (kdvMaxBody q 1) 0
      return m * 2

/-- The C function `nexttoward` (rounding is not modelled otherwise). -/
abbrev NextToward := ℝ → ℝ → ℝ

/-- The search grid, fnft_kdvv.c:592-602. -/
noncomputable def kdvGrid (next : NextToward) (b : ℝ) (M : ℕ) : Option (Buf ℂ) :=
  fill 0 M (fun i => some (if i = 0 then I * (next 0 b : ℝ) else if i = M - 1 then I * (next b 0 : ℝ)
    else I * (((I * ((b - 0 : ℝ) : ℂ) / ((M : ℂ) - 1) * (i : ℂ)).im : ℝ) : ℂ))) (Buf.malloc M)

/-- The exponent `s` of the scaling factors of the regula falsi, fnft_kdvv.c:661 (division of integers); zero without
normalisation. -/
def kdvScl (Ws : Option (Buf ℤ)) (i : ℕ) : Option ℤ :=
  match Ws with
  | none => some 0
  | some Ws => do
    let w1 ← Ws.rd i
    let w0 ← Ws.rd (i - 1)
    return (w1 - w0).tdiv 2

/-- Estimate of the zero between the grid points `i-1` and `i`, fnft_kdvv.c:643-665. -/
noncomputable def kdvFalsi (xi coef : Buf ℂ) (Ws : Option (Buf ℤ)) (i : ℕ) : Option ℂ := do
  let x1 ← xi.rd i
  let x0 ← xi.rd (i - 1)
  let a1 ← coef.rd (4 * i)
  let a0 ← coef.rd (4 * (i - 1))
  let s ← kdvScl Ws i
  let scl1 : ℝ := 2 ^ s
  let scl2 : ℝ := 2 ^ (-s)
  return (x0 * (scl1 : ℂ) * (a1.re : ℂ) - x1 * (scl2 : ℂ) * (a0.re : ℂ)) /
    ((((scl1 : ℂ) * a1 - (scl2 : ℂ) * a0).re : ℝ) : ℂ)

/-- What the scan of the grid has found: code, `K`, `bound_states`. -/
structure KdvScan where
  ret : ℤ
  K : ℕ
  bs : Buf ℂ

/-- A guess is stored, unless there is no space for it. -/
noncomputable def kdvGuess (K0 : ℕ) (v : Option ℂ) (s : KdvScan) : Option KdvScan :=
  if s.K ≥ K0 then some { s with ret := E_SUBROUTINE EC_OTHER }
  else do
    let v ← v
    let b ← s.bs.wr s.K v
    return { s with K := s.K + 1, bs := b }

/-- Does `Re a` change its sign between the grid points `i-1` and `i`? -/
noncomputable def kdvSignChange (coef : Buf ℂ) (i : ℕ) : Option Prop :=
  if i > 0 then do
    let a1 ← coef.rd (4 * i)
    let a0 ← coef.rd (4 * (i - 1))
    return a1.re * a0.re < 0
  else some False

open Classical in
/-- The search for zero crossings at grid point `i`, fnft_kdvv.c:625-667. -/
noncomputable def kdvScanBody (K0 : ℕ) (xi coef : Buf ℂ) (Ws : Option (Buf ℤ)) (i : ℕ) (s : KdvScan) : Option KdvScan :=
  if s.ret ≠ SUCCESS then some s
  else do
    let a1 ← coef.rd (4 * i)
    if a1 = 0 then kdvGuess K0 (xi.rd i) s
    else do
      let c ← kdvSignChange coef i
      if c then kdvGuess K0 (kdvFalsi xi coef Ws i) s
      else return s

/-- The initial guesses, fnft_kdvv.c:572-668. -/
noncomputable def kdvSearch (next : NextToward) (D : ℕ) (q r : Buf ℂ) (eps_t : ℝ) (K0 : ℕ) (bs : Buf ℂ) (b : ℝ) (M : ℕ) (d : KdvDisc)
    (nrm : Bool) : Option KdvScan := do
  let xi ← kdvGrid next b M
  let R ← kdv_scatter_matrix D (some q) (some r) eps_t M (some xi) (some (Buf.malloc (4 * M)))
    (if nrm then some (Buf.malloc (4 * M)) else none) d 0
  if R.ret ≠ SUCCESS then return ⟨E_SUBROUTINE R.ret, K0, bs⟩
  forLoop M (kdvScanBody K0 xi R.result R.W) ⟨SUCCESS, 0, bs⟩

/-- Refinement and update of `*K_ptr`, fnft_kdvv.c:670-690: code, `*K_ptr`, `bound_states`. -/
noncomputable def kdvRefine (D : ℕ) (q r : Buf ℂ) (T0 T1 : ℝ) (K0 K : ℕ) (bs : Buf ℂ) (b : ℝ) (d : KdvDisc) (o : KdvvOpts)
    (g : Garbage) : Option (ℤ × ℕ × Buf ℂ) := do
  let R ← kdvv_refine_newton D (some q) (some r) T0 T1 K bs d o.niter b o.nrm g
  if R.1 ≠ SUCCESS then return (E_SUBROUTINE R.1, K0, R.2)
  return (SUCCESS, K, R.2)

open Classical in
/-- The `switch (opts->bound_state_localization)`, fnft_kdvv.c:574-690, for the bound `b > 0`. -/
noncomputable def kdvLocalize (next : NextToward) (D : ℕ) (q r : Buf ℂ) (T0 T1 eps_t : ℝ) (K0 : ℕ) (bs : Buf ℂ) (b : ℝ)
    (d : KdvDisc) (o : KdvvOpts) (g : Garbage) : Option (ℤ × ℕ × Buf ℂ) :=
  match o.loc with
  | .GRIDSEARCH_AND_REFINE =>
    if b - 0 ≤ 0 then some (EC_ASSERTION_FAILED, K0, bs)
    else if o.grid_spacing > 0 then
      if ⌈(b - 0) / o.grid_spacing⌉₊ < 2 then some (SUCCESS, 0, bs)
      else do
        let S ← kdvSearch next D q r eps_t K0 bs b ⌈(b - 0) / o.grid_spacing⌉₊ d o.nrm
        if S.ret ≠ SUCCESS then return (S.ret, K0, S.bs)
        kdvRefine D q r T0 T1 K0 S.K S.bs b d o g
    else some (EC_INVALID_ARGUMENT, K0, bs)
  | .NEWTON => kdvRefine D q r T0 T1 K0 K0 bs b d o g
  | .other _ => some (EC_INVALID_ARGUMENT, K0, bs)

/-- `kdvv_compute_boundstates`, fnft_kdvv.c:498-697: code, `*K_ptr`, `bound_states`. -/
noncomputable def kdvv_compute_boundstates (next : NextToward) (D : ℕ) (q r : Buf ℂ) (T0 T1 eps_t : ℝ) (K0 : ℕ) (bs : Buf ℂ)
    (o : KdvvOpts) (g : Garbage) : Option (ℤ × ℕ × Buf ℂ) :=
  if kdv_upsampling_factor o.disc = 0 then some (EC_INVALID_ARGUMENT, K0, bs)
  else
    let s := kdv_slow_discretization o.disc
    if s.1 ≠ SUCCESS then some (E_SUBROUTINE s.1, K0, bs)
    else do
      let m ← kdvBoundSq D (kdv_upsampling_factor o.disc) q o.disc
      if m = 0 then return (SUCCESS, 0, bs)
      else kdvLocalize next D q r T0 T1 eps_t K0 bs (Real.sqrt m) s.2 o g

/-! ## Norming constants and residues -/

/-- `kdvv_compute_normconsts_or_residues`, fnft_kdvv.c:897-974: code and array. -/
noncomputable def kdvv_normconsts (D : ℕ) (q r : Buf ℂ) (T0 T1 : ℝ) (K : ℕ) (bs nc : Buf ℂ) (o : KdvvOpts) (g : Garbage) :
    Option CodeBuf :=
  if K = 0 then some (SUCCESS, nc)
  else if D = 0 then some (EC_INVALID_ARGUMENT, nc)
  else if kdv_upsampling_factor o.disc = 0 then some (EC_INVALID_ARGUMENT, nc)
  else
    let s := kdv_slow_discretization o.disc
    if s.1 ≠ SUCCESS then some (E_SUBROUTINE s.1, nc)
    else do
      let R ← kdv_scatter_bound_states D (some q) (some r) T0 T1 K (some bs) (some (Buf.malloc K)) (some (Buf.malloc K)) (some nc)
        (if o.nrm then some (Buf.malloc K) else none) s.2 0 (g 0) (g 1)
      let nc ← R.b
      if R.ret ≠ SUCCESS then return (E_SUBROUTINE R.ret, nc)
      residues o.ds K R.aprime R.Ws nc

/-! ## The base routine -/

/-- The continuous spectrum in `fnft_kdvv_base`, fnft_kdvv.c:468-473. -/
noncomputable def kdvBaseCont (D : ℕ) (q r : Buf ℂ) (T0 T1 : ℝ) (M : ℕ) (XI : Option (ℝ × ℝ)) (o : KdvvOpts)
    (deg : ℕ) (W : ℤ) (tm : Option (Buf ℂ)) (s : NsevSt) : Option (ℤ × NsevSt) :=
  match s.contspec with
  | none => some (SUCCESS, s)
  | some c =>
    if M > 0 then
      match XI with
      | none => none
      | some XI => do
        let R ← kdvv_compute_contspec deg W tm (some q) (some r) T0 T1 D XI.1 XI.2 M c o.cs o.nrm o.disc
        return (chk R.1, { s with contspec := some R.2 })
    else some (SUCCESS, s)

/-- The norming constants in `fnft_kdvv_base`, fnft_kdvv.c:482-487. -/
noncomputable def kdvBaseNorm (D : ℕ) (q r : Buf ℂ) (T0 T1 : ℝ) (o : KdvvOpts) (g : Garbage) (K : ℕ) (bs : Buf ℂ) (s : NsevSt) :
    Option (ℤ × NsevSt) :=
  match s.nc with
  | none => some (SUCCESS, s)
  | some nc =>
    if K ≠ 0 then do
      let R ← kdvv_normconsts D q r T0 T1 K bs nc o g
      return (chk R.1, { s with nc := some R.2 })
    else some (SUCCESS, s)

/-- The discrete spectrum in `fnft_kdvv_base`, fnft_kdvv.c:475-490. -/
noncomputable def kdvBaseDisc (next : NextToward) (D : ℕ) (q r : Buf ℂ) (T0 T1 eps_t : ℝ) (o : KdvvOpts) (g : Garbage) (s : NsevSt) :
    Option (ℤ × NsevSt) :=
  match s.bs with
  | some bs => do
    let K0 ← s.K
    if K0 ≠ 0 then
      let R ← kdvv_compute_boundstates next D q r T0 T1 eps_t K0 bs o g
      if R.1 ≠ SUCCESS then return (E_SUBROUTINE R.1, { s with K := some R.2.1, bs := some R.2.2 })
      kdvBaseNorm D q r T0 T1 o g R.2.1 R.2.2 { s with K := some R.2.1, bs := some R.2.2 }
    else return (SUCCESS, { s with K := some 0 })
  | none => some (SUCCESS, { s with K := s.K.map fun _ => 0 })

/-- `fnft_kdvv_base`, fnft_kdvv.c:388-495, for arguments that `fnft_kdvv` has checked (`q`, `r`, `opts` are not NULL, `kappa` is 1). -/
noncomputable def kdvv_base (next : NextToward) (D : ℕ) (q r : Buf ℂ) (T0 T1 : ℝ) (M : ℕ) (XI : Option (ℝ × ℝ))
    (o : KdvvOpts) (g : Garbage) (s : NsevSt) : Option (ℤ × NsevSt) :=
  if D < 2 then some (EC_INVALID_ARGUMENT, s)
  else if T0 ≥ T1 then some (EC_INVALID_ARGUMENT, s)
  else if s.contspec.isSome ∧ ¬ (∃ X, XI = some X ∧ X.1 < X.2) then some (EC_INVALID_ARGUMENT, s)
  else if s.bs.isSome ∧ s.K = none then some (EC_INVALID_ARGUMENT, s)
  else
    let up := kdv_upsampling_factor o.disc
    if up = 0 then some (EC_INVALID_ARGUMENT, s)
    else if D / up ≤ 1 then none
    else do
      let eps_t : ℝ := (T1 - T0) / ((D / up : ℕ) - 1)
      match ← kdvTransfer D (some q) (some r) eps_t o.nrm o.disc with
      | .error ec => return (ec, s)
      | .ok (deg, W, tm) =>
        let C ← kdvBaseCont D q r T0 T1 M XI o deg W tm s
        if C.1 ≠ SUCCESS then return C
        kdvBaseDisc next D q r T0 T1 eps_t o g C.2

/-! ## The main routine -/

/-- State of `fnft_kdvv`, see `NsevMain`. -/
structure KdvMain where
  st : NsevSt
  opts : KdvvOpts
  resv : Option (Buf ℂ)

/-- The part of the state that the shared code uses. -/
noncomputable def KdvMain.toN (m : KdvMain) : NsevMain := ⟨m.st, { nsev_default_opts with ds := m.opts.ds, cs := m.opts.cs }, m.resv⟩

/-- The first checks of fnft_kdvv.c:151-163. -/
def kdvReject1 (D : ℕ) (q : Option (Buf ℂ)) (T : Option (ℝ × ℝ)) (XI : Option (ℝ × ℝ)) (s : NsevSt) : Prop :=
  D < 2 ∨ q = none ∨ (∃ b v i, q = some b ∧ i < D ∧ b.rd i = some v ∧ v.im ≠ 0) ∨ (¬ ∃ X, T = some X ∧ X.1 < X.2) ∨
    (s.contspec.isSome ∧ ¬ ∃ X, XI = some X ∧ X.1 < X.2)

/-- The check of the frequency grid, fnft_kdvv.c:164-167. For `M = 1` the only grid point is NaN. -/
def kdvGridZero (M : ℕ) (XI : ℝ × ℝ) : Prop := ∃ i, i < M ∧ M ≠ 1 ∧ XI.1 + i * (XI.2 - XI.1) / (M - 1) = 0

/-- The checks of `K_ptr` and of the initial guesses, fnft_kdvv.c:172-184. -/
def kdvReject2 (o : KdvvOpts) (s : NsevSt) : Prop :=
  ∃ bs, s.bs = some bs ∧ (s.K = none ∨ (o.loc = .NEWTON ∧ ∃ K i v, s.K = some K ∧ i < K ∧ bs.rd i = some v ∧ (v.re ≠ 0 ∨ v.im ≤ 0)))

/-- Preparation for Richardson extrapolation, fnft_kdvv.c:217-227: dereferences `K_ptr`. -/
def kdvReserve (m : KdvMain) : Option KdvMain :=
  if m.opts.rich = 1 ∧ m.opts.ds = .RESIDUES then do
    let K ← m.st.K
    return { m with opts := { m.opts with ds := .BOTH }, resv := some (Buf.malloc (K * 2)) }
  else some m

/-- Richardson extrapolation, fnft_kdvv.c:246-364; `ds` is the type that the user has requested. -/
noncomputable def kdvRich (next : NextToward) (D : ℕ) (q : Buf ℂ) (T : ℝ × ℝ) (eps_t : ℝ) (M : ℕ) (XI : Option (ℝ × ℝ))
    (g : Garbage) (ds : DsType) (m : KdvMain) : Option (ℤ × KdvMain) :=
  match richContBuf M m.toN with
  | .error ec => some (ec, m)
  | .ok csub => do
    match ← richDiscBuf 1 m.toN with
    | .error ec => return (ec, m)
    | .ok (K, bsub, ncsub) =>
      if kdv_method_order m.opts.disc = 0 then return (EC_INVALID_ARGUMENT, m)
      let P ← kdv_preprocess_signal D (some q) eps_t (D / 2) m.opts.disc
      match P.out, P.first_last with
      | some qrs, some fl =>
        let T0 := T.1 + fl.1 * eps_t
        let T1 := T.1 + fl.2 * eps_t
        let eps_sub := (T1 - T0) / ((P.Dsub : ℝ) - 1)
        let R ← kdvv_base next (P.Dsub * kdv_upsampling_factor m.opts.disc) qrs.1 qrs.2 T0 T1 M XI
          { m.opts with loc := .NEWTON } g ⟨csub, some K, bsub, ncsub⟩
        if R.1 ≠ SUCCESS then return (chk R.1, { m with opts := { m.opts with loc := .NEWTON } })
        let scl := (eps_sub / eps_t) ^ kdv_method_order m.opts.disc
        if scl = 1 then none
        else
          let m : KdvMain := { m with opts := { m.opts with ds := ds } }
          let n ← richCont M scl eps_sub XI R.2.contspec m.toN
          let Ksub ← R.2.K
          let n ← richDisc 1 Ksub scl eps_t ds R.2.bs R.2.nc n
          return (SUCCESS, { m with st := n.st, resv := n.resv })
      | _, _ => return (chk P.ret, m)

/-- `if (opts->richardson_extrapolation_flag == 1) { ... }` -/
noncomputable def kdvRichIf (next : NextToward) (D : ℕ) (q : Buf ℂ) (T : ℝ × ℝ) (eps_t : ℝ) (M : ℕ) (XI : Option (ℝ × ℝ))
    (g : Garbage) (ds : DsType) (m : KdvMain) : Option (ℤ × KdvMain) :=
  if m.opts.rich = 1 then kdvRich next D q T eps_t M XI g ds m else some (SUCCESS, m)

/-- `fnft_kdvv` after the checks, fnft_kdvv.c:192-384. -/
noncomputable def kdvvRun (next : NextToward) (D : ℕ) (q : Buf ℂ) (T : ℝ × ℝ) (M : ℕ) (XI : Option (ℝ × ℝ))
    (o : KdvvOpts) (g : ℕ → Garbage) (s : NsevSt) : Option (ℤ × NsevSt × KdvvOpts) :=
  if kdv_upsampling_factor o.disc = 0 then some (EC_INVALID_ARGUMENT, s, o)
  else do
    let eps_t : ℝ := (T.2 - T.1) / ((D : ℝ) - 1)
    let m ← kdvReserve ⟨s, o, none⟩
    let P ← kdv_preprocess_signal D (some q) eps_t D o.disc
    match P.out with
    | none => return (chk P.ret, m.st, m.opts)
    | some qr =>
      let F ← kdvv_base next (D * kdv_upsampling_factor o.disc) qr.1 qr.2 T.1 T.2 M XI m.opts (g 0) m.st
      if F.1 ≠ SUCCESS then return (chk F.1, F.2, m.opts)
      let R ← kdvRichIf next D q T eps_t M XI (g 1) o.ds { m with st := F.2 }
      return (R.1, R.2.st, R.2.opts)

open Classical in
/-- `fnft_kdvv`, fnft_kdvv.c:121-384. `o` is the record that `opts` points to (`default_opts` for NULL). The result
contains the code, the output arguments and the record afterwards. The frequency grid is also checked (and `XI` dereferenced)
when no continuous spectrum is requested. -/
noncomputable def fnft_kdvv (next : NextToward) (D : ℕ) (q : Option (Buf ℂ)) (T : Option (ℝ × ℝ)) (M : ℕ) (XI : Option (ℝ × ℝ))
    (o : KdvvOpts) (g : ℕ → Garbage) (s : NsevSt) : Option (ℤ × NsevSt × KdvvOpts) :=
  if kdvReject1 D q T XI s then some (EC_INVALID_ARGUMENT, s, o)
  else if M > 0 ∧ XI = none then none
  else if ∃ X, XI = some X ∧ kdvGridZero M X then some (EC_INVALID_ARGUMENT, s, o)
  else if kdvReject2 o s then some (EC_INVALID_ARGUMENT, s, o)
  else do
    let q ← q
    let T ← T
    kdvvRun next D q T M XI o g s

end FNFT

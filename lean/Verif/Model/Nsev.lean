import Verif.Model.NsevCont
import Verif.Model.AknsBound
import Verif.Model.AknsPre
import Verif.Model.MiscNum
/-!
# Model of fnft_nsev.c

Complex numbers are exact; all allocations succeed; the arrays of the caller do not overlap. `NULL` is `none`.
The root finder (EISCOR, Fortran) is not modelled: it is an argument `roots` of the model.
-/
namespace FNFT
open Complex

/-! ## Options -/

/-- `fnft_nsev_bsfilt_t`, /repo/include/fnft_nsev.h:55-60; `other` is a value that is not an enumerator. -/
inductive BsFilt | NONE | BASIC | FULL | MANUAL | other (n : ℤ)
  deriving DecidableEq

/-- `fnft_nsev_bsloc_t`, /repo/include/fnft_nsev.h:96-100. -/
inductive BsLoc | FAST_EIGENVALUE | NEWTON | SUBSAMPLE_AND_REFINE | other (n : ℤ)
  deriving DecidableEq

/-- `fnft_nsev_dstype_t`, /repo/include/fnft_nsev.h:114-118. -/
inductive DsType | NORMING_CONSTANTS | RESIDUES | BOTH | other (n : ℤ)
  deriving DecidableEq

/-- `fnft_nsev_opts_t`, /repo/include/fnft_nsev.h:212-223. -/
structure NsevOpts where
  filt : BsFilt
  box : Fin 4 → Dbl
  loc : BsLoc
  niter : ℕ
  tol : Dbl
  Dsub : ℕ
  ds : DsType
  cs : CsType
  nrm : Bool
  disc : NseDisc
  rich : ℤ

/-- `default_opts` and `fnft_nsev_default_opts`, fnft_nsev.c:28-49. -/
noncomputable def nsev_default_opts : NsevOpts where
  filt := .FULL
  box := fun _ => .nan
  loc := .SUBSAMPLE_AND_REFINE
  niter := 100
  tol := .num ((-1 : ℝ) : EReal)
  Dsub := 0
  ds := .NORMING_CONSTANTS
  cs := .REFLECTION_COEFFICIENT
  nrm := true
  disc := .D2SPLIT4B
  rich := 0

/-- `fnft_nsev_max_K`, fnft_nsev.c:55-61. -/
noncomputable def nsev_max_K (D : ℕ) (opts : Option NsevOpts) : ℕ :=
  match opts with
  | some o => nse_degree o.disc * D
  | none => nse_degree nsev_default_opts.disc * D

/-! ## Helpers -/

/-- `DBL_EPSILON`. -/
noncomputable def EPSILON : ℝ := 2⁻¹ ^ 52

/-- A (finite) complex number as `double complex`. -/
noncomputable def toCDbl (z : ℂ) : CDbl := ⟨.num (z.re : EReal), .num (z.im : EReal)⟩

/-- Back (only used for values of `toCDbl`). -/
noncomputable def Dbl.toReal : Dbl → ℝ
  | .num x => x.toReal
  | .nan => 0

noncomputable def ofCDbl (v : CDbl) : ℂ := ⟨v.re.toReal, v.im.toReal⟩

/-- An array with all its entries converted. -/
def Buf.map {α β : Type*} (f : α → β) (b : Buf α) : Buf β := ⟨b.len, fun i => (b.cell i).map f⟩

/-- `misc_filter(&K, vals, NULL, box)` on an array of (finite) complex numbers: code, `K`, `vals`. -/
noncomputable def filterC (K : ℕ) (vals : Buf ℂ) (box : Fin 4 → Dbl) : Option (ℤ × ℕ × Buf ℂ) := do
  let R ← misc_filter (some K) (some (vals.map toCDbl)) none (some box)
  let n ← R.N
  let v ← R.vals
  return (R.ret, n, v.map ofCDbl)

/-- `misc_merge(&K, vals, tol)` on an array of (finite) complex numbers: code, `K`, `vals`. -/
noncomputable def mergeC (K : ℕ) (vals : Buf ℂ) (tol : ℝ) : Option (ℤ × ℕ × Buf ℂ) := do
  let R ← misc_merge (fun a b => .num ((‖ofCDbl a - ofCDbl b‖ : ℝ) : EReal)) (some K) (some (vals.map toCDbl)) (.num (tol : EReal))
  let n ← R.2.1
  let v ← R.2.2
  return (R.1, n, v.map ofCDbl)

/-- `nse_scatter_bound_states`, /repo/src/private/fnft__nse_scatter.c:88-118. -/
noncomputable def nse_scatter_bound_states (D : ℕ) (q r : Option (Buf ℂ)) (T0 T1 : ℝ) (K : ℕ)
    (bound_states a_vals aprime_vals b : Option (Buf ℂ)) (Ws : Option (Buf ℤ)) (d : NseDisc) (skip_b_flag : ℕ)
    (gPHI gPSI : ℕ → ℤ) : Option BsRes :=
  match nse_to_akns d with
  | .error ec => some ⟨E_SUBROUTINE ec, a_vals.getD (Buf.malloc 0), aprime_vals.getD (Buf.malloc 0), b, Ws⟩
  | .ok a => do
    let R ← akns_scatter_bound_states D q r T0 T1 K bound_states a_vals aprime_vals b Ws a .NSE 0 skip_b_flag gPHI gPSI
    return { R with ret := if R.ret = SUCCESS then SUCCESS else E_SUBROUTINE R.ret }

/-- Unspecified contents of the `malloc`ed tables of scaling factors, for each call. -/
abbrev Garbage := ℕ → ℕ → ℤ

/-! ## Newton's method -/

/-- `a(λ)`, `a'(λ)` at one point (up to a common power of two), fnft_nsev.c:1071-1078: code, `a_val`, `aprime_val`. -/
noncomputable def newtonEval (D : ℕ) (q r : Option (Buf ℂ)) (T0 T1 : ℝ) (d : NseDisc) (nrm : Bool) (g : Garbage) (l : ℂ) :
    Option (Except ℤ (ℂ × ℂ)) := do
  let R ← nse_scatter_bound_states D q r T0 T1 1 (some (Buf.ofList [l])) (some (Buf.malloc 1)) (some (Buf.malloc 1)) none
    (if nrm then some (Buf.ofList [0]) else none) d 1 (g 0) (g 1)
  if R.ret ≠ SUCCESS then return .error (E_SUBROUTINE R.ret)
  let a ← R.a.rd 0
  let a' ← R.aprime.rd 0
  return .ok (a, a')

/-- The test whether an iterate has left the bounding box, fnft_nsev.c:1090-1093. -/
def outsideBox (box : Fin 4 → Dbl) (l : ℂ) : Prop :=
  (box 3).lt (.num (l.im : EReal)) ∨ (box 1).lt (.num (l.re : EReal)) ∨ Dbl.lt (.num (l.re : EReal)) (box 0) ∨
    Dbl.lt (.num (l.im : EReal)) (box 2)

/-- What happens to one bound state: the code, `ok_flag` and the value left in the array. -/
structure NewtonOut where
  ret : ℤ
  ok : Bool
  l : ℂ

open Classical in
/-- The inner loop, fnft_nsev.c:1069-1102; `iter` is incremented twice per pass. The first argument bounds the number
of passes (`none` when it is used up). -/
noncomputable def newtonLoop (eval : ℂ → Option (Except ℤ (ℂ × ℂ))) (tol : Dbl) (box : Fin 4 → Dbl) (niter : ℕ) :
    ℕ → ℕ → ℂ → Option NewtonOut
  | 0, _, _ => none
  | fuel + 1, iter, l =>
    if ¬ iter < niter then some ⟨SUCCESS, false, l⟩
    else do
      match ← eval l with
      | .error ec => return ⟨ec, false, l⟩
      | .ok (a, a') =>
        if a = 0 then return ⟨SUCCESS, false, l⟩
        else if a' = 0 then return ⟨EC_DIV_BY_ZERO, false, l⟩
        else
          let error := a / a'
          if outsideBox box (l - error) then return ⟨SUCCESS, true, l - error⟩
          else if Dbl.le (.num ((‖error‖ : ℝ) : EReal)) tol ∨ Dbl.le (.num ((‖a‖ : ℝ) : EReal)) tol then
            return ⟨SUCCESS, true, l - error⟩
          else newtonLoop eval tol box niter fuel (iter + 2) (l - error)

/-- One iteration of the outer loop, fnft_nsev.c:1066-1105. State: code (`≠ SUCCESS`: the function was left),
`warn_flag`, array. -/
noncomputable def newtonBody (eval : ℂ → Option (Except ℤ (ℂ × ℂ))) (tol : Dbl) (box : Fin 4 → Dbl) (niter : ℕ) (i : ℕ)
    (s : ℤ × Bool × Buf ℂ) : Option (ℤ × Bool × Buf ℂ) :=
  if s.1 ≠ SUCCESS then some s
  else do
    let l ← s.2.2.rd i
    let o ← newtonLoop eval tol box niter (niter + 1) 0 l
    let b ← s.2.2.wr i o.l
    return (o.ret, (s.2.1 || !o.ok), b)

open Classical in
/-- `if (!(tol >= 0)) tol = 100*EPSILON;`, fnft_nsev.c:1045-1046. -/
noncomputable def newtonTol (tol : Dbl) : Dbl := if ¬ Dbl.zero.le tol then .num ((100 * EPSILON : ℝ) : EReal) else tol

open Classical in
/-- `nsev_refine_bound_states_newton`, fnft_nsev.c:1026-1112: code, flag of the warning, array. -/
noncomputable def nsev_refine_newton (D : ℕ) (q r : Option (Buf ℂ)) (T0 T1 : ℝ) (K : ℕ) (bs : Buf ℂ) (d : NseDisc)
    (niter : ℕ) (tol : Dbl) (box : Fin 4 → Dbl) (nrm : Bool) (g : Garbage) : Option (ℤ × Bool × Buf ℂ) :=
  if K = 0 then some (SUCCESS, false, bs)
  else if niter = 0 then some (SUCCESS, false, bs)
  else if q = none then some (EC_INVALID_ARGUMENT, false, bs)
  else if ¬ (box 0).le (box 1) ∨ ¬ (box 2).le (box 3) then some (EC_INVALID_ARGUMENT, false, bs)
  else forLoop K (newtonBody (newtonEval D q r T0 T1 d nrm g) (newtonTol tol) box niter) (SUCCESS, false, bs)

/-! ## Bound states -/

/-- `re_bound`, fnft_nsev.c:583-592. -/
noncomputable def re_bound (eps_t map_coeff : ℝ) : ℝ := 0.9 * Real.pi / |map_coeff * eps_t|

/-- `im_bound`, fnft_nsev.c:596-606. Inner `none` is NaN. -/
noncomputable def im_bound (D : ℕ) (q : Buf ℂ) (T0 T1 eps_t : ℝ) : Option (Option ℝ) := do
  let v ← misc_l2norm2 D q (T0 - eps_t / 2) (T1 + eps_t / 2)
  return v.map fun x => 1.5 * 0.25 * x

/-- A possibly undefined real number as a double. -/
noncomputable def optDbl : Option ℝ → Dbl
  | some x => .num (x : EReal)
  | none => .nan

/-- `im_bound` for the samples of the chosen discretization, fnft_nsev.c:655-673. -/
noncomputable def bsImBound (D Dg : ℕ) (q : Buf ℂ) (T0 T1 eps_t : ℝ) (d : NseDisc) : Option (Option ℝ) :=
  if d = .ES4 ∨ d = .TES4 then do
    let qt ← fill 0 Dg (fun i => q.rd (3 * i)) (Buf.malloc Dg)
    im_bound Dg qt T0 T1 eps_t
  else im_bound D q T0 T1 eps_t

/-- The bounding box, fnft_nsev.c:628-696; or the code that is returned. `map_coeff` is 2 for slow methods. -/
noncomputable def bsBox (D Dg : ℕ) (q : Buf ℂ) (T0 T1 eps_t : ℝ) (o : NsevOpts) : Option (Except ℤ (Fin 4 → Dbl)) :=
  match o.filt with
  | .BASIC => some (.ok ![.num ⊥, .num ⊤, .num 0, .num ⊤])
  | .FULL => do
    let deg : ℝ := nse_degree o.disc
    let b := re_bound eps_t (if nse_degree o.disc ≠ 0 then 2 / deg else 2)
    let im ← bsImBound D Dg q T0 T1 eps_t o.disc
    return .ok ![.num ((-b : ℝ) : EReal), .num (b : EReal), .num 0, optDbl im]
  | .MANUAL =>
    match o.box 0, o.box 1, o.box 2, o.box 3 with
    | .num _, .num _, .num _, .num _ => some (.ok o.box)
    | _, _, _, _ => some (.error EC_OTHER)
  | .NONE => some (.ok ![.num ⊥, .num ⊤, .num ⊥, .num ⊤])
  | .other _ => some (.error EC_INVALID_ARGUMENT)

/-- The base method of a splitting scheme, fnft_nsev.c:710-717, 978-988. -/
def nsevBaseDisc (d : NseDisc) : NseDisc :=
  if nse_upsampling_factor d = 1 ∧ nse_degree d ≠ 0 then .BO
  else if nse_upsampling_factor d = 2 ∧ nse_degree d ≠ 0 then .CF4_2
  else d

/-- The root finder: degree, coefficients and the array for the roots; gives the code of `poly_roots_fasteigen` and the
array (`none`: undefined behaviour). -/
abbrev RootFinder := ℕ → Buf ℂ → Buf ℂ → Option (ℤ × Buf ℂ)

/-- What the localisation leaves behind: the code, `K`, the array `bound_states` and the buffer, if it is a different
one. -/
structure LocOut where
  ret : ℤ
  K : ℕ
  bs : Buf ℂ
  buf : Option (Buf ℂ)

/-- Roots of the polynomial in the buffer, mapped to the continuous-time domain, fnft_nsev.c:739-745: code, buffer. -/
noncomputable def bsFast (roots : RootFinder) (deg : ℕ) (tm : Buf ℂ) (eps_t : ℝ) (d : NseDisc) (buf : Buf ℂ) :
    Option (ℤ × Buf ℂ) := do
  let R ← roots deg tm buf
  if R.1 ≠ SUCCESS then return (E_SUBROUTINE R.1, R.2)
  let S ← nse_z_to_lambda deg eps_t R.2 d
  return (if S.1 = SUCCESS then SUCCESS else E_SUBROUTINE S.1, S.2)

/-- The `switch (opts->bound_state_localization)`, fnft_nsev.c:698-751; `K0` is `*K_ptr`. If there is no transfer
matrix (slow methods), `poly_roots_fasteigen` gets NULL. -/
noncomputable def bsLocalize (roots : RootFinder) (D : ℕ) (q r : Buf ℂ) (deg : ℕ) (tm : Option (Buf ℂ)) (T0 T1 eps_t : ℝ)
    (K0 : ℕ) (bs : Buf ℂ) (box : Fin 4 → Dbl) (o : NsevOpts) (g : Garbage) : Option LocOut :=
  match o.loc with
  | .NEWTON => do
    let R ← nsev_refine_newton D (some q) (some r) T0 T1 K0 bs (nsevBaseDisc o.disc) o.niter o.tol box o.nrm g
    return ⟨if R.1 = SUCCESS then SUCCESS else E_SUBROUTINE R.1, K0, R.2.2, none⟩
  | .FAST_EIGENVALUE =>
    match tm with
    | none => some ⟨E_SUBROUTINE EC_INVALID_ARGUMENT, deg, bs, none⟩
    | some tm =>
      if K0 ≥ deg then do
        let R ← bsFast roots deg tm eps_t o.disc bs
        return ⟨R.1, deg, R.2, none⟩
      else do
        let R ← bsFast roots deg tm eps_t o.disc (tm.view (deg + 1))
        return ⟨R.1, deg, bs, some R.2⟩
  | _ => some ⟨EC_INVALID_ARGUMENT, K0, bs, none⟩

/-- `if (opts->bound_state_filtering != NONE) { misc_filter; misc_merge }`, fnft_nsev.c:753-761: code, `K`, buffer. -/
noncomputable def bsFilter (o : NsevOpts) (box : Fin 4 → Dbl) (K : ℕ) (b : Buf ℂ) : Option (ℤ × ℕ × Buf ℂ) :=
  if o.filt = .NONE then some (SUCCESS, K, b)
  else do
    let F ← filterC K b box
    if F.1 ≠ SUCCESS then return (E_SUBROUTINE F.1, F.2)
    let G ← mergeC F.2.1 F.2.2 (Real.sqrt EPSILON)
    return (if G.1 = SUCCESS then SUCCESS else E_SUBROUTINE G.1, G.2)

/-- `memcpy(bound_states, buffer, K * sizeof(COMPLEX))`. -/
def bsCopy (K : ℕ) (src dst : Buf ℂ) : Option (Buf ℂ) := fill 0 K (fun i => src.rd i) dst

/-- Filtering and copying of the result, fnft_nsev.c:753-773: code, `*K_ptr`, `bound_states`. -/
noncomputable def bsFinish (o : NsevOpts) (box : Fin 4 → Dbl) (K0 : ℕ) (L : LocOut) : Option (ℤ × ℕ × Buf ℂ) :=
  match L.buf with
  | none => do
    let F ← bsFilter o box L.K L.bs
    return if F.1 = SUCCESS then F else (F.1, K0, F.2.2)
  | some b => do
    let F ← bsFilter o box L.K b
    if F.1 ≠ SUCCESS then return (F.1, K0, L.bs)
    let K := if K0 < F.2.1 then K0 else F.2.1
    let bs ← bsCopy K F.2.2 L.bs
    return (SUCCESS, K, bs)

/-- `nsev_compute_boundstates`, fnft_nsev.c:609-777: code, `*K_ptr`, `bound_states`. -/
noncomputable def nsev_compute_boundstates (roots : RootFinder) (D : ℕ) (q r : Buf ℂ) (deg : ℕ) (tm : Option (Buf ℂ))
    (T0 T1 eps_t : ℝ) (K0 : ℕ) (bs : Buf ℂ) (o : NsevOpts) (g : Garbage) : Option (ℤ × ℕ × Buf ℂ) :=
  if nse_upsampling_factor o.disc = 0 then some (EC_INVALID_ARGUMENT, K0, bs)
  else do
    match ← bsBox D (D / nse_upsampling_factor o.disc) q T0 T1 eps_t o with
    | .error ec => return (ec, K0, bs)
    | .ok box =>
      let L ← bsLocalize roots D q r deg tm T0 T1 eps_t K0 bs box o g
      if L.ret ≠ SUCCESS then return (L.ret, K0, L.bs)
      bsFinish o box K0 L

/-! ## Norming constants and residues -/

/-- Division of a norming constant by the derivative, fnft_nsev.c:1008-1015. State: flag (`E_DIV_BY_ZERO`), array. -/
noncomputable def residueBody (offset : ℕ) (ap : Buf ℂ) (Ws : Option (Buf ℤ)) (i : ℕ) (s : Bool × Buf ℂ) :
    Option (Bool × Buf ℂ) :=
  if s.1 then some s
  else do
    let x ← ap.rd i
    if x = 0 then return (true, s.2)
    else
      let v ← s.2.rd (offset + i)
      let scl ← match Ws with
        | none => some 1
        | some Ws => (Ws.rd i).map fun w => (2 : ℂ) ^ w
      let b ← s.2.wr (offset + i) (v / x / scl)
      return (false, b)

/-- `memcpy(normconsts_or_residues + offset, normconsts_or_residues, offset*sizeof(COMPLEX))` for `BOTH`, and the division,
fnft_nsev.c:995-1016: code and array. -/
noncomputable def residues (ds : DsType) (K : ℕ) (ap : Buf ℂ) (Ws : Option (Buf ℤ)) (nc : Buf ℂ) : Option CodeBuf :=
  match ds with
  | .NORMING_CONSTANTS => some (SUCCESS, nc)
  | .RESIDUES => do
    let s ← forLoop K (residueBody 0 ap Ws) (false, nc)
    return (if s.1 then EC_DIV_BY_ZERO else SUCCESS, s.2)
  | .BOTH => do
    let nc ← fill K K (fun i => nc.rd (i - K)) nc
    let s ← forLoop K (residueBody K ap Ws) (false, nc)
    return (if s.1 then EC_DIV_BY_ZERO else SUCCESS, s.2)
  | .other _ => some (EC_INVALID_ARGUMENT, nc)

/-- `nsev_compute_normconsts_or_residues`, fnft_nsev.c:938-1023: code and array. -/
noncomputable def nsev_normconsts (D : ℕ) (q r : Buf ℂ) (T0 T1 : ℝ) (K : ℕ) (bs nc : Buf ℂ) (o : NsevOpts) (g : Garbage) :
    Option CodeBuf :=
  if K = 0 then some (SUCCESS, nc)
  else if D = 0 then some (EC_INVALID_ARGUMENT, nc)
  else if nse_upsampling_factor o.disc = 0 then some (EC_INVALID_ARGUMENT, nc)
  else do
    let R ← nse_scatter_bound_states D (some q) (some r) T0 T1 K (some bs) (some (Buf.malloc K)) (some (Buf.malloc K)) (some nc)
      (if o.nrm then some (Buf.malloc K) else none) (nsevBaseDisc o.disc) 0 (g 0) (g 1)
    let nc ← R.b
    if R.ret ≠ SUCCESS then return (E_SUBROUTINE R.ret, nc)
    residues o.ds K R.aprime R.Ws nc

/-! ## The base routine -/

/-- Contents of the output arguments. -/
structure NsevSt where
  contspec : Option (Buf ℂ)
  K : Option ℕ
  bs : Option (Buf ℂ)
  nc : Option (Buf ℂ)

/-- The continuous spectrum in `fnft_nsev_base`, fnft_nsev.c:551-556. -/
noncomputable def baseCont (D : ℕ) (q r : Buf ℂ) (T0 T1 : ℝ) (M : ℕ) (XI : Option (ℝ × ℝ)) (kappa : ℤ) (o : NsevOpts)
    (deg : ℕ) (W : ℤ) (tm : Option (Buf ℂ)) (s : NsevSt) : Option (ℤ × NsevSt) :=
  match s.contspec with
  | none => some (SUCCESS, s)
  | some c =>
    if M > 0 then
      match XI with
      | none => none
      | some XI => do
        let R ← nsev_compute_contspec deg W tm (some q) (some r) T0 T1 D XI.1 XI.2 M c kappa o.cs o.nrm o.disc
        return (if R.1 = SUCCESS then SUCCESS else E_SUBROUTINE R.1, { s with contspec := some R.2 })
    else some (SUCCESS, s)

/-- The norming constants in `fnft_nsev_base`, fnft_nsev.c:566-571. -/
noncomputable def baseNorm (D : ℕ) (q r : Buf ℂ) (T0 T1 : ℝ) (o : NsevOpts) (g : Garbage) (K : ℕ) (bs : Buf ℂ) (s : NsevSt) :
    Option (ℤ × NsevSt) :=
  match s.nc with
  | none => some (SUCCESS, s)
  | some nc =>
    if K ≠ 0 then do
      let R ← nsev_normconsts D q r T0 T1 K bs nc o g
      return (if R.1 = SUCCESS then SUCCESS else E_SUBROUTINE R.1, { s with nc := some R.2 })
    else some (SUCCESS, s)

/-- The discrete spectrum in `fnft_nsev_base`, fnft_nsev.c:558-574. -/
noncomputable def baseDisc (roots : RootFinder) (D : ℕ) (q r : Buf ℂ) (T0 T1 eps_t : ℝ) (kappa : ℤ) (o : NsevOpts) (g : Garbage)
    (deg : ℕ) (tm : Option (Buf ℂ)) (s : NsevSt) : Option (ℤ × NsevSt) :=
  match s.bs with
  | some bs =>
    if kappa = 1 then do
      let K0 ← s.K
      let R ← nsev_compute_boundstates roots D q r deg tm T0 T1 eps_t K0 bs o g
      if R.1 ≠ SUCCESS then return (E_SUBROUTINE R.1, { s with K := some R.2.1, bs := some R.2.2 })
      baseNorm D q r T0 T1 o g R.2.1 R.2.2 { s with K := some R.2.1, bs := some R.2.2 }
    else some (SUCCESS, { s with K := s.K.map fun _ => 0 })
  | none => some (SUCCESS, { s with K := s.K.map fun _ => 0 })

/-- `fnft_nsev_base`, fnft_nsev.c:472-579, for arguments that `fnft_nsev` has checked (`q`, `r` are not NULL); the checks are
those of fnft_nsev.c:492-510. -/
noncomputable def nsev_base (roots : RootFinder) (D : ℕ) (q r : Buf ℂ) (T0 T1 : ℝ) (M : ℕ) (XI : Option (ℝ × ℝ)) (kappa : ℤ)
    (o : NsevOpts) (g : Garbage) (s : NsevSt) : Option (ℤ × NsevSt) :=
  if D < 2 then some (EC_INVALID_ARGUMENT, s)
  else if T0 ≥ T1 then some (EC_INVALID_ARGUMENT, s)
  else if s.contspec.isSome ∧ ¬ (∃ X, XI = some X ∧ X.1 < X.2) then some (EC_INVALID_ARGUMENT, s)
  else if |kappa| ≠ 1 then some (EC_INVALID_ARGUMENT, s)
  else if s.bs.isSome ∧ s.K = none then some (EC_INVALID_ARGUMENT, s)
  else
    let up := nse_upsampling_factor o.disc
    if up = 0 then some (EC_INVALID_ARGUMENT, s)
    else if D / up ≤ 1 then none
    else do
      let eps_t : ℝ := (T1 - T0) / ((D / up : ℕ) - 1)
      match ← nsevTransfer D (some q) (some r) eps_t o.nrm o.disc with
      | .error ec => return (ec, s)
      | .ok (deg, W, tm) =>
        let C ← baseCont D q r T0 T1 M XI kappa o deg W tm s
        if C.1 ≠ SUCCESS then return C
        baseDisc roots D q r T0 T1 eps_t kappa o g deg tm C.2

/-! ## The main routine -/

/-- State of `fnft_nsev`: the output arguments, `*opts`, and `normconsts_or_residues_reserve` (`none`: the same array as
`normconsts_or_residues`). -/
structure NsevMain where
  st : NsevSt
  opts : NsevOpts
  resv : Option (Buf ℂ)

/-- The discretizations with a polynomial transfer matrix: first group of the `switch` fnft_nsev.c:190-229. -/
def nsevFast (d : NseDisc) : Bool :=
  match d with
  | .D2SPLIT2_MODAL | .D2SPLIT1A | .D2SPLIT1B | .D2SPLIT2A | .D2SPLIT2B | .D2SPLIT2S | .D2SPLIT3S | .D2SPLIT4B | .D2SPLIT3A
  | .D2SPLIT3B | .D2SPLIT4A | .D2SPLIT6B | .D2SPLIT6A | .D2SPLIT8B | .D2SPLIT5A | .D2SPLIT5B | .D2SPLIT8A | .D2SPLIT7A
  | .D2SPLIT7B | .D4SPLIT4A | .D4SPLIT4B => true
  | _ => false

/-- The checks of fnft_nsev.c:169-229: do they reject the call? -/
def nsevReject (D : ℕ) (q : Option (Buf ℂ)) (T : Option (ℝ × ℝ)) (XI : Option (ℝ × ℝ)) (kappa : ℤ) (o : NsevOpts) (s : NsevSt) :
    Prop :=
  D < 2 ∨ q = none ∨ (¬ ∃ X, T = some X ∧ X.1 < X.2) ∨ (s.contspec.isSome ∧ ¬ ∃ X, XI = some X ∧ X.1 < X.2) ∨
    |kappa| ≠ 1 ∨ (s.bs.isSome ∧ s.K = none) ∨ (∃ n, o.disc = .other n) ∨
    (nsevFast o.disc = false ∧ o.loc ≠ .NEWTON ∧ kappa = 1 ∧ s.bs.isSome)

/-- Preparation for Richardson extrapolation, fnft_nsev.c:260-270: dereferences `K_ptr`. -/
def nsevReserve (m : NsevMain) : Option NsevMain :=
  if m.opts.rich = 1 ∧ m.opts.ds = .RESIDUES then do
    let K ← m.st.K
    return { m with opts := { m.opts with ds := .BOTH }, resv := some (Buf.malloc (K * 2)) }
  else some m

/-- The number of samples for the initial guesses, fnft_nsev.c:290-294. `none`: conversion of an infinite number (`Dsub` is
more than twice `D`). -/
noncomputable def nsevDsub (D Dsub : ℕ) : Option ℕ :=
  let Dsub := if Dsub = 0 then ⌊Real.sqrt (D * Real.logb 2 D * Real.logb 2 D)⌋₊ else Dsub
  if Dsub = 0 ∨ roundDiv D Dsub = 0 then none else some (roundDiv D (roundDiv D Dsub))

/-- `CHECK_RETCODE`. -/
def chk (ec : ℤ) : ℤ := if ec = SUCCESS then SUCCESS else E_SUBROUTINE ec

/-- Call of `fnft_nsev_base` on the full signal, with `normconsts_or_residues_reserve` (`useResv`) or
`normconsts_or_residues` as array for the discrete spectrum. -/
noncomputable def nsevCallBase (roots : RootFinder) (D : ℕ) (qr : Buf ℂ × Buf ℂ) (T : ℝ × ℝ) (M : ℕ) (XI : Option (ℝ × ℝ)) (kappa : ℤ)
    (g : Garbage) (useResv : Bool) (m : NsevMain) : Option (ℤ × NsevMain) :=
  match useResv, m.resv with
  | true, some rv => do
    let R ← nsev_base roots D qr.1 qr.2 T.1 T.2 M XI kappa m.opts g { m.st with nc := some rv }
    return (chk R.1, { m with st := { R.2 with nc := m.st.nc }, resv := R.2.nc })
  | _, _ => do
    let R ← nsev_base roots D qr.1 qr.2 T.1 T.2 M XI kappa m.opts g m.st
    return (chk R.1, { m with st := R.2 })

/-- The mixed method, fnft_nsev.c:284-317: initial guesses from a subsampled signal, then Newton's method. -/
noncomputable def nsevMixed (roots : RootFinder) (D : ℕ) (q : Buf ℂ) (qr : Buf ℂ × Buf ℂ) (T : ℝ × ℝ) (eps_t : ℝ) (M : ℕ)
    (XI : Option (ℝ × ℝ)) (kappa : ℤ) (g : ℕ → Garbage) (m : NsevMain) : Option (ℤ × NsevMain) := do
  let Dsub ← nsevDsub D m.opts.Dsub
  let P ← nse_preprocess_signal D (some q) eps_t kappa Dsub m.opts.disc
  match P.out, P.first_last with
  | some qrs, some fl =>
    let R ← nsev_base roots (P.Dsub * nse_upsampling_factor m.opts.disc) qrs.1 qrs.2 (T.1 + fl.1 * eps_t) (T.1 + fl.2 * eps_t) 0 XI
      kappa { m.opts with loc := .FAST_EIGENVALUE } (g 0) ⟨none, m.st.K, m.st.bs, none⟩
    if R.1 ≠ SUCCESS then
      return (chk R.1, { m with opts := { m.opts with loc := .FAST_EIGENVALUE }, st := { m.st with K := R.2.K, bs := R.2.bs } })
    let S ← nsevCallBase roots (D * nse_upsampling_factor m.opts.disc) qr T M XI kappa (g 1) true
      { m with opts := { m.opts with loc := .NEWTON }, st := { m.st with K := R.2.K, bs := R.2.bs } }
    if S.1 ≠ SUCCESS then return S
    return (SUCCESS, { S.2 with opts := { S.2.opts with loc := .SUBSAMPLE_AND_REFINE } })
  | _, _ => return (chk P.ret, m)

/-- The first approximation, fnft_nsev.c:284-322. -/
noncomputable def nsevFirst (roots : RootFinder) (D : ℕ) (q : Buf ℂ) (qr : Buf ℂ × Buf ℂ) (T : ℝ × ℝ) (eps_t : ℝ) (M : ℕ)
    (XI : Option (ℝ × ℝ)) (kappa : ℤ) (g : ℕ → Garbage) (m : NsevMain) : Option (ℤ × NsevMain) :=
  if kappa = 1 ∧ m.st.bs.isSome ∧ m.opts.loc = .SUBSAMPLE_AND_REFINE then nsevMixed roots D q qr T eps_t M XI kappa g m
  else nsevCallBase roots (D * nse_upsampling_factor m.opts.disc) qr T M XI kappa (g 1) false m

/-! ### Richardson extrapolation -/

/-- Number of values of the continuous spectrum divided by `M`, fnft_nsev.c:328-341. -/
def richCs : CsType → Option ℕ
  | .BOTH => some 3
  | .REFLECTION_COEFFICIENT => some 1
  | .AB => some 2
  | .other _ => none

/-- The array `contspec_sub`, fnft_nsev.c:326-347: nothing if no continuous spectrum is wanted; or a code. -/
def richContBuf (M : ℕ) (m : NsevMain) : Except ℤ (Option (Buf ℂ)) :=
  if m.st.contspec.isSome ∧ M > 0 then
    match richCs m.opts.cs with
    | some n => .ok (some (Buf.malloc (n * M)))
    | none => .error EC_INVALID_ARGUMENT
  else .ok none

/-- Number of values of the discrete spectrum divided by `K_sub`, fnft_nsev.c:353-364. -/
def richDs : DsType → Option ℕ
  | .BOTH => some 2
  | .RESIDUES => some 2
  | .NORMING_CONSTANTS => some 1
  | .other _ => none

/-- The arrays `bound_states_sub` (a copy of the bound states) and `normconsts_or_residues_sub`, fnft_nsev.c:348-372; or a
code. The results are `K_sub` and the two arrays. -/
def richDiscBuf (kappa : ℤ) (m : NsevMain) : Option (Except ℤ (ℕ × Option (Buf ℂ) × Option (Buf ℂ))) :=
  match m.st.bs with
  | none => some (.ok (0, none, none))
  | some bs =>
    if kappa = 1 ∧ m.st.K ≠ some 0 then do
      let K ← m.st.K
      match richDs m.opts.ds with
      | none => return .error EC_INVALID_ARGUMENT
      | some n => do
        let b ← bsCopy K bs (Buf.malloc K)
        return .ok (K, some b, some (Buf.malloc (n * K)))
    else some (.ok (0, none, none))

/-- One value: `(scl_num*x - y)/scl_den`. -/
noncomputable def richStep (scl : ℝ) (x y : ℂ) : ℂ := (scl * x - y) / ((scl - 1 : ℝ) : ℂ)

/-- Extrapolation of the continuous spectrum at frequency `i`, fnft_nsev.c:412-417. -/
noncomputable def richContBody (n M : ℕ) (scl eps_sub XI0 dxi : ℝ) (sub : Buf ℂ) (i : ℕ) (c : Buf ℂ) : Option (Buf ℂ) :=
  if |XI0 + dxi * i| < 0.9 * Real.pi / (2 * eps_sub) then
    forLoop n (fun j c => do
      let x ← c.rd (i + j * M)
      let y ← sub.rd (i + j * M)
      c.wr (i + j * M) (richStep scl x y)) c
  else some c

/-- Extrapolation of the continuous spectrum, fnft_nsev.c:407-418 (`dxi` is computed in any case, so that `XI` is dereferenced;
it is not finite for `M = 1`). -/
noncomputable def richCont (M : ℕ) (scl eps_sub : ℝ) (XI : Option (ℝ × ℝ)) (sub : Option (Buf ℂ)) (m : NsevMain) : Option NsevMain :=
  match XI with
  | none => none
  | some XI =>
    match m.st.contspec, sub with
    | some c, some sub =>
      if M = 0 then some m
      else if M = 1 then none
      else
        match richCs m.opts.cs with
        | none => none
        | some n => do
          let c ← forLoop M (richContBody n M scl eps_sub XI.1 ((XI.2 - XI.1) / (M - 1)) sub) c
          return { m with st := { m.st with contspec := some c } }
    | _, _ => some m

/-- Search for the closest bound state of the second approximation, fnft_nsev.c:427-435. State: `bs_err_thres`, `loc`. A
relative error with denominator zero is never below the threshold. -/
noncomputable def richFind (l : ℂ) (sub : Buf ℂ) (j : ℕ) (s : ℝ × Option ℕ) : Option (ℝ × Option ℕ) := do
  let y ← sub.rd j
  if l ≠ 0 ∧ ‖l - y‖ / ‖l‖ < s.1 then return (‖l - y‖ / ‖l‖, some j) else return s

/-- Quotient of complex numbers; division by zero is outside of the model. -/
noncomputable def divNZ (x y : ℂ) : Option ℂ := if y = 0 then none else some (x / y)

/-- The residue of bound state `i`, fnft_nsev.c:438-446: `reserve` and `sub` afterwards. -/
noncomputable def richResidue (K Ksub i loc : ℕ) (scl : ℝ) (rv sub : Buf ℂ) : Option (Buf ℂ × Buf ℂ) := do
  let b ← rv.rd i
  let res ← rv.rd (K + i)
  let ap ← divNZ b res
  let bs ← sub.rd loc
  let ress ← sub.rd (Ksub + loc)
  let aps ← divNZ bs ress
  let sub ← sub.wr (Ksub + loc) aps
  let rnew ← divNZ b (richStep scl ap aps)
  let rv ← rv.wr (K + i) rnew
  return (rv, sub)

/-- State of the extrapolation of the discrete spectrum: `bound_states`, the array of the norming constants and residues, and
`normconsts_or_residues_sub`. -/
structure RichSt where
  bs : Buf ℂ
  rv : Option (Buf ℂ)
  sub : Buf ℂ

/-- Bound state `i`, fnft_nsev.c:426-448. -/
noncomputable def richBody (K Ksub : ℕ) (scl eps_t : ℝ) (ds : DsType) (bsub : Buf ℂ) (i : ℕ) (s : RichSt) : Option RichSt := do
  let l ← s.bs.rd i
  let f ← forLoop Ksub (richFind l bsub) (eps_t, none)
  match f.2 with
  | none => return s
  | some loc =>
    let y ← bsub.rd loc
    let bs ← s.bs.wr i (richStep scl l y)
    if ds = .RESIDUES ∨ ds = .BOTH then
      let rv ← s.rv
      let R ← richResidue K Ksub i loc scl rv s.sub
      return ⟨bs, some R.1, R.2⟩
    else return { s with bs := bs }

/-- Extrapolation of the discrete spectrum, fnft_nsev.c:419-453; `ds` is the type that the user has requested. -/
noncomputable def richDisc (kappa : ℤ) (Ksub : ℕ) (scl eps_t : ℝ) (ds : DsType) (bsub ncsub : Option (Buf ℂ)) (m : NsevMain) :
    Option NsevMain :=
  match m.st.bs, bsub, ncsub with
  | some bs, some bsub, some ncsub =>
    if kappa = 1 ∧ m.st.K ≠ some 0 ∧ Ksub ≠ 0 then do
      let K ← m.st.K
      let s ← forLoop K (richBody K Ksub scl eps_t ds bsub) ⟨bs, if m.resv.isSome then m.resv else m.st.nc, ncsub⟩
      if ds = .RESIDUES then
        let nc ← m.st.nc
        let rv ← s.rv
        let nc ← fill 0 K (fun i => rv.rd (K + i)) nc
        return { m with st := { m.st with bs := some s.bs, nc := some nc }, resv := s.rv }
      else if ds = .BOTH then
        let nc ← s.rv
        return { m with st := { m.st with bs := some s.bs, nc := some nc } }
      else return { m with st := { m.st with bs := some s.bs } }
    else some m
  | _, _, _ => some m

/-- Richardson extrapolation, fnft_nsev.c:324-454; `ds` is the type that the user has requested. For `D = 2` the second
approximation uses the same step size and `scl_den` is zero, which is outside of the model. -/
noncomputable def nsevRich (roots : RootFinder) (D : ℕ) (q : Buf ℂ) (T : ℝ × ℝ) (eps_t : ℝ) (M : ℕ) (XI : Option (ℝ × ℝ)) (kappa : ℤ)
    (g : Garbage) (ds : DsType) (m : NsevMain) : Option (ℤ × NsevMain) :=
  match richContBuf M m with
  | .error ec => some (ec, m)
  | .ok csub => do
    match ← richDiscBuf kappa m with
    | .error ec => return (ec, m)
    | .ok (K, bsub, ncsub) =>
      if nse_method_order m.opts.disc = 0 then return (EC_INVALID_ARGUMENT, m)
      let P ← nse_preprocess_signal D (some q) eps_t kappa (D / 2) m.opts.disc
      match P.out, P.first_last with
      | some qrs, some fl =>
        let T0 := T.1 + fl.1 * eps_t
        let T1 := T.1 + fl.2 * eps_t
        let eps_sub := (T1 - T0) / ((P.Dsub : ℝ) - 1)
        let R ← nsev_base roots (P.Dsub * nse_upsampling_factor m.opts.disc) qrs.1 qrs.2 T0 T1 M XI kappa
          { m.opts with loc := .NEWTON } g ⟨csub, some K, bsub, ncsub⟩
        if R.1 ≠ SUCCESS then return (chk R.1, { m with opts := { m.opts with loc := .NEWTON } })
        let scl := (eps_sub / eps_t) ^ nse_method_order m.opts.disc
        if scl = 1 then none
        else
          let m ← richCont M scl eps_sub XI R.2.contspec { m with opts := { m.opts with ds := ds } }
          let Ksub ← R.2.K
          let m ← richDisc kappa Ksub scl eps_t ds R.2.bs R.2.nc m
          return (SUCCESS, m)
      | _, _ => return (chk P.ret, m)

/-- `if (opts->richardson_extrapolation_flag == 1) { ... }` -/
noncomputable def nsevRichIf (roots : RootFinder) (D : ℕ) (q : Buf ℂ) (T : ℝ × ℝ) (eps_t : ℝ) (M : ℕ) (XI : Option (ℝ × ℝ)) (kappa : ℤ)
    (g : Garbage) (ds : DsType) (m : NsevMain) : Option (ℤ × NsevMain) :=
  if m.opts.rich = 1 then nsevRich roots D q T eps_t M XI kappa g ds m else some (SUCCESS, m)

open Classical in
/-- `fnft_nsev`, fnft_nsev.c:139-467. `o` is the record that `opts` points to (`default_opts` for NULL). The result
contains the code, the output arguments and the record afterwards. -/
noncomputable def fnft_nsev (roots : RootFinder) (D : ℕ) (q : Option (Buf ℂ)) (T : Option (ℝ × ℝ)) (M : ℕ) (XI : Option (ℝ × ℝ))
    (kappa : ℤ) (o : NsevOpts) (g : ℕ → Garbage) (s : NsevSt) : Option (ℤ × NsevSt × NsevOpts) :=
  if nsevReject D q T XI kappa o s then some (EC_INVALID_ARGUMENT, s, o)
  else if nse_upsampling_factor o.disc = 0 then some (EC_INVALID_ARGUMENT, s, o)
  else do
    let q ← q
    let T ← T
    let eps_t : ℝ := (T.2 - T.1) / ((D : ℝ) - 1)
    let m ← nsevReserve ⟨s, o, none⟩
    let P ← nse_preprocess_signal D (some q) eps_t kappa D o.disc
    match P.out with
    | none => return (chk P.ret, m.st, m.opts)
    | some qr =>
      let F ← nsevFirst roots D q qr T eps_t M XI kappa g m
      if F.1 ≠ SUCCESS then return (F.1, F.2.st, F.2.opts)
      let R ← nsevRichIf roots D q T eps_t M XI kappa (g 2) o.ds F.2
      return (R.1, R.2.st, R.2.opts)

end FNFT

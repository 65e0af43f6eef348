import Verif.Model.AknsScatter
import Verif.Model.NseDisc
/-!
# Model of fnft__akns_scatter.c: `akns_scatter_bound_states`

`D_given = 1` makes the step size infinite in C and is outside of the model. The tables `WPHI`, `WPSI` are
allocated with `malloc`; entries that are never written have unspecified values, which are the arguments `gPHI`,
`gPSI` of the model. Memory allocations succeed.
-/
namespace FNFT
open AknsDisc Complex

/-- `misc_matrix_mult(s,s,1,U,&src[so],&dst[dofs])`; source and destination do not overlap. -/
noncomputable def mvAt (s : ℕ) (U : List ℂ) (src : Buf ℂ) (so : ℕ) (dst : Buf ℂ) (dofs : ℕ) : Option (Buf ℂ) := do
  let v ← misc_matrix_mult s s 1 (Buf.ofList U) (src.view so) (dst.view dofs)
  return dst.splice dofs v

/-- State of the loops over the samples: the array `PSIPHI`, the accumulated scaling factor (`WPHI_acc` or
`WPSI_acc`) and the table of scaling factors (`WPHI` or `WPSI`, NULL unless needed). -/
structure BsSt where
  P : Buf ℂ
  acc : ℤ
  tab : Option (Buf ℤ)

/-- `if (normalization_flag) { acc += misc_normalize_vector(s, &v[off]); if (tab != NULL) tab[i] = acc; }`,
fnft__akns_scatter.c:629-633, 650-654, 674-678, 730-733, 751-754, 773-776. Result: array `v`, `acc`, `tab`. -/
noncomputable def bsNorm (haveW : Bool) (s : ℕ) (i : ℕ) (v : Buf ℂ) (off : ℕ) (acc : ℤ) (tab : Option (Buf ℤ)) :
    Option (Buf ℂ × ℤ × Option (Buf ℤ)) :=
  if haveW then do
    let av ← misc_normalize_vector s (v.view off)
    let tab ← scatW tab i (acc + av.1)
    return (v.splice off av.2, acc + av.1, tab)
  else some (v, acc, tab)

/-- What the precomputations provide: `tmp1` with its parts `tmp2` (offset `D`), `tmp3` (`2D`), `tmp4` (`3D`), or
`eps_t_scaled`. -/
inductive BsTab
  | es4 (tmp : Buf ℂ)
  | tes4 (tmp : Buf ℂ)
  | cf (w : List ℂ)

/-- Precomputation loop of `ES4` at `n = 3*j`, fnft__akns_scatter.c:522-530 (the same formulas as in
`akns_scatter_matrix`). -/
noncomputable def es4PreB (D : ℕ) (eps_t : ℝ) (q r : Buf ℂ) (j : ℕ) (tmp : Buf ℂ) : Option (Buf ℂ) := do
  let tmp ← es4Pre1 eps_t q r j tmp
  es4Pre2 D eps_t q r j tmp

/-- Second precomputation loop of `TES4` at `n = 3*j`, fnft__akns_scatter.c:552-557. -/
noncomputable def tes4PreB (D : ℕ) (eps_t : ℝ) (q r : Buf ℂ) (j : ℕ) (tmp : Buf ℂ) : Option (Buf ℂ) := do
  let n := 3 * j
  let eps_t_2 : ℝ := eps_t * eps_t
  let eps_t_3 : ℝ := eps_t * eps_t * eps_t
  let q1 ← q.rd (n + 1)
  let q2 ← q.rd (n + 2)
  let r1 ← r.rd (n + 1)
  let r2 ← r.rd (n + 2)
  let tmp ← tmp.wr (2 * D + n) ((-eps_t_3 * (q2 + r2)) / 96 - (eps_t_2 * (q1 + r1)) / 24)
  let tmp ← tmp.wr (2 * D + n + 1) ((-eps_t_3 * (q2 - r2) * I) / 96 + (eps_t_2 * (r1 - q1) * I) / 24)
  let tmp ← tmp.wr (3 * D + n) ((-eps_t_3 * (q2 + r2)) / 96 + (eps_t_2 * (q1 + r1)) / 24)
  tmp.wr (3 * D + n + 1) ((-eps_t_3 * (q2 - r2) * I) / 96 + (eps_t_2 * (q1 - r1) * I) / 24)

/-- The precomputations for `TES4`, fnft__akns_scatter.c:537-559. -/
noncomputable def bsPreTES4 (D : ℕ) (eps_t : ℝ) (q r : Buf ℂ) (skip_b : Bool) : Option (Buf ℂ) :=
  if skip_b then forLoop ((D + 2) / 3) (tes4Pre D eps_t q r) (Buf.malloc (2 * D))
  else do
    let tmp ← forLoop ((D + 2) / 3) (tes4Pre D eps_t q r) (Buf.malloc (4 * D))
    forLoop ((D + 2) / 3) (tes4PreB D eps_t q r) tmp

/-- The `switch` of the precomputations, fnft__akns_scatter.c:513-582. -/
noncomputable def bsPre (D : ℕ) (q r : Buf ℂ) (eps_t : ℝ) (d : AknsDisc) (skip_b : Bool) :
    Option (Except ℤ BsTab) :=
  match d with
  | ES4 => do
    let tmp ← forLoop ((D + 2) / 3) (es4PreB D eps_t q r) (Buf.malloc (2 * D))
    return .ok (.es4 tmp)
  | TES4 => do
    let tmp ← bsPreTES4 D eps_t q r skip_b
    return .ok (.tes4 tmp)
  | CF4_3 | CF5_3 | CF6_4 | CF4_2 | BO =>
    match akns_method_weights d with
    | .error ec => some (.error (E_SUBROUTINE ec))
    | .ok w => some (.ok (.cf (w.2.map (· * (eps_t : ℂ)))))
  | _ => some (.error (E_SUBROUTINE EC_INVALID_ARGUMENT))

/-! ## Forward scattering of `PHI` and its derivative (`PHI` starts at `PSIPHI[2]`) -/

/-- fnft__akns_scatter.c:623-628; state `phi_temp[current]`, `phi_temp[!current]`. -/
noncomputable def bsPhiSub (up : ℕ) (w : List ℂ) (q r : Buf ℂ) (l : ℂ) (n_given count : ℕ) (s : Buf ℂ × Buf ℂ) :
    Option (Buf ℂ × Buf ℂ) := do
  let n := n_given * up + count
  let qn ← q.rd n
  let rn ← r.rd n
  let h ← w[count]?
  let o ← misc_matrix_mult 4 4 1 (Buf.ofList (U_BO_d qn rn l h)) s.1 s.2
  return (o, s.1)

/-- One iteration of fnft__akns_scatter.c:622-635. -/
noncomputable def bsPhiBO (up : ℕ) (w : List ℂ) (q r : Buf ℂ) (l : ℂ) (haveW : Bool) (n_given : ℕ)
    (s : BsSt × Buf ℂ × Buf ℂ) : Option (BsSt × Buf ℂ × Buf ℂ) := do
  let t ← forLoop up (bsPhiSub up w q r l n_given) s.2
  let c ← bsNorm haveW 4 (n_given + 1) t.1 0 s.1.acc s.1.tab
  let P ← fill (2 + 4 * (n_given + 1)) 4 (fun i => c.1.rd (i - (2 + 4 * (n_given + 1)))) s.1.P
  return (⟨P, c.2.1, c.2.2⟩, c.1, t.2)

/-- One iteration of fnft__akns_scatter.c:644-655. -/
noncomputable def bsPhiES4 (D : ℕ) (eps_t : ℝ) (tmp q r : Buf ℂ) (l : ℂ) (haveW : Bool) (n_given : ℕ) (s : BsSt) :
    Option BsSt := do
  let n := 3 * n_given
  let eps_t_3 : ℝ := eps_t * eps_t * eps_t
  let q1 ← q.rd (n + 1)
  let r1 ← r.rd (n + 1)
  let u0 ← tmp.rd n
  let u1 ← tmp.rd (n + 1)
  let u2 ← tmp.rd (n + 2)
  let a1 := u0 + eps_t_3 * (l * I * (q1 - r1)) / 12
  let a2 := u1 - eps_t_3 * l * (q1 + r1) / 12
  let a3 := -eps_t * I * l + u2
  let U ← es4U true D tmp a1 a2 a3 n
  let P ← mvAt 4 U s.P (2 + 4 * n_given) s.P (2 + 4 * (n_given + 1))
  let c ← bsNorm haveW 4 (n_given + 1) P (2 + 4 * (n_given + 1)) s.acc s.tab
  return ⟨c.1, c.2.1, c.2.2⟩

/-- One iteration of fnft__akns_scatter.c:662-684. -/
noncomputable def bsPhiTES4 (D : ℕ) (eps_t : ℝ) (tmp q r : Buf ℂ) (l : ℂ) (haveW : Bool) (n_given : ℕ) (s : BsSt) :
    Option BsSt := do
  let n := 3 * n_given
  let u0 ← tmp.rd n
  let u1 ← tmp.rd (n + 1)
  let P ← mvAt 2 (U_ES4 u0 u1 0) s.P (2 + 4 * n_given) s.P (2 + 4 * (n_given + 1))
  let P ← mvAt 2 (U_ES4 u0 u1 0) P (2 + 4 * n_given + 2) P (2 + 4 * (n_given + 1) + 2)
  let qn ← q.rd n
  let rn ← r.rd n
  let t ← mvAt 4 (U_BO_d qn rn l eps_t) P (2 + 4 * (n_given + 1)) (Buf.malloc 4) 0
  let c ← bsNorm haveW 4 (n_given + 1) t 0 s.acc s.tab
  let v0 ← tmp.rd (D + n)
  let v1 ← tmp.rd (D + n + 1)
  let P ← mvAt 2 (U_ES4 v0 v1 0) c.1 0 P (2 + 4 * (n_given + 1))
  let P ← mvAt 2 (U_ES4 v0 v1 0) c.1 2 P (2 + 4 * (n_given + 1) + 2)
  return ⟨P, c.2.1, c.2.2⟩

/-- The loop over the samples for `PHI`, fnft__akns_scatter.c:611-690. -/
noncomputable def bsPhi (T : BsTab) (D Dg up : ℕ) (eps_t : ℝ) (q r : Buf ℂ) (l : ℂ) (haveW : Bool) (s : BsSt) :
    Option BsSt :=
  match T with
  | .cf w => do
    let c ← fill 0 4 (fun i => s.P.rd (2 + i)) (Buf.malloc 4)
    let t ← forLoop Dg (bsPhiBO up w q r l haveW) (s, c, Buf.malloc 4)
    return t.1
  | .es4 tmp => forLoop Dg (bsPhiES4 D eps_t tmp q r l haveW) s
  | .tes4 tmp => forLoop Dg (bsPhiTES4 D eps_t tmp q r l haveW) s

/-! ## Backward scattering of `PSI` (`PSI` starts at `PSIPHI[0]`) -/

/-- fnft__akns_scatter.c:723-729, `count = up-1-c`. -/
noncomputable def bsPsiSub (up : ℕ) (w : List ℂ) (q r : Buf ℂ) (l : ℂ) (n_given c : ℕ) (s : Buf ℂ × Buf ℂ) :
    Option (Buf ℂ × Buf ℂ) := do
  let count := up - 1 - c
  let n := n_given * up + count
  let qn ← q.rd n
  let rn ← r.rd n
  let h ← w[count]?
  let o ← misc_matrix_mult 2 2 1 (Buf.ofList (U_BO qn rn l (-h))) s.1 s.2
  return (o, s.1)

/-- One iteration of fnft__akns_scatter.c:722-735, `n_given = Dg-1-j`. -/
noncomputable def bsPsiBO (Dg up : ℕ) (w : List ℂ) (q r : Buf ℂ) (l : ℂ) (haveW : Bool) (j : ℕ)
    (s : BsSt × Buf ℂ × Buf ℂ) : Option (BsSt × Buf ℂ × Buf ℂ) := do
  let n_given := Dg - 1 - j
  let t ← forLoop up (bsPsiSub up w q r l n_given) s.2
  let c ← bsNorm haveW 2 n_given t.1 0 s.1.acc s.1.tab
  let P ← fill (4 * n_given) 2 (fun i => c.1.rd (i - 4 * n_given)) s.1.P
  return (⟨P, c.2.1, c.2.2⟩, c.1, t.2)

/-- One iteration of fnft__akns_scatter.c:744-755, `n_given = Dg-1-j`, `n = 3*n_given`. -/
noncomputable def bsPsiES4 (Dg : ℕ) (eps_t : ℝ) (tmp q r : Buf ℂ) (l : ℂ) (haveW : Bool) (j : ℕ) (s : BsSt) :
    Option BsSt := do
  let n_given := Dg - 1 - j
  let n := 3 * n_given
  let eps_t_3 : ℝ := eps_t * eps_t * eps_t
  let q1 ← q.rd (n + 1)
  let r1 ← r.rd (n + 1)
  let u0 ← tmp.rd n
  let u1 ← tmp.rd (n + 1)
  let u2 ← tmp.rd (n + 2)
  let a1 := -u0 - eps_t_3 * (l * I * (q1 - r1)) / 12
  let a2 := -u1 + eps_t_3 * l * (q1 + r1) / 12
  let a3 := eps_t * I * l - u2
  let P ← mvAt 2 (U_ES4 a1 a2 a3) s.P (4 * (n_given + 1)) s.P (4 * n_given)
  let c ← bsNorm haveW 2 n_given P (4 * n_given) s.acc s.tab
  return ⟨c.1, c.2.1, c.2.2⟩

/-- One iteration of fnft__akns_scatter.c:762-781, `n_given = Dg-1-j`, `n = 3*n_given`. -/
noncomputable def bsPsiTES4 (D Dg : ℕ) (eps_t : ℝ) (tmp q r : Buf ℂ) (l : ℂ) (haveW : Bool) (j : ℕ) (s : BsSt) :
    Option BsSt := do
  let n_given := Dg - 1 - j
  let n := 3 * n_given
  let u0 ← tmp.rd (2 * D + n)
  let u1 ← tmp.rd (2 * D + n + 1)
  let P ← mvAt 2 (U_ES4 u0 u1 0) s.P (4 * (n_given + 1)) s.P (4 * n_given)
  let qn ← q.rd n
  let rn ← r.rd n
  let t ← mvAt 2 (U_BO qn rn l (-eps_t)) P (4 * n_given) (Buf.malloc 2) 0
  let c ← bsNorm haveW 2 n_given t 0 s.acc s.tab
  let v0 ← tmp.rd (3 * D + n)
  let v1 ← tmp.rd (3 * D + n + 1)
  let P ← mvAt 2 (U_ES4 v0 v1 0) c.1 0 P (4 * n_given)
  return ⟨P, c.2.1, c.2.2⟩

/-- The loop over the samples for `PSI`, fnft__akns_scatter.c:712-788. -/
noncomputable def bsPsi (T : BsTab) (D Dg up : ℕ) (eps_t : ℝ) (q r : Buf ℂ) (l : ℂ) (haveW : Bool) (s : BsSt) :
    Option BsSt :=
  match T with
  | .cf w => do
    let c ← fill 0 2 (fun i => s.P.rd (4 * Dg + i)) (Buf.malloc 2)
    let t ← forLoop Dg (bsPsiBO Dg up w q r l haveW) (s, c, Buf.malloc 2)
    return t.1
  | .es4 tmp => forLoop Dg (bsPsiES4 Dg eps_t tmp q r l haveW) s
  | .tes4 tmp => forLoop Dg (bsPsiTES4 D Dg eps_t tmp q r l haveW) s

/-! ## Results -/

/-- `ROUND(x)`: to the nearest integer, half away from zero (no overflow of `INT`). -/
noncomputable def roundC (x : ℝ) : ℤ := if 0 ≤ x then ⌊x + 1 / 2⌋ else ⌈x - 1 / 2⌉

/-- `a_vals[neig]`, `aprime_vals[neig]` before the projection for the KdV, and `Ws[neig]`,
fnft__akns_scatter.c:800-817; `tb` is `T[1]+eps_t*boundary_coeff`. -/
noncomputable def bsA (haveW : Bool) (l : ℂ) (tb : ℝ) (acc : ℤ) (f0 f2 : ℂ) : ℂ × ℂ × ℤ :=
  let exponent : ℂ := I * l * tb
  if haveW then
    let l2 := Real.log 2
    let v := roundC (exponent.re / l2)
    let u : ℝ := exponent.re / l2 - v
    (f0 * exp (I * exponent.im + u * l2), (f2 + I * tb * f0) * exp (I * exponent.im + u * l2), v + acc)
  else (f0 * exp exponent, f2 * exp exponent + I * tb * (f0 * exp exponent), 0)

/-- `if (PDE==akns_pde_KdV) f_S[i] = CREAL(f_S[i]);` -/
noncomputable def bsRe (pde : AknsPde) (z : ℂ) : ℂ := if pde = .KdV then (z.re : ℂ) else z

/-- `if (normalization_flag) b_temp[i] *= POW(2, WPHI[n] - WPSI[n]);`: the factor. -/
noncomputable def bsScale (haveW : Bool) (tPHI tPSI : Option (Buf ℤ)) (n : ℕ) : Option ℂ :=
  if haveW then do
    let tp ← tPHI
    let ts ← tPSI
    let a ← tp.rd n
    let b ← ts.rd n
    return (2 : ℂ) ^ (a - b)
  else some 1

/-- The candidate for `b` at one sample (fnft__akns_scatter.c:844-854): the new `error_metric` and value for
`b_vals[neig]`, or `none` if nothing happens. If one of `phi_S[i]`, `psi_S[i]` is zero, the metric in C is
infinite or not a number and the comparison with `error_metric` fails. `m = none` is `error_metric = INFINITY`. -/
noncomputable def bsPick (pde : AknsPde) (p0 p1 s0 s1 scl : ℂ) (m : Option ℝ) : Option (ℝ × ℂ) :=
  if p0 = 0 ∨ p1 = 0 ∨ s0 = 0 ∨ s1 = 0 then none
  else
    let b0 := p0 / s0 * scl
    let b1 := p1 / s1 * scl
    if pde ≠ .KdV ∨ (b0 * b1).re > 0 then
      let tmp := |0.5 * Real.log ‖b1 / b0‖|
      match m with
      | none => some (tmp, b0)
      | some m => if tmp < m then some (tmp, b0) else none
    else none

/-- One iteration of fnft__akns_scatter.c:834-855. State: `error_metric`, `b_vals`. -/
noncomputable def bsBBody (T : List ℂ) (pde : AknsPde) (haveW : Bool) (tPHI tPSI : Option (Buf ℤ)) (P : Buf ℂ)
    (neig n : ℕ) (s : Option ℝ × Buf ℂ) : Option (Option ℝ × Buf ℂ) := do
  let phi ← mvAt 2 T P (2 + 4 * n) (Buf.malloc 2) 0
  let psi ← mvAt 2 T P (4 * n) (Buf.malloc 2) 0
  let p0 ← phi.rd 0
  let p1 ← phi.rd 1
  let s0 ← psi.rd 0
  let s1 ← psi.rd 1
  let scl ← bsScale haveW tPHI tPSI n
  match bsPick pde (bsRe pde p0) (bsRe pde p1) (bsRe pde s0) (bsRe pde s1) scl s.1 with
  | none => return s
  | some c => do
    let b ← s.2.wr neig c.2
    return (some c.1, b)

/-- What `akns_scatter_bound_states` leaves behind. -/
structure BsRes where
  ret : ℤ
  a : Buf ℂ
  aprime : Buf ℂ
  b : Option (Buf ℂ)
  Ws : Option (Buf ℤ)

/-- The part for `PSI`, fnft__akns_scatter.c:698-788: the array `PSIPHI` and the table `WPSI`, or the code. -/
noncomputable def bsBack (T : BsTab) (D Dg up : ℕ) (eps_t tb : ℝ) (q r : Buf ℂ) (l : ℂ) (haveW : Bool) (d : AknsDisc)
    (pde : AknsPde) (vanilla : Bool) (P : Buf ℂ) (tab : Option (Buf ℤ)) :
    Option (Except ℤ (Buf ℂ × Option (Buf ℤ))) := do
  match akns_basis_from_S l false eps_t d vanilla pde with
  | .error ec => return .error (E_SUBROUTINE ec)
  | .ok M => do
    let P ← mvAt 2 M (Buf.ofList [0, exp (I * l * tb)]) 0 P (4 * Dg)
    let st ← bsPsi T D Dg up eps_t q r l haveW ⟨P, 0, tab⟩
    return .ok (st.P, st.tab)

/-- `if (!skip_b_flag) { ... }`, fnft__akns_scatter.c:696-789. -/
noncomputable def bsBackIf (skip_b : Bool) (T : BsTab) (D Dg up : ℕ) (eps_t tb : ℝ) (q r : Buf ℂ) (l : ℂ)
    (haveW : Bool) (d : AknsDisc) (pde : AknsPde) (vanilla : Bool) (P : Buf ℂ) (tab : Option (Buf ℤ)) :
    Option (Except ℤ (Buf ℂ × Option (Buf ℤ))) :=
  if skip_b then some (.ok (P, tab)) else bsBack T D Dg up eps_t tb q r l haveW d pde vanilla P tab

/-- `if (skip_b_flag == 0) { ... }`, fnft__akns_scatter.c:823-856; `b = none`: the pointer `b_vals` is NULL. -/
noncomputable def bsBIf (skip_b : Bool) (Dg : ℕ) (eps_t : ℝ) (l : ℂ) (haveW : Bool) (d : AknsDisc) (pde : AknsPde)
    (vanilla : Bool) (P : Buf ℂ) (tPHI tPSI : Option (Buf ℤ)) (neig : ℕ) (b : Option (Buf ℂ)) :
    Option (Except ℤ (Option (Buf ℂ))) :=
  if skip_b then some (.ok b)
  else match akns_basis_to_S l false eps_t d vanilla pde with
    | .error ec => some (.error (E_SUBROUTINE ec))
    | .ok M => do
      let b ← b
      let s ← forLoop (Dg + 1) (bsBBody M pde haveW tPHI tPSI P neig) (none, b)
      return .ok (some s.2)

/-- The writes to `a_vals[neig]`, `aprime_vals[neig]`, `Ws[neig]`, fnft__akns_scatter.c:800-821. -/
noncomputable def bsWriteA (pde : AknsPde) (v : ℂ × ℂ × ℤ) (neig : ℕ) (s : BsRes) : Option BsRes := do
  let a ← s.a.wr neig (bsRe pde v.1)
  let ap ← s.aprime.wr neig (if pde = .KdV then I * (v.2.1.im : ℂ) else v.2.1)
  let W ← scatW s.Ws neig v.2.2
  return ⟨s.ret, a, ap, s.b, W⟩

/-- One bound state, fnft__akns_scatter.c:584-857. `P` is the (uninitialised) block `PSIPHI`; what one bound state
leaves in it is not read for the next one. `t0` is `T[0]-eps_t*boundary_coeff`, `tb` is
`T[1]+eps_t*boundary_coeff`. Nothing happens once an error has made the code leave the loop. -/
noncomputable def bsOne (T : BsTab) (D Dg up : ℕ) (eps_t t0 tb : ℝ) (q r : Buf ℂ) (haveW skip_b : Bool) (d : AknsDisc)
    (pde : AknsPde) (vanilla : Bool) (gPHI gPSI : ℕ → ℤ) (bound_states : Buf ℂ) (neig : ℕ) (s : BsRes) :
    Option BsRes :=
  if s.ret ≠ SUCCESS then some s
  else do
    let l ← bound_states.rd neig
    let f0 := exp (-I * l * t0)
    let fS := Buf.ofList [f0, 0, f0 * (-I * t0), 0]
    match akns_basis_from_S l true eps_t d vanilla pde with
    | .error ec => return { s with ret := E_SUBROUTINE ec }
    | .ok M => do
      let P ← mvAt 4 M fS 0 (Buf.malloc (4 * (Dg + 1) + 2)) 2
      let tab := haveW && !skip_b
      let st ← bsPhi T D Dg up eps_t q r l haveW ⟨P, 0, if tab then some (Buf.ofFn (Dg + 1) gPHI) else none⟩
      match ← bsBackIf skip_b T D Dg up eps_t tb q r l haveW d pde vanilla st.P
          (if tab then some (Buf.ofFn (Dg + 1) gPSI) else none) with
      | .error ec => return { s with ret := ec }
      | .ok bk =>
        match akns_basis_to_S l true eps_t d vanilla pde with
        | .error ec => return { s with ret := E_SUBROUTINE ec }
        | .ok M' => do
          let f ← mvAt 4 M' bk.1 (2 + 4 * Dg) (Buf.malloc 4) 0
          let f0 ← f.rd 0
          let f2 ← f.rd 2
          let s ← bsWriteA pde (bsA haveW l tb st.acc f0 f2) neig s
          match ← bsBIf skip_b Dg eps_t l haveW d pde vanilla bk.1 st.tab bk.2 neig s.b with
          | .error ec => return { s with ret := ec }
          | .ok b => return { s with b := b }

/-- `akns_scatter_bound_states`, fnft__akns_scatter.c:423-867. NULL pointers are `none`; `T` is not NULL. -/
noncomputable def akns_scatter_bound_states (D : ℕ) (q r : Option (Buf ℂ)) (T0 T1 : ℝ) (K : ℕ)
    (bound_states a_vals aprime_vals b_vals : Option (Buf ℂ)) (Ws : Option (Buf ℤ)) (d : AknsDisc) (pde : AknsPde)
    (vanilla_flag skip_b_flag : ℕ) (gPHI gPSI : ℕ → ℤ) : Option BsRes :=
  let bad (ec : ℤ) : BsRes := ⟨ec, a_vals.getD (Buf.malloc 0), aprime_vals.getD (Buf.malloc 0), b_vals, Ws⟩
  if D = 0 then some (bad EC_INVALID_ARGUMENT)
  else match q, r with
    | some q, some r =>
      if K = 0 then some (bad EC_INVALID_ARGUMENT)
      else match bound_states, a_vals, aprime_vals with
        | some bound_states, some a_vals, some aprime_vals =>
          if skip_b_flag = 0 ∧ b_vals = none then some (bad EC_INVALID_ARGUMENT)
          else
            let up := akns_upsampling_factor d
            if up = 0 then some (bad EC_INVALID_ARGUMENT)
            else match akns_boundary_coeff d with
              | none => none
              | some bc =>
                if D % up ≠ 0 then some (bad EC_ASSERTION_FAILED)
                else
                  let Dg := D / up
                  if pde ≠ .KdV ∧ pde ≠ .NSE then some (bad EC_INVALID_ARGUMENT)
                  else if Dg ≤ 1 then none
                  else do
                    let eps_t : ℝ := (T1 - T0) / (Dg - 1)
                    match ← bsPre D q r eps_t d (skip_b_flag ≠ 0) with
                    | .error ec => return bad ec
                    | .ok tab =>
                      forLoop K (bsOne tab D Dg up eps_t (T0 - eps_t * (bc : ℝ)) (T1 + eps_t * (bc : ℝ)) q r Ws.isSome
                        (skip_b_flag ≠ 0) d pde (vanilla_flag ≠ 0) gPHI gPSI bound_states)
                        ⟨SUCCESS, a_vals, aprime_vals, b_vals, Ws⟩
        | _, _, _ => some (bad EC_INVALID_ARGUMENT)
    | _, _ => some (bad EC_INVALID_ARGUMENT)

end FNFT

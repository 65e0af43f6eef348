import Verif.Model.AknsDisc
import Verif.Model.AknsFscatter
/-!
# Model of fnft__akns_scatter.c: `akns_scatter_matrix`
-/
namespace FNFT
open AknsDisc Complex

/-- The array that starts at `&b[off]`. -/
def Buf.view {α : Type*} (b : Buf α) (off : ℕ) : Buf α := ⟨b.len - off, fun i => b.cell (off + i)⟩

/-- The array `b` after the part starting at `&b[off]` has become `v`. -/
def Buf.splice {α : Type*} (b : Buf α) (off : ℕ) (v : Buf α) : Buf α :=
  ⟨b.len, fun i => if i < off then b.cell i else v.cell (i - off)⟩

/-- `akns_scatter_U_BO` with `derivative_flag = 0`, fnft__akns_scatter.c:29-62: the array `U[4]`. -/
noncomputable def U_BO (qn rn ln eps_t : ℂ) : List ℂ :=
  let ln2 := ln * ln
  let ks := qn * rn - ln2
  let k := csqrt ks
  let ch := cosh (k * eps_t)
  let sh := eps_t * misc_CSINC (I * k * eps_t)
  let u1 := ln * sh * I
  [ch - u1, qn * sh, rn * sh, ch + u1]

/-- `akns_scatter_U_BO` with `derivative_flag = 1`, fnft__akns_scatter.c:29-62: the array `U[16]`. The
entries `U[2], U[3], U[6], U[7]` are those of the zero-initialised array of the caller (line 215);
`memcpy` fills `U[10], U[11], U[14], U[15]` (what it writes to `U[12], U[13]` is overwritten). -/
noncomputable def U_BO_d (qn rn ln eps_t : ℂ) : List ℂ :=
  let ln2 := ln * ln
  let ks := qn * rn - ln2
  let k := csqrt ks
  let ch := cosh (k * eps_t)
  let sh := eps_t * misc_CSINC (I * k * eps_t)
  let u1 := ln * sh * I
  let chi := ch / ks
  let ud1 := eps_t * ln2 * chi * I
  let ud2 := misc_CSINC_derivative (I * eps_t * k) * I * ln * eps_t * eps_t / k
  [ch - u1, qn * sh, 0, 0,
   rn * sh, ch + u1, 0, 0,
   ud1 - (ln * eps_t + I + (ln2 * I) / ks) * sh, -qn * ud2, ch - u1, qn * sh,
   -rn * ud2, -ud1 - (ln * eps_t - I - (ln2 * I) / ks) * sh, rn * sh, ch + u1]

/-- `akns_scatter_U_ES4` with `derivative_flag = 0`, fnft__akns_scatter.c:64-93. -/
noncomputable def U_ES4 (a1 a2 a3 : ℂ) : List ℂ :=
  let w := csqrt (-(a1 * a1) - (a2 * a2) - (a3 * a3))
  let s := misc_CSINC w
  let c := cos w
  [c + s * a3, s * (a1 - I * a2), s * (a1 + I * a2), c - s * a3]

/-- `akns_scatter_U_ES4` with `derivative_flag = 1`, fnft__akns_scatter.c:64-93 (the remarks at `U_BO_d`
apply); `t0, t1, t2` are `tmp2[0..2]`. -/
noncomputable def U_ES4_d (a1 a2 a3 t0 t1 t2 : ℂ) : List ℂ :=
  let w := csqrt (-(a1 * a1) - (a2 * a2) - (a3 * a3))
  let s := misc_CSINC w
  let c := cos w
  let w_d := -(a1 * t0 + a2 * t1 + a3 * t2)
  let c_d := -misc_CSINC w * w_d
  let w_d := w_d / w
  let s_d := w_d * misc_CSINC_derivative w
  [c + s * a3, s * (a1 - I * a2), 0, 0,
   s * (a1 + I * a2), c - s * a3, 0, 0,
   c_d + s_d * a3 + s * t2, s_d * a1 + s * t0 - I * s_d * a2 - I * s * t1, c + s * a3, s * (a1 - I * a2),
   s_d * a1 + s * t0 + I * s_d * a2 + I * s * t1, c_d - s_d * a3 - s * t2, s * (a1 + I * a2), c - s * a3]

/-- The local variables of the loops over samples: `H[current]`, `H[!current]` and `Wi`. -/
structure ScatSt where
  cur : Buf ℂ
  oth : Buf ℂ
  Wi : ℤ

/-- `misc_matrix_mult(s,s,s,U,H[current],H[!current]); current = !current;` -/
noncomputable def scatMul (s : ℕ) (U : List ℂ) (st : ScatSt) : Option ScatSt := do
  let o ← misc_matrix_mult s s s (Buf.ofList U) st.cur st.oth
  return ⟨o, st.cur, st.Wi⟩

/-- The two products with the 2x2 matrix `M` in the derivative branch of `TES4`
(fnft__akns_scatter.c:259-263 and 270-274), followed by `current = !current`. -/
noncomputable def scatMulDiag (M : List ℂ) (st : ScatSt) : Option ScatSt := do
  let o ← misc_matrix_mult 2 2 4 (Buf.ofList M) st.cur st.oth
  let v ← misc_matrix_mult 2 2 4 (Buf.ofList M) (st.cur.view 8) (o.view 8)
  return ⟨o.splice 8 v, st.cur, st.Wi⟩

/-- `if (W != NULL) Wi += misc_normalize_vector(s*s, H[current]);` -/
noncomputable def scatNorm (haveW : Bool) (s : ℕ) (st : ScatSt) : Option ScatSt :=
  if haveW then do
    let av ← misc_normalize_vector (s * s) st.cur
    return ⟨av.2, st.oth, st.Wi + av.1⟩
  else some st

/-- Size of the matrices: 2 without, 4 with derivatives. -/
def scatDim (deriv : Bool) : ℕ := if deriv then 4 else 2

/-- Loop body for `BO`, `CF4_2`, `CF4_3`, `CF5_3`, `CF6_4`, fnft__akns_scatter.c:229-236 and 330-338. -/
noncomputable def scatStepBO (deriv haveW : Bool) (up : ℕ) (eps_t_scaled : List ℂ) (q r : Buf ℂ) (l : ℂ)
    (n : ℕ) (st : ScatSt) : Option ScatSt := do
  let h ← eps_t_scaled[n % up]?
  let qn ← q.rd n
  let rn ← r.rd n
  let st ← scatMul (scatDim deriv) (if deriv then U_BO_d qn rn l h else U_BO qn rn l h) st
  scatNorm haveW (scatDim deriv) st

/-- The matrix `U` of the loop bodies for `ES4` (`tmp2[n+j]` is `tmp[D+n+j]`),
fnft__akns_scatter.c:243-246 and 347-350. -/
noncomputable def es4U (deriv : Bool) (D : ℕ) (tmp : Buf ℂ) (a1 a2 a3 : ℂ) (n : ℕ) : Option (List ℂ) :=
  if deriv then do
    let t0 ← tmp.rd (D + n)
    let t1 ← tmp.rd (D + n + 1)
    let t2 ← tmp.rd (D + n + 2)
    return U_ES4_d a1 a2 a3 t0 t1 t2
  else some (U_ES4 a1 a2 a3)

/-- Loop body for `ES4` at `n = 3*j`, fnft__akns_scatter.c:242-251 and 344-355. -/
noncomputable def scatStepES4 (deriv haveW : Bool) (D : ℕ) (eps_t : ℝ) (tmp : Buf ℂ) (q r : Buf ℂ) (l : ℂ)
    (j : ℕ) (st : ScatSt) : Option ScatSt := do
  let n := 3 * j
  let eps_t_3 : ℝ := eps_t * eps_t * eps_t
  let q1 ← q.rd (n + 1)
  let r1 ← r.rd (n + 1)
  let u0 ← tmp.rd n
  let u1 ← tmp.rd (n + 1)
  let u2 ← tmp.rd (n + 2)
  let a1 := u0 + eps_t_3 * (l * I * (q1 - r1)) / 12
  let a2 := u1 - eps_t_3 * l * (q1 + r1) / 12
  let a3 := -eps_t * I * l + u2
  let U ← es4U deriv D tmp a1 a2 a3 n
  let st ← scatMul (scatDim deriv) U st
  scatNorm haveW (scatDim deriv) st

/-- First and third substep of `TES4`: block diagonal with derivatives, plain without. -/
noncomputable def scatSub (deriv : Bool) (M : List ℂ) (st : ScatSt) : Option ScatSt :=
  if deriv then scatMulDiag M st else scatMul 2 M st

/-- Loop body for `TES4` at `n = 3*j`, fnft__akns_scatter.c:256-278 and 361-381. -/
noncomputable def scatStepTES4 (deriv haveW : Bool) (D : ℕ) (eps_t : ℝ) (tmp : Buf ℂ) (q r : Buf ℂ) (l : ℂ)
    (j : ℕ) (st : ScatSt) : Option ScatSt := do
  let n := 3 * j
  let u0 ← tmp.rd n
  let u1 ← tmp.rd (n + 1)
  let st ← scatSub deriv (U_ES4 u0 u1 0) st
  let qn ← q.rd n
  let rn ← r.rd n
  let st ← scatMul (scatDim deriv) (if deriv then U_BO_d qn rn l eps_t else U_BO qn rn l eps_t) st
  let v0 ← tmp.rd (D + n)
  let v1 ← tmp.rd (D + n + 1)
  let st ← scatSub deriv (U_ES4 v0 v1 0) st
  scatNorm haveW (scatDim deriv) st

/-- First precomputation loop of `ES4` at `n = 3*j`, fnft__akns_scatter.c:160-164. -/
noncomputable def es4Pre1 (eps_t : ℝ) (q r : Buf ℂ) (j : ℕ) (tmp : Buf ℂ) : Option (Buf ℂ) := do
  let n := 3 * j
  let eps_t_3 : ℝ := eps_t * eps_t * eps_t
  let q0 ← q.rd n
  let q1 ← q.rd (n + 1)
  let q2 ← q.rd (n + 2)
  let r0 ← r.rd n
  let r1 ← r.rd (n + 1)
  let r2 ← r.rd (n + 2)
  let tmp ← tmp.wr n (eps_t_3 * (q2 + r2) / 48 + (eps_t * (q0 + r0)) * 0.5)
  let tmp ← tmp.wr (n + 1) ((eps_t * (q0 - r0) * I) * 0.5 + (eps_t_3 * (q2 - r2) * I) / 48)
  tmp.wr (n + 2) (-eps_t_3 * (q0 * r1 - q1 * r0) / 12)

/-- Second precomputation loop of `ES4`, fnft__akns_scatter.c:166-171. -/
noncomputable def es4Pre2 (D : ℕ) (eps_t : ℝ) (q r : Buf ℂ) (j : ℕ) (tmp : Buf ℂ) : Option (Buf ℂ) := do
  let n := 3 * j
  let eps_t_3 : ℝ := eps_t * eps_t * eps_t
  let q1 ← q.rd (n + 1)
  let r1 ← r.rd (n + 1)
  let tmp ← tmp.wr (D + n) (I * eps_t_3 * (q1 - r1) / 12)
  let tmp ← tmp.wr (D + n + 1) (-eps_t_3 * (q1 + r1) / 12)
  tmp.wr (D + n + 2) (-I * eps_t)

/-- Precomputation loop of `TES4`, fnft__akns_scatter.c:182-187. -/
noncomputable def tes4Pre (D : ℕ) (eps_t : ℝ) (q r : Buf ℂ) (j : ℕ) (tmp : Buf ℂ) : Option (Buf ℂ) := do
  let n := 3 * j
  let eps_t_2 : ℝ := eps_t * eps_t
  let eps_t_3 : ℝ := eps_t * eps_t * eps_t
  let q1 ← q.rd (n + 1)
  let q2 ← q.rd (n + 2)
  let r1 ← r.rd (n + 1)
  let r2 ← r.rd (n + 2)
  let tmp ← tmp.wr n ((eps_t_3 * (q2 + r2)) / 96 - (eps_t_2 * (q1 + r1)) / 24)
  let tmp ← tmp.wr (n + 1) ((eps_t_3 * (q2 - r2) * I) / 96 + (eps_t_2 * (r1 - q1) * I) / 24)
  let tmp ← tmp.wr (D + n) ((eps_t_3 * (q2 + r2)) / 96 + (eps_t_2 * (q1 + r1)) / 24)
  tmp.wr (D + n + 1) ((eps_t_3 * (q2 - r2) * I) / 96 + (eps_t_2 * (q1 - r1) * I) / 24)

/-- `if (derivative_flag == 1)` at fnft__akns_scatter.c:165. -/
noncomputable def es4Pre (deriv : Bool) (D : ℕ) (eps_t : ℝ) (q r : Buf ℂ) : Option (Buf ℂ) :=
  if deriv then do
    let tmp ← forLoop ((D + 2) / 3) (es4Pre1 eps_t q r) (Buf.malloc (2 * D))
    forLoop ((D + 2) / 3) (es4Pre2 D eps_t q r) tmp
  else forLoop ((D + 2) / 3) (es4Pre1 eps_t q r) (Buf.malloc D)

/-- The `switch` of the precomputations (fnft__akns_scatter.c:153-211) together with the `switch` that
selects the loop over samples for one `lambda` (fnft__akns_scatter.c:223-286 and 324-389): an error
code, or the loop as a function of `lambda`. -/
noncomputable def scatLoop (D : ℕ) (q r : Buf ℂ) (eps_t : ℝ) (d : AknsDisc) (deriv haveW : Bool) :
    Option (Except ℤ (ℂ → ScatSt → Option ScatSt)) :=
  match d with
  | ES4 => do
    let tmp ← es4Pre deriv D eps_t q r
    return .ok fun l => forLoop ((D + 2) / 3) (scatStepES4 deriv haveW D eps_t tmp q r l)
  | TES4 => do
    let tmp ← forLoop ((D + 2) / 3) (tes4Pre D eps_t q r) (Buf.malloc (2 * D))
    return .ok fun l => forLoop ((D + 2) / 3) (scatStepTES4 deriv haveW D eps_t tmp q r l)
  | CF4_3 | CF5_3 | CF6_4 | CF4_2 | BO =>
    match akns_method_weights d with
    | .error ec => some (.error (E_SUBROUTINE ec))
    | .ok w =>
      some (.ok fun l => forLoop D
        (scatStepBO deriv haveW (akns_upsampling_factor d) (w.2.map (· * (eps_t : ℂ))) q r l))
  | _ => some (.error (E_SUBROUTINE EC_INVALID_ARGUMENT))

/-- What `akns_scatter_matrix` leaves behind. -/
structure ScatRes where
  ret : ℤ
  result : Buf ℂ
  W : Option (Buf ℤ)

/-- `H`: identity (fnft__akns_scatter.c:219 and 320). -/
noncomputable def scatInit (deriv : Bool) : ScatSt :=
  if deriv then ⟨Buf.ofList [1, 0, 0, 0, 0, 1, 0, 0, 0, 0, 1, 0, 0, 0, 0, 1], Buf.calloc 16, 0⟩
  else ⟨Buf.ofList [1, 0, 0, 1], Buf.calloc 4, 0⟩

/-- `if (W != NULL) W[i] = Wi;` -/
def scatW (W : Option (Buf ℤ)) (i : ℕ) (Wi : ℤ) : Option (Option (Buf ℤ)) :=
  match W with
  | none => some none
  | some W => (W.wr i Wi).map some

/-- `result[o]=vs[0]; result[o+1]=vs[1]; ...` -/
def wrList {α : Type*} : ℕ → List α → Buf α → Option (Buf α)
  | _, [], b => some b
  | o, v :: vs, b => do
    let b ← b.wr o v
    wrList (o + 1) vs b

/-- The values copied to `result`, fnft__akns_scatter.c:305-313 and 409. -/
noncomputable def scatOut (deriv : Bool) (H : Buf ℂ) : Option (List ℂ) :=
  if deriv then do
    let h00 ← H.rd 0
    let h22 ← H.rd 10
    let h01 ← H.rd 1
    let h23 ← H.rd 11
    let h10 ← H.rd 4
    let h32 ← H.rd 14
    let h11 ← H.rd 5
    let h33 ← H.rd 15
    let h20 ← H.rd 8
    let h21 ← H.rd 9
    let h30 ← H.rd 12
    let h31 ← H.rd 13
    return [0.5 * h00 + 0.5 * h22, 0.5 * h01 + 0.5 * h23, 0.5 * h10 + 0.5 * h32, 0.5 * h11 + 0.5 * h33,
      h20, h21, h30, h31]
  else do
    let h0 ← H.rd 0
    let h1 ← H.rd 1
    let h2 ← H.rd 2
    let h3 ← H.rd 3
    return [h0, h1, h2, h3]

/-- One iteration of the loops over `lambda`, fnft__akns_scatter.c:216-314 and 317-410. Nothing happens
once an error has made the code leave the loop. -/
noncomputable def scatLambda (eps_t : ℝ) (d : AknsDisc) (pde : AknsPde) (vanilla deriv : Bool)
    (loop : ℂ → ScatSt → Option ScatSt) (lambda : Buf ℂ) (i : ℕ) (s : ScatRes) : Option ScatRes :=
  if s.ret ≠ SUCCESS then some s
  else do
    let l ← lambda.rd i
    let st ← loop l (scatInit deriv)
    let W ← scatW s.W i st.Wi
    match akns_basis_to_S l deriv eps_t d vanilla pde with
    | .error ec => return ⟨E_SUBROUTINE ec, s.result, W⟩
    | .ok T => do
      let st ← scatMul (scatDim deriv) T st
      match akns_basis_from_S l deriv eps_t d vanilla pde with
      | .error ec => return ⟨E_SUBROUTINE ec, s.result, W⟩
      | .ok T' => do
        let o ← misc_matrix_mult (scatDim deriv) (scatDim deriv) (scatDim deriv) st.cur (Buf.ofList T') st.oth
        let vs ← scatOut deriv o
        let res ← wrList ((if deriv then 8 else 4) * i) vs s.result
        return ⟨SUCCESS, res, W⟩

/-- `akns_scatter_matrix`, fnft__akns_scatter.c:103-418. NULL pointers are `none`. (`malloc` succeeds.) -/
noncomputable def akns_scatter_matrix (D : ℕ) (q r : Option (Buf ℂ)) (eps_t : ℝ) (K : ℕ)
    (lambda result : Option (Buf ℂ)) (W : Option (Buf ℤ)) (d : AknsDisc) (pde : AknsPde)
    (vanilla_flag derivative_flag : ℕ) : Option ScatRes :=
  let bad : ScatRes := ⟨EC_INVALID_ARGUMENT, result.getD (Buf.malloc 0), W⟩
  if D = 0 then some bad
  else match q, r with
    | some q, some r =>
      if ¬ eps_t > 0 then some bad
      else if K = 0 then some bad
      else match lambda, result with
        | some lambda, some result =>
          if derivative_flag ≠ 0 ∧ derivative_flag ≠ 1 then some bad
          else if akns_upsampling_factor d = 0 then some bad
          else do
            match ← scatLoop D q r eps_t d (derivative_flag = 1) W.isSome with
            | .error ec => return ⟨ec, result, W⟩
            | .ok loop =>
              forLoop K (scatLambda eps_t d pde (vanilla_flag ≠ 0) (derivative_flag = 1) loop lambda)
                ⟨SUCCESS, result, W⟩
        | _, _ => some bad
    | _, _ => some bad

end FNFT

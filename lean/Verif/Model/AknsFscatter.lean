import Verif.Model.AknsTab
import Verif.Model.MiscNum
import Verif.Model.PolyFmult
/-!
# Model of fnft__akns_fscatter.c
-/
namespace FNFT
open AknsDisc

/-- `CSQRT`, the principal complex square root (C99 `csqrt`; the sign of zero in the imaginary part on
the branch cut is not modelled). -/
noncomputable def csqrt (x : ℂ) : ℂ := x ^ ((1 : ℂ) / 2)

/-- `akns_fscatter_zero_freq_scatter_matrix`, fnft__akns_fscatter.c:43-54; entries `M[0]`, `M[1]`,
`M[2]`. -/
noncomputable def zeroFreq (eps : ℝ) (q r : ℂ) (c : ℕ) : ℂ :=
  let Delta := eps * csqrt (-q * r)
  let del := eps * misc_CSINC Delta
  if c = 0 then Complex.cos Delta else if c = 1 then q * del else r * del

/-- The `case`s of the `switch` in `akns_fscatter` (fnft__akns_fscatter.c:111-910, including the
intentional fall-throughs); `none` is `default`. -/
def aknsTab : AknsDisc → Option Tab
  | D2SPLIT2_MODAL => some tab2_MODAL
  | D2SPLIT1A => some tab1A
  | D2SPLIT1B | D2SPLIT2A => some tab2A
  | D2SPLIT2B => some tab2B
  | D2SPLIT2S => some tab2S
  | D2SPLIT3A => some tab3A
  | D2SPLIT3B => some tab3B
  | D2SPLIT3S => some tab3S
  | D4SPLIT4A | D2SPLIT4A => some tab4A
  | D4SPLIT4B | D2SPLIT4B => some tab4B
  | D2SPLIT5A => some tab5A
  | D2SPLIT5B => some tab5B
  | D2SPLIT6A => some tab6A
  | D2SPLIT6B => some tab6B
  | D2SPLIT7A => some tab7A
  | D2SPLIT7B => some tab7B
  | D2SPLIT8A => some tab8A
  | D2SPLIT8B => some tab8B
  | _ => none

/-- The step used in the loops: `eps_t /= 2.0` in `case 4SPLIT4A` and `case 4SPLIT4B`
(fnft__akns_fscatter.c:355 and 396). -/
noncomputable def aknsEps : AknsDisc → ℝ → ℝ
  | D4SPLIT4A, eps => eps / 2
  | D4SPLIT4B, eps => eps / 2
  | _, eps => eps

/-- Local variables of the loop bodies for sample `(q,r)`: the matrix exponentials, or `scl`, `Q`, `R`
for the Ablowitz-Ladik discretization, where `none` is the exit with `E_DIV_BY_ZERO`
(fnft__akns_fscatter.c:116-124). -/
noncomputable def aknsEnv (d : AknsDisc) (tab : Tab) (deg : ℕ) (eps : ℝ) (q r : ℂ) :
    Option (ℕ → ℕ → ℂ) :=
  if d = D2SPLIT2_MODAL then
    let Q := eps * q
    let R := eps * r
    let scl_den := csqrt (1 - Q * R)
    if scl_den = 0 then none
    else some fun _ c => if c = 0 then 1 / scl_den else if c = 1 then Q else R
  else some fun s c => zeroFreq ((tab.scales.getD s 0 : ℚ) * eps / deg) q r c

/-- One assignment, executed when `p11`, `p12`, `p21`, `p22` point to `base 0, …, base 3`. -/
noncomputable def execAsg (base : ℕ → ℕ) (env : ℕ → ℕ → ℂ) (a : Asg) (p : Buf ℂ) : Option (Buf ℂ) := do
  let v ← a.rhs.eval env (fun t k => p.rd (base t + k))
  p.wr (base a.t + a.k) v

/-- A loop body. -/
noncomputable def execAsgs (base : ℕ → ℕ) (env : ℕ → ℕ → ℂ) : List Asg → Buf ℂ → Option (Buf ℂ)
  | [], p => some p
  | a :: l, p => do
    let p ← execAsg base env a p
    execAsgs base env l p

/-- Iteration number `s` of `for (i=D; i-->0;)`, i.e. `i = D-1-s`, with `p11 = p + s*(deg+1)`,
`p12 = p + (D+s)*(deg+1)`, …. The flag of the state is set when the loop was left through
`goto release_mem`. -/
noncomputable def aknsSample (d : AknsDisc) (tab : Tab) (deg : ℕ) (eps : ℝ) (D : ℕ) (q r : Buf ℂ)
    (s : ℕ) (st : Bool × Buf ℂ) : Option (Bool × Buf ℂ) :=
  if st.1 then some st
  else do
    let qi ← q.rd (D - 1 - s)
    let ri ← r.rd (D - 1 - s)
    match aknsEnv d tab deg eps qi ri with
    | none => return (true, st.2)
    | some env =>
      let p ← execAsgs (fun t => (t * D + s) * (deg + 1)) env tab.asg st.2
      return (false, p)

/-- `for (n=0; n<len; n++) p[n] = 0.0;` in the cases that clear the buffer. -/
noncomputable def aknsInit (zero : Bool) (len : ℕ) : Option (Buf ℂ) :=
  if zero then fill 0 len (fun _ => some 0) (Buf.malloc len) else some (Buf.malloc len)

/-- `akns_fscatter_numel`, fnft__akns_fscatter.c:31-38. -/
def akns_fscatter_numel (D : ℕ) (d : AknsDisc) : Option ℕ :=
  let deg := akns_degree d
  if deg = 0 then some 0 else poly_fmult_numel 4 deg D

/-- What `akns_fscatter` leaves behind: return value (`none` when it is the value of an uninitialised
variable), `*deg_ptr`, `*W_ptr` and the array `result`. -/
structure FscatterRes where
  ret : Option ℤ
  deg : ℕ
  W : ℤ
  result : Buf ℂ

/-- `akns_fscatter` after the argument checks, fnft__akns_fscatter.c:88-923. `normalize` tells whether
`W_ptr` is not NULL. -/
noncomputable def akns_fscatter_main (D : ℕ) (q r : Buf ℂ) (eps_t : ℝ) (result : Buf ℂ) (deg0 : ℕ)
    (W0 : ℤ) (normalize : Bool) (d : AknsDisc) : Option FscatterRes := do
  let len ← akns_fscatter_numel D d
  if len = 0 then return ⟨some EC_INVALID_ARGUMENT, deg0, W0, result⟩
  let deg := akns_degree d
  match aknsTab d with
  | none => return ⟨some EC_INVALID_ARGUMENT, deg, W0, result⟩
  | some tab =>
    let p ← aknsInit tab.zero len
    let st ← forLoop D (aknsSample d tab deg (aknsEps d eps_t) D q r) (false, p)
    if st.1 then return ⟨some EC_DIV_BY_ZERO, deg, W0, result⟩
    let f ← poly_fmultM kind2 deg D st.2 result normalize
    return ⟨f.ret.map fun rc => if rc = SUCCESS then SUCCESS else E_SUBROUTINE rc, f.deg,
      if normalize then f.W else W0, f.result⟩

/-- `akns_fscatter`, fnft__akns_fscatter.c:59-924. A NULL pointer is `none`; `deg_ptr` and `W_ptr`
carry the previous values of the cells they point to. (`malloc` is assumed to succeed.) -/
noncomputable def akns_fscatter (D : ℕ) (q r : Option (Buf ℂ)) (eps_t : ℝ) (result : Option (Buf ℂ))
    (deg_ptr : Option ℕ) (W_ptr : Option ℤ) (d : AknsDisc) : Option FscatterRes :=
  let bad : FscatterRes := ⟨some EC_INVALID_ARGUMENT, deg_ptr.getD 0, W_ptr.getD 0, result.getD (Buf.malloc 0)⟩
  if D = 0 ∨ D > 2147483647 then some bad
  else match q, r with
    | some q, some r =>
      if eps_t ≤ 0 then some bad
      else match result, deg_ptr with
        | some res, some dg => akns_fscatter_main D q r eps_t res dg (W_ptr.getD 0) W_ptr.isSome d
        | _, _ => some bad
    | _, _ => some bad

end FNFT

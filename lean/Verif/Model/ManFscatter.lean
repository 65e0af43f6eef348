import Verif.Model.ManDisc
import Verif.Model.ManTab
import Verif.Model.AknsFscatter
import Verif.Model.Nsev
/-!
# Model of /repo/src/private/fnft__manakov_fscatter.c
-/
namespace FNFT
open Complex

/-- `manakov_fscatter_zero_freq_scatter_matrix`, fnft__manakov_fscatter.c:44-79; entry `M[c]`. -/
noncomputable def manZeroFreq (eps_t : ℝ) (q1 q2 : ℂ) (kappa : ℤ) (c : ℕ) : ℂ :=
  if ‖q1‖ < EPSILON ∧ ‖q2‖ < EPSILON then
    if c = 0 ∨ c = 4 ∨ c = 8 then 1 else 0
  else
    let r1 : ℂ := (starRingEnd ℂ) q1 * -1 * kappa
    let r2 : ℂ := (starRingEnd ℂ) q2 * -1 * kappa
    let x : ℂ := csqrt (r1 * q1 + r2 * q2) * eps_t
    let M1 : ℂ := q1 * misc_CSINC (I * x) * eps_t
    let M2 : ℂ := q2 * misc_CSINC (I * x) * eps_t
    let M5 : ℂ := q2 * r1 * (cos (I * x) - 1) * eps_t * eps_t / (x * x)
    match c with
    | 0 => cos (I * x)
    | 1 => M1
    | 2 => M2
    | 3 => -(starRingEnd ℂ) M1 * kappa
    | 4 => eps_t * eps_t * (r2 * q2 + r1 * q1 * cos (I * x)) / (x * x)
    | 5 => M5
    | 6 => -(starRingEnd ℂ) M2 * kappa
    | 7 => (starRingEnd ℂ) M5
    | _ => eps_t * eps_t * (r1 * q1 + r2 * q2 * cos (I * x)) / (x * x)

/-- `manakov_fscatter_get_E`, fnft__manakov_fscatter.c:82-109; entry `M[c]`. -/
noncomputable def manGetE (s1 s2 t1 t2 : ℂ) (c : ℕ) : ℂ :=
  if ‖s1‖ < EPSILON ∧ ‖s2‖ < EPSILON ∧ ‖t1‖ < EPSILON ∧ ‖t2‖ < EPSILON then
    if c = 0 ∨ c = 4 ∨ c = 8 then 1 else 0
  else
    let x : ℂ := csqrt (t1 * s1 + t2 * s2)
    match c with
    | 0 => cos (I * x)
    | 1 => s1 * misc_CSINC (I * x)
    | 2 => s2 * misc_CSINC (I * x)
    | 3 => t1 * misc_CSINC (I * x)
    | 4 => (t2 * s2 + t1 * s1 * cos (I * x)) / (x * x)
    | 5 => s2 * t1 * (cos (I * x) - 1) / (x * x)
    | 6 => t2 * misc_CSINC (I * x)
    | 7 => s1 * t2 * (cos (I * x) - 1) / (x * x)
    | _ => (t1 * s1 + t2 * s2 * cos (I * x)) / (x * x)

/-- `manakov_fscatter_mult_E1_TM_E2`, fnft__manakov_fscatter.c:111-131, for coefficient `j` of the nine
polynomials stored at `base 0, …, base 8`. -/
noncomputable def manMultE (base : ℕ → ℕ) (E1 E2 : ℕ → ℂ) (j : ℕ) (p : Buf ℂ) : Option (Buf ℂ) := do
  let P ← forLoop 9 (fun t (P : Buf ℂ) => do
    let v ← p.rd (base t + j)
    P.wr t v) (Buf.malloc 9)
  let b1 ← misc_matrix_mult 3 3 3 (Buf.ofFn 9 E1) P (Buf.malloc 9)
  let b2 ← misc_matrix_mult 3 3 3 b1 (Buf.ofFn 9 E2) (Buf.malloc 9)
  forLoop 9 (fun t (p : Buf ℂ) => do
    let v ← b2.rd t
    p.wr (base t + j) v) p

/-- The `case`s of the `switch` in `manakov_fscatter`, fnft__manakov_fscatter.c:202-1087 (including the
intentional fall-throughs); `none` is `default`. -/
def manTab : ManDisc → Option Tab
  | .D2SPLIT3A => some manTab3A
  | .D2SPLIT3B => some manTab3B
  | .D4SPLIT4A | .D2SPLIT4A => some manTab4A
  | .D4SPLIT4B | .D2SPLIT4B => some manTab4B
  | .D4SPLIT6B | .D2SPLIT6B => some manTab6B
  | .FTES4_4A => some manTabFTES4_4A
  | .FTES4_suzuki => some manTabFTES4_suzuki
  | _ => none

/-- The FTES4 discretizations. -/
def manIsFTES (d : ManDisc) : Bool := d = .FTES4_4A ∨ d = .FTES4_suzuki

/-- Number of iterations of the sample loop: `for (i = D; i-- > 0;)` or `for (i = D_eff; i-- > 0;)`. -/
def manLoopLen (D : ℕ) (d : ManDisc) : ℕ := if manIsFTES d then D * man_upsampling_factor d else D

/-- The nine arguments of the calls of `manakov_fscatter_get_E`, fnft__manakov_fscatter.c:766-769 and 913-916 for
`E1`; `x`, `y`, `w` are `qn[0]`, `qn[1]`, `qn[2]`. First argument (`s1` with `q1n`, `s2` with `q2n`). -/
noncomputable def manE1s (eps : ℝ) (x y w : ℂ) : ℂ := (w - x) * eps / 24 + (w - 2 * y + x) * eps / 48

/-- Arguments `t1`, `t2` for `E1`. -/
noncomputable def manE1t (eps : ℝ) (kappa : ℤ) (x y w : ℂ) : ℂ :=
  kappa * (starRingEnd ℂ) (x - w) * eps / 24 - kappa * (starRingEnd ℂ) (w - 2 * y + x) * eps / 48

/-- Arguments `s1`, `s2` for `E2`, fnft__manakov_fscatter.c:771-774 and 918-921. -/
noncomputable def manE2s (eps : ℝ) (x y w : ℂ) : ℂ := -(w - x) * eps / 24 + (w - 2 * y + x) * eps / 48

/-- Arguments `t1`, `t2` for `E2`. -/
noncomputable def manE2t (eps : ℝ) (kappa : ℤ) (x y w : ℂ) : ℂ :=
  kappa * (starRingEnd ℂ) (w - x) * eps / 24 - kappa * (starRingEnd ℂ) (w - 2 * y + x) * eps / 48

/-- The samples `qn[0]`, `qn[1]`, `qn[2]` around sample `i` (the sample itself at the ends),
fnft__manakov_fscatter.c:744-764 and 891-911. `N` is `D_eff`. -/
def manNeigh (N i : ℕ) (q : Buf ℂ) : Option (ℂ × ℂ × ℂ) := do
  let y ← q.rd i
  let x ← q.rd (if i = 0 then i else i - 1)
  let w ← q.rd (if i = N - 1 then i else i + 1)
  return (x, y, w)

/-- `E1` (`second = false`) and `E2` for the samples around `i`. -/
noncomputable def manE (second : Bool) (eps : ℝ) (kappa : ℤ) (n1 n2 : ℂ × ℂ × ℂ) (c : ℕ) : ℂ :=
  if second then
    manGetE (manE2s eps n1.1 n1.2.1 n1.2.2) (manE2s eps n2.1 n2.2.1 n2.2.2)
      (manE2t eps kappa n1.1 n1.2.1 n1.2.2) (manE2t eps kappa n2.1 n2.2.1 n2.2.2) c
  else
    manGetE (manE1s eps n1.1 n1.2.1 n1.2.2) (manE1s eps n2.1 n2.2.1 n2.2.2)
      (manE1t eps kappa n1.1 n1.2.1 n1.2.2) (manE1t eps kappa n2.1 n2.2.1 n2.2.2) c

/-- The matrices used by a loop body: the matrix exponentials, then `E1`, `E2`. -/
noncomputable def manEnv (tab : Tab) (eps : ℝ) (kappa : ℤ) (n1 n2 : ℂ × ℂ × ℂ) (s c : ℕ) : ℂ :=
  if s < tab.scales.length then manZeroFreq ((tab.scales.getD s 0 : ℚ) * eps) n1.2.1 n2.2.1 kappa c
  else manE (s != tab.scales.length) eps kappa n1 n2 c

/-- The samples used by iteration `i`: the neighbours are only looked at in the FTES4 cases. -/
def manSamples (d : ManDisc) (N i : ℕ) (q : Buf ℂ) : Option (ℂ × ℂ × ℂ) :=
  if manIsFTES d then manNeigh N i q else (q.rd i).map fun y => (y, y, y)

/-- The loop `for (j = 0; j < 15; j += 2)` at the end of the loop body of `FTES4_suzuki`,
fnft__manakov_fscatter.c:1067-1070. -/
noncomputable def manPost (d : ManDisc) (base : ℕ → ℕ) (env : ℕ → ℕ → ℂ) (p : Buf ℂ) : Option (Buf ℂ) :=
  if d = .FTES4_suzuki then forLoop 8 (fun j p => manMultE base (env 3) (env 4) (2 * j) p) p
  else some p

/-- Iteration number `s` of the sample loop, `i = N-1-s`, with `p11 = p + s*(deg+1)`,
`p12 = p + (D+s)*(deg+1)`, …. -/
noncomputable def manSample (d : ManDisc) (tab : Tab) (deg : ℕ) (eps : ℝ) (kappa : ℤ) (D N : ℕ) (q1 q2 : Buf ℂ)
    (s : ℕ) (p : Buf ℂ) : Option (Buf ℂ) := do
  let n1 ← manSamples d N (N - 1 - s) q1
  let n2 ← manSamples d N (N - 1 - s) q2
  let p ← execAsgs (fun t => (t * D + s) * (deg + 1)) (manEnv tab eps kappa n1 n2) tab.asg p
  manPost d (fun t => (t * D + s) * (deg + 1)) (manEnv tab eps kappa n1 n2) p

/-- `manakov_fscatter_numel`, fnft__manakov_fscatter.c:31-38. -/
def man_fscatter_numel (D : ℕ) (d : ManDisc) : Option ℕ :=
  let deg := man_degree d
  if deg = 0 then some 0 else poly_fmult_numel 9 deg D

/-- `manakov_fscatter` after the checks of the arguments, fnft__manakov_fscatter.c:166-1095. `normalize` tells
whether `W_ptr` is not NULL. (`malloc` is assumed to succeed.) -/
noncomputable def man_fscatter_main (D : ℕ) (q1 q2 : Buf ℂ) (kappa : ℤ) (eps_t : ℝ) (result : Buf ℂ) (deg0 : ℕ)
    (W0 : ℤ) (normalize : Bool) (d : ManDisc) : Option FscatterRes :=
  if man_upsampling_factor d = 0 then some ⟨some EC_INVALID_ARGUMENT, deg0, W0, result⟩
  else do
    let len ← man_fscatter_numel (D * man_upsampling_factor d) d
    if len = 0 then return ⟨some EC_INVALID_ARGUMENT, deg0, W0, result⟩
    let deg := man_degree d
    match manTab d with
    | none => return ⟨some EC_INVALID_ARGUMENT, deg, W0, result⟩
    | some tab =>
      let p ← forLoop (manLoopLen D d) (manSample d tab deg eps_t kappa D (manLoopLen D d) q1 q2) (Buf.malloc len)
      let f ← poly_fmultM kind3 deg D p result normalize
      return ⟨f.ret.map fun rc => if rc = SUCCESS then SUCCESS else E_SUBROUTINE rc, f.deg,
        if normalize then f.W else W0, f.result⟩

/-- `manakov_fscatter`, fnft__manakov_fscatter.c:138-1095. A NULL pointer is `none`; `deg_ptr` and `W_ptr`
carry the previous values of the cells they point to. -/
noncomputable def man_fscatter (D : ℕ) (q1 q2 : Option (Buf ℂ)) (kappa : ℤ) (eps_t : ℝ) (result : Option (Buf ℂ))
    (deg_ptr : Option ℕ) (W_ptr : Option ℤ) (d : ManDisc) : Option FscatterRes :=
  let bad : FscatterRes := ⟨some EC_INVALID_ARGUMENT, deg_ptr.getD 0, W_ptr.getD 0, result.getD (Buf.malloc 0)⟩
  if D = 0 ∨ D > 2147483647 then some bad
  else match q1, q2 with
    | some q1, some q2 =>
      if eps_t ≤ 0 then some bad
      else match result, deg_ptr with
        | some res, some dg =>
          if |kappa| ≠ 1 then some bad
          else man_fscatter_main D q1 q2 kappa eps_t res dg (W_ptr.getD 0) W_ptr.isSome d
        | _, _ => some bad
    | _, _ => some bad

end FNFT

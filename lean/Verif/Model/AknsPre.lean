import Verif.Model.NseDisc
import Verif.Model.Resample
import Verif.Model.Misc
/-!
# Model of the signal preprocessing

`fnft__akns_discretization_preprocess_signal`, /repo/src/private/fnft__akns_discretization.c:421-674, and its
caller for the NSE.
-/
namespace FNFT
open AknsDisc

/-- `w0*v0 + w1*v1` and `w0*v0 + w1*v1 + w2*v2` with the weights of row `m`
(fnft__akns_discretization.c:520-526, 546-557, ...). -/
def preRow (w : List ℂ) (m : ℕ) : List ℂ → Option ℂ
  | [a, b] => do
    let w0 ← w[2 * m]?
    let w1 ← w[2 * m + 1]?
    return w0 * a + w1 * b
  | [a, b, c] => do
    let w0 ← w[3 * m]?
    let w1 ← w[3 * m + 1]?
    let w2 ← w[3 * m + 2]?
    return w0 * a + w1 * b + w2 * c
  | _ => none

/-- Iteration `j` (`isub = up*j`, `i = nskip*j`) of the loops of the commutator-free methods; the statements
for `isub, isub+1, …` are written as a loop over `m`. `src` are the arrays `q_1, (q,) q_3`. State:
`q_preprocessed`, `r_preprocessed`. -/
def preCFBody (up nskip : ℕ) (w : List ℂ) (src : List (Buf ℂ)) (rf : ℂ → ℂ) (j : ℕ) (s : Buf ℂ × Buf ℂ) :
    Option (Buf ℂ × Buf ℂ) :=
  forLoop up (fun m s => do
    let vals ← src.mapM fun b => b.rd (nskip * j)
    let x ← preRow w m vals
    let y ← preRow w m (vals.map rf)
    let qp ← s.1.wr (up * j + m) x
    let rp ← s.2.wr (up * j + m) y
    return (qp, rp)) s

/-- The loop of the pointwise discretizations, fnft__akns_discretization.c:499-502. -/
def prePointBody (nskip : ℕ) (q : Buf ℂ) (rf : ℂ → ℂ) (j : ℕ) (s : Buf ℂ × Buf ℂ) : Option (Buf ℂ × Buf ℂ) := do
  let v ← q.rd (nskip * j)
  let qp ← s.1.wr j v
  let rp ← s.2.wr j (rf v)
  return (qp, rp)

/-- Interior finite differences of `ES4`/`TES4`, fnft__akns_discretization.c:643-646; iteration `k` has
`isub = 3(k+1)`. -/
noncomputable def preES4Body (h : ℝ) (k : ℕ) (b : Buf ℂ) : Option (Buf ℂ) := do
  let isub := 3 * (k + 1)
  let a ← b.rd (isub + 3)
  let c ← b.rd (isub - 3)
  let b ← b.wr (isub + 1) ((a - c) / (2 * (h : ℂ)))
  let a ← b.rd (isub + 3)
  let m ← b.rd isub
  let c ← b.rd (isub - 3)
  b.wr (isub + 2) ((a - 2 * m + c) / ((h ^ 2 : ℝ) : ℂ))

/-- The boundary values, fnft__akns_discretization.c:638-641. -/
noncomputable def preES4Bnd (h : ℝ) (Deff : ℕ) (b : Buf ℂ) : Option (Buf ℂ) := do
  let a ← b.rd 3
  let b ← b.wr 1 ((a - 0) / (2 * (h : ℂ)))
  let a ← b.rd 3
  let m ← b.rd 0
  let b ← b.wr 2 ((a - 2 * m + 0) / ((h ^ 2 : ℝ) : ℂ))
  let c ← b.rd (Deff - 6)
  let b ← b.wr (Deff - 2) ((0 - c) / (2 * (h : ℂ)))
  let m ← b.rd (Deff - 3)
  let c ← b.rd (Deff - 6)
  b.wr (Deff - 1) ((0 - 2 * m + c) / ((h ^ 2 : ℝ) : ℂ))

/-- `case ES4: case TES4:`, fnft__akns_discretization.c:630-652. -/
noncomputable def preES4 (Dsub nskip : ℕ) (eps_t : ℝ) (q : Buf ℂ) (rf : ℕ → ℂ → ℂ) (s : Buf ℂ × Buf ℂ) :
    Option (Buf ℂ × Buf ℂ) := do
  let qp ← forLoop Dsub (fun j (b : Buf ℂ) => do
    let v ← q.rd (nskip * j)
    b.wr (3 * j) v) s.1
  let qp ← preES4Bnd (eps_t * nskip) (Dsub * 3) qp
  let qp ← forLoop (Dsub - 2) (preES4Body (eps_t * nskip)) qp
  let rp ← forLoop Dsub (fun j (b : Buf ℂ) => forLoop 3 (fun i b => do
    let v ← qp.rd (3 * j + i)
    b.wr (3 * j + i) (rf i v)) b) s.2
  return (qp, rp)

/-- What the preprocessing leaves behind: code, `*Dsub_ptr`, the two arrays and `first_last_index` (`none`:
not set). -/
structure PreRes where
  ret : ℤ
  Dsub : ℕ
  out : Option (Buf ℂ × Buf ℂ)
  first_last : Option (ℕ × ℕ)

/-- The resampled copies of `q` used by the commutator-free methods: shifts by `fac*eps_t*nskip`
(fnft__akns_discretization.c:512-516 etc.). -/
noncomputable def preResample (D : ℕ) (q : Buf ℂ) (eps_t : ℝ) (delta : ℝ) : Option (Except ℤ (Buf ℂ)) := do
  match ← misc_resample D eps_t (some q) delta (some (Buf.malloc D)) with
  | (rc, some b) => return (if rc = SUCCESS then .ok b else .error (E_SUBROUTINE rc))
  | (rc, none) => return .error (E_SUBROUTINE rc)

/-- Left shift of the commutator-free methods as written in the code. -/
noncomputable def preShift (d : AknsDisc) (eps_t : ℝ) (nskip : ℕ) : ℝ :=
  match d with
  | CF4_3 => eps_t * Real.sqrt (3 / 20) * nskip
  | CF5_3 => eps_t * Real.sqrt 15 / 10 * nskip
  | CF6_4 => eps_t * nskip * Real.sqrt 15 / 10
  | _ => eps_t * (Real.sqrt 3 / 6) * nskip

/-- The commutator-free cases, fnft__akns_discretization.c:503-629. -/
noncomputable def preCF (d : AknsDisc) (D Dsub nskip : ℕ) (eps_t : ℝ) (q : Buf ℂ) (rf : ℂ → ℂ)
    (s : Buf ℂ × Buf ℂ) : Option (Except ℤ (Buf ℂ × Buf ℂ)) := do
  match ← preResample D q eps_t (-preShift d eps_t nskip) with
  | .error ec => return .error ec
  | .ok q1 =>
    match ← preResample D q eps_t (preShift d eps_t nskip) with
    | .error ec => return .error ec
    | .ok q3 =>
      match akns_method_weights d with
      | .error ec => return .error (E_SUBROUTINE ec)
      | .ok w =>
        let src := if akns_upsampling_factor d = 2 then [q1, q3] else [q1, q, q3]
        let s ← forLoop Dsub (preCFBody (akns_upsampling_factor d) nskip w.1 src rf) s
        return .ok s

/-- The `switch` of the preprocessing, fnft__akns_discretization.c:476-657. -/
noncomputable def preSwitch (d : AknsDisc) (D Dsub nskip : ℕ) (eps_t : ℝ) (q : Buf ℂ) (rf : ℕ → ℂ → ℂ)
    (s : Buf ℂ × Buf ℂ) : Option (Except ℤ (Buf ℂ × Buf ℂ)) :=
  match d with
  | BO | D2SPLIT1A | D2SPLIT1B | D2SPLIT2A | D2SPLIT2B | D2SPLIT2S | D2SPLIT3A | D2SPLIT3B | D2SPLIT3S
  | D2SPLIT4A | D2SPLIT4B | D2SPLIT5A | D2SPLIT5B | D2SPLIT6A | D2SPLIT6B | D2SPLIT7A | D2SPLIT7B
  | D2SPLIT8A | D2SPLIT8B | D2SPLIT2_MODAL =>
    (forLoop Dsub (prePointBody nskip q (rf 0)) s).map .ok
  | CF4_2 | D4SPLIT4A | D4SPLIT4B | CF4_3 | CF5_3 | CF6_4 => preCF d D Dsub nskip eps_t q (rf 0) s
  | ES4 | TES4 => (preES4 Dsub nskip eps_t q rf s).map .ok
  | _ => some (.error EC_INVALID_ARGUMENT)

/-- `fnft__akns_discretization_preprocess_signal`, fnft__akns_discretization.c:421-674. The pointers
`Dsub_ptr`, `q_preprocessed_ptr`, `r_preprocessed_ptr` and `first_last_index` are not NULL; allocations
succeed; `ROUND(D/n)` is `roundDiv`. -/
noncomputable def akns_preprocess_signal (D : ℕ) (q : Option (Buf ℂ)) (rf : ℕ → ℂ → ℂ) (eps_t : ℝ) (Dsub0 : ℕ)
    (d : AknsDisc) : Option PreRes :=
  if D < 2 then some ⟨EC_INVALID_ARGUMENT, Dsub0, none, none⟩
  else match q with
  | none => some ⟨EC_INVALID_ARGUMENT, Dsub0, none, none⟩
  | some q =>
    if eps_t ≤ 0 then some ⟨EC_INVALID_ARGUMENT, Dsub0, none, none⟩
    else
      let Dsub := Dsub0
      let Dsub := if Dsub < 2 then 2 else Dsub
      let Dsub := if Dsub > D then D else Dsub
      let nskip := roundDiv D Dsub
      let Dsub := roundDiv D nskip
      if akns_upsampling_factor d = 0 then some ⟨EC_INVALID_ARGUMENT, Dsub0, none, none⟩
      else do
        let Deff := Dsub * akns_upsampling_factor d
        match ← preSwitch d D Dsub nskip eps_t q rf (Buf.malloc Deff, Buf.malloc Deff) with
        | .error ec => return ⟨ec, Dsub0, none, none⟩
        | .ok s => return ⟨SUCCESS, Dsub, some s, some (0, (Dsub - 1) * nskip)⟩

/-- `fnft__nse_discretization_focusing_r_from_q` / `defocusing_r_from_q`, fnft__nse_discretization.c:390-391,
and the selection in fnft__nse_discretization.c:402-407. -/
noncomputable def nse_r_from_q (kappa : ℤ) (q : ℂ) : ℂ :=
  if kappa = 1 then -(starRingEnd ℂ) q else (starRingEnd ℂ) q

/-- `fnft__nse_discretization_preprocess_signal`, fnft__nse_discretization.c:392-415. -/
noncomputable def nse_preprocess_signal (D : ℕ) (q : Option (Buf ℂ)) (eps_t : ℝ) (kappa : ℤ) (Dsub0 : ℕ)
    (d : NseDisc) : Option PreRes :=
  match nse_to_akns d with
  | .error ec => some ⟨E_SUBROUTINE ec, Dsub0, none, none⟩
  | .ok a => do
    let r ← akns_preprocess_signal D q (fun _ => nse_r_from_q kappa) eps_t Dsub0 a
    return if r.ret = SUCCESS then r else ⟨E_SUBROUTINE r.ret, r.Dsub, r.out, r.first_last⟩

end FNFT

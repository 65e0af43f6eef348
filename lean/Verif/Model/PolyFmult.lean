import Verif.Model.KissFFT
import Verif.Model.Misc
import Verif.Model.MiscNum
/-!
# Model of /repo/src/private/fnft__poly_fmult.c

Conventions: a pointer is an array and an offset; all allocations succeed; `UINT` arithmetic on sizes
and indices is exact (sizes of existing arrays). Loops of the form `x[i] op= y[i]` read only the cell
they write, so the model reads the value before the loop. The functions for 2x2 and 3x3 matrices repeat
each statement for the `K = 4` resp. `K = 9` entries; the model writes these lists as loops over the
entry number `e` (row major). The order of the FFT products, which is not regular, is given by explicit
tables (`calls2x2`, `calls3x3`).
-/
namespace FNFT
open Kiss

/-- `misc_nextpowerof2` on an unbounded size (see `Verif/Model/Misc.lean`); 64 iterations suffice. -/
def nextpow2 (n : ℕ) : Option ℕ := (misc_nextpowerof2 64 (BitVec.ofNat 64 n)).map BitVec.toNat

/-- `poly_fmult_numel`, `poly_fmult2x2_numel`, `poly_fmult3x3_numel`, fnft__poly_fmult.c:37-50
(`K = 1, 4, 9`). -/
def poly_fmult_numel (K deg n : ℕ) : Option ℕ := (nextpow2 n).map fun N => K * (deg + 1) * N

/-- `poly_fmult_two_polys_len`, fnft__poly_fmult.c:52-55. -/
def twoPolysLen (deg : ℕ) : Option ℕ := nextLen (2 * (deg + 1) - 1)

/-- The three FFT work buffers. -/
structure Bufs where
  b0 : Buf ℂ
  b1 : Buf ℂ
  b2 : Buf ℂ

/-- `if (p != NULL) { memcpy(buf0, p, ..); fft(buf0 → dst) }`, fnft__poly_fmult.c:77-81 and 84-88.
Returns (buf0, dst). -/
noncomputable def loadFFT (deg : ℕ) (p : Option (Buf ℂ × ℕ)) (pf : Plan) (b0 dst : Buf ℂ) :
    Option (Buf ℂ × Buf ℂ) :=
  match p with
  | none => some (b0, dst)
  | some (p, o) => do
    let b0 ← fill 0 (deg + 1) (fun i => p.rd (o + i)) b0
    let dst ← fft pf b0 dst
    return (b0, dst)

/-- Sum and product of two values that were read from memory. -/
def addO (x y : Option ℂ) : Option ℂ := do
  let a ← x
  let b ← y
  return a + b
def mulO (x y : Option ℂ) : Option ℂ := do
  let a ← x
  let b ← y
  return a * b
noncomputable def divO (x : Option ℂ) (n : ℕ) : Option ℂ := do
  let a ← x
  return a / n

/-- Use of the product of spectra `b0` in `result` for the different modes, fnft__poly_fmult.c:94-114.
Returns (result, buf0). -/
noncomputable def combine (mode len ro : ℕ) (res b0 : Buf ℂ) : Option (Buf ℂ × Buf ℂ) :=
  if mode = 2 then do
    let res ← fill ro len (fun k => b0.rd (k - ro)) res
    return (res, b0)
  else if mode = 3 then do
    let b0 ← fill 0 len (fun i => addO (b0.rd i) (res.rd (ro + i))) b0
    return (res, b0)
  else if mode = 4 then do
    let res ← fill ro len (fun k => addO (res.rd k) (b0.rd (k - ro))) res
    return (res, b0)
  else some (res, b0)

/-- Final part of `poly_fmult_two_polys`, fnft__poly_fmult.c:116-133. Returns (result, buf1). -/
noncomputable def finish (mode len deg ro : ℕ) (pi : Plan) (res b0 b1 : Buf ℂ) :
    Option (Buf ℂ × Buf ℂ) := do
  let b1 ← if mode ≠ 2 ∧ mode ≠ 4 then fft pi b0 b1 else some b1
  if mode = 0 ∨ mode = 3 then do
    let res ← fill ro (2 * deg + 1) (fun k => divO (b1.rd (k - ro)) len) res
    return (res, b1)
  else if mode = 1 then do
    let res ← fill ro (2 * deg + 1) (fun k => addO (res.rd k) (divO (b1.rd (k - ro)) len)) res
    return (res, b1)
  else some (res, b1)

/-- `poly_fmult_two_polys`, fnft__poly_fmult.c:57-134. `ro` is the offset of `result`. Returns the array
`result` points into and the buffers. The subroutine `fft_wrapper_execute_plan` always succeeds. -/
noncomputable def twoPolys (deg : ℕ) (p1 p2 : Option (Buf ℂ × ℕ)) (res : Buf ℂ) (ro : ℕ)
    (pf pi : Plan) (B : Bufs) (mode : ℕ) : Option (Buf ℂ × Bufs) := do
  let len ← twoPolysLen deg
  let b0 ← fill (deg + 1) (len - (deg + 1)) (fun _ => some 0) B.b0
  let r1 ← loadFFT deg p1 pf b0 B.b1
  let r2 ← loadFFT deg p2 pf r1.1 B.b2
  let b0 ← fill 0 len (fun i => mulO (r1.2.rd i) (r2.2.rd i)) r2.1
  let c ← combine mode len ro res b0
  let f ← finish mode len deg ro pi c.1 c.2 r1.2
  return (f.1, ⟨c.2, f.2, r2.2⟩)

/-- Padding loop of `poly_fmult`, fnft__poly_fmult.c:155-161, and of `poly_fmult2x2/3x3`
(fnft__poly_fmult.c:643-662, 826-857) for one entry: `cnt` polynomials `lead*z^deg` are stored
from offset `o`. -/
noncomputable def padLoop (deg : ℕ) (lead : ℂ) (cnt o : ℕ) (p : Buf ℂ) : Option (Buf ℂ) :=
  forLoop cnt (fun i p => do
    let p ← p.wr (o + i * (deg + 1)) lead
    fill (o + i * (deg + 1) + 1) deg (fun _ => some 0) p) p

/-- Calling `f(b + off)`: the callee sees the array from `off` on, what it writes is visible to the
caller. -/
def onTail {α β : Type*} (off : ℕ) (b : Buf α) (f : Buf α → Option (β × Buf α)) : Option (β × Buf α) := do
  let r ← f ⟨b.len - off, fun i => b.cell (off + i)⟩
  return (r.1, ⟨b.len, fun j => if j < off then b.cell j else r.2.cell (j - off)⟩)

/-- Inner loop of `poly_fmult`, fnft__poly_fmult.c:190-202, pair `i` (`= i/2` in C), including
`poly_rescale` (fnft__poly_fmult.c:136-139). State: p, buffers, W. -/
noncomputable def fmultPair (deg : ℕ) (pf pi : Plan) (normalize : Bool) (i : ℕ)
    (s : Buf ℂ × Bufs × ℤ) : Option (Buf ℂ × Bufs × ℤ) := do
  let r ← twoPolys deg (some (s.1, i * (2 * deg + 2))) (some (s.1, deg + 1 + i * (2 * deg + 2))) s.1
    (i * (2 * deg + 1)) pf pi s.2.1 0
  if normalize then do
    let t ← onTail (i * (2 * deg + 1)) r.1 (misc_normalize_vector (2 * deg + 1))
    return (t.2, r.2, s.2.2 + t.1)
  else
    return (r.1, r.2, s.2.2)

/-- What a fast product returns: return code (`none` = the uninitialised `ret_code`), degree, number of
the last written `W`, arrays. -/
structure FmultRes where
  ret : Option ℤ
  deg : ℕ
  W : ℤ
  p : Buf ℂ
  result : Buf ℂ

/-- `while (n >= 2)` of `poly_fmult`, fnft__poly_fmult.c:175-214. Returns (ret_code, deg, p, W). The
first argument bounds the number of iterations (`n` halves, so `n` is enough). -/
noncomputable def fmultLoop (normalize : Bool) : ℕ → (n deg : ℕ) → (p : Buf ℂ) → Bufs → ℤ → Option ℤ →
    Option (Option ℤ × ℕ × Buf ℂ × ℤ)
  | 0, n, deg, p, _, W, ret => if n ≥ 2 then none else some (ret, deg, p, W)
  | fuel + 1, n, deg, p, B, W, ret =>
    if n ≥ 2 then do
      let len ← twoPolysLen deg
      match ← mkPlan len (-1) with
      | (_, some pf) =>
        match ← mkPlan len 1 with
        | (_, some pi) =>
          let s ← forLoop ((n + 1) / 2) (fmultPair deg pf pi normalize) (p, B, W)
          if n % 2 ≠ 0 then return (some EC_INVALID_ARGUMENT, deg * 2, s.1, s.2.2)
          fmultLoop normalize fuel (n / 2) (deg * 2) s.1 s.2.1 s.2.2 (some SUCCESS)
        | (rc, none) => return (some (E_SUBROUTINE rc), deg, p, W)
      | (rc, none) => return (some (E_SUBROUTINE rc), deg, p, W)
    else some (ret, deg, p, W)

/-- `poly_fmult`, fnft__poly_fmult.c:141-226. On an error return `*d` and `*W_ptr` are not written; the
model then reports the old degree and `W = 0`. -/
noncomputable def poly_fmult (d n : ℕ) (p : Buf ℂ) (normalize : Bool) : Option FmultRes := do
  let N ← nextpow2 n
  let n_excess := N - n
  let p ← padLoop d 1 n_excess (n * (d + 1)) p
  let n := n + n_excess
  let lenmem ← twoPolysLen (d * n / 2)
  let r ← fmultLoop normalize n n d p ⟨Buf.malloc lenmem, Buf.malloc lenmem, Buf.malloc lenmem⟩ 0 none
  if r.1 ≠ none ∧ r.1 ≠ some SUCCESS then return ⟨r.1, d, 0, r.2.2.1, r.2.2.1⟩
  else return ⟨r.1, r.2.1 - n_excess * d, r.2.2.2, r.2.2.1, r.2.2.1⟩

/-! ### Matrix products -/

/-- One call of `poly_fmult_two_polys` in the schedule of a matrix product. `fst`, `snd`: the arguments
`p1`, `p2`; `none` is `NULL`, `(false, e)` entry `e` of the first factor matrix `p1`, `(true, e)` entry
`e` of the second one; `res`: entry of the result; `swap`: buffers passed as `buf0, buf2, buf1`. -/
structure Call where
  fst : Option (Bool × ℕ)
  snd : Option (Bool × ℕ)
  res : ℕ
  swap : Bool

/-- The eight calls in `poly_fmult_two_polys2x2`, fnft__poly_fmult.c:275-288 and 301-313; entries
11,12,21,22 are numbered 0,1,2,3. -/
def calls2x2 : List (List Call) :=
  [[⟨some (false, 0), some (true, 0), 0, false⟩,
    ⟨none, some (false, 2), 2, true⟩,
    ⟨none, some (true, 1), 3, false⟩,
    ⟨none, some (false, 0), 1, true⟩],
   [⟨some (false, 1), some (true, 2), 0, false⟩,
    ⟨none, some (false, 3), 2, true⟩,
    ⟨none, some (true, 3), 3, false⟩,
    ⟨none, some (false, 1), 1, true⟩]]

/-- The 27 calls in `poly_fmult_two_polys3x3`, fnft__poly_fmult.c:381-407, 415-441, 447-473; entries
11,12,13,21,…,33 are numbered 0,…,8. -/
def calls3x3 : List (List Call) :=
  [[⟨some (true, 0), some (false, 0), 0, false⟩,
    ⟨some (true, 1), none, 1, false⟩,
    ⟨none, some (true, 2), 2, true⟩,
    ⟨none, some (false, 3), 5, false⟩,
    ⟨some (true, 1), none, 4, false⟩,
    ⟨none, some (true, 0), 3, true⟩,
    ⟨none, some (false, 6), 6, false⟩,
    ⟨some (true, 1), none, 7, false⟩,
    ⟨none, some (true, 2), 8, true⟩],
   [⟨some (true, 3), some (false, 1), 0, false⟩,
    ⟨some (true, 4), none, 1, false⟩,
    ⟨none, some (true, 5), 2, true⟩,
    ⟨none, some (false, 4), 5, false⟩,
    ⟨some (true, 4), none, 4, false⟩,
    ⟨none, some (true, 3), 3, true⟩,
    ⟨none, some (false, 7), 6, false⟩,
    ⟨some (true, 4), none, 7, false⟩,
    ⟨none, some (true, 5), 8, true⟩],
   [⟨some (true, 6), some (false, 2), 0, false⟩,
    ⟨some (true, 7), none, 1, false⟩,
    ⟨none, some (true, 8), 2, true⟩,
    ⟨none, some (false, 5), 5, false⟩,
    ⟨some (true, 7), none, 4, false⟩,
    ⟨none, some (true, 6), 3, true⟩,
    ⟨none, some (false, 8), 6, false⟩,
    ⟨some (true, 7), none, 7, false⟩,
    ⟨none, some (true, 8), 8, true⟩]]

/-- Modes of the phases: 2x2 `mode_offset`, `mode_offset+1` with `mode_offset ∈ {0,2}`
(fnft__poly_fmult.c:259, 290); 3x3 `0/2`, `1/4`, `1/3` (fnft__poly_fmult.c:370-373, 409-412, 443-445). -/
def modes2x2 (space : Bool) : List ℕ := if space then [2, 3] else [0, 1]
def modes3x3 (space : Bool) : List ℕ := if space then [2, 4, 3] else [0, 1, 1]

/-- Pointer to an entry of one of the factors. -/
def ptr (p : Buf ℂ) (o1 o2 ps : ℕ) (q : Bool × ℕ) : Buf ℂ × ℕ :=
  (p, (if q.1 then o2 else o1) + q.2 * ps)

/-- The buffers in the order in which they are passed. -/
def swapB (sw : Bool) (B : Bufs) : Bufs := if sw then ⟨B.b0, B.b2, B.b1⟩ else B

/-- One call. `pt` gives the pointers to the entries of the two factors; entry `e` of the result is at `ro + e*rs`. -/
noncomputable def runCall (deg : ℕ) (pt : Bool × ℕ → Buf ℂ × ℕ) (ro rs : ℕ) (pf pi : Plan) (mode : ℕ)
    (c : Call) (s : Buf ℂ × Bufs) : Option (Buf ℂ × Bufs) := do
  let r ← twoPolys deg (c.fst.map pt) (c.snd.map pt) s.1 (ro + c.res * rs)
    pf pi (swapB c.swap s.2) mode
  return (r.1, swapB c.swap r.2)

/-- A list of calls with the same mode. -/
noncomputable def runPhase (deg : ℕ) (pt : Bool × ℕ → Buf ℂ × ℕ) (ro rs : ℕ) (pf pi : Plan) (mode : ℕ) :
    List Call → Buf ℂ × Bufs → Option (Buf ℂ × Bufs)
  | [], s => some s
  | c :: cs, s => do
    let s ← runCall deg pt ro rs pf pi mode c s
    runPhase deg pt ro rs pf pi mode cs s

/-- `poly_fmult_two_polys2x2` / `3x3`, fnft__poly_fmult.c:228-317, 319-478. -/
noncomputable def runPhases (deg : ℕ) (pt : Bool × ℕ → Buf ℂ × ℕ) (ro rs : ℕ) (pf pi : Plan) :
    List ℕ → List (List Call) → Buf ℂ × Bufs → Option (Buf ℂ × Bufs)
  | m :: ms, ph :: phs, s => do
    let s ← runPhase deg pt ro rs pf pi m ph s
    runPhases deg pt ro rs pf pi ms phs s
  | _, _, s => some s

/-- First loop of `poly_rescale2x2/3x3`, fnft__poly_fmult.c:489-507, 538-571. -/
noncomputable def maxAbsK (K d off rs : ℕ) (v : Buf ℂ) : Option ℝ :=
  forLoop (d + 1) (fun i m => forLoop K (fun e m => do
    let z ← v.rd (off + e * rs + i)
    return if ‖z‖ > m then ‖z‖ else m) m) (0 : ℝ)

/-- Second loop of `poly_rescale2x2/3x3`, fnft__poly_fmult.c:516-521, 580-591. -/
noncomputable def scaleK (K d off rs : ℕ) (scl : ℝ) (v : Buf ℂ) : Option (Buf ℂ) :=
  forLoop (d + 1) (fun i v => forLoop K (fun e v => do
    let z ← v.rd (off + e * rs + i)
    v.wr (off + e * rs + i) (z * scl)) v) v

/-- `poly_rescale2x2` / `poly_rescale3x3`, fnft__poly_fmult.c:480-524, 527-596: `K` polynomials of
degree `d` at offsets `off + e*rs` of one array. Returns (a, array). -/
noncomputable def rescaleK (K d off rs : ℕ) (v : Buf ℂ) : Option (ℤ × Buf ℂ) := do
  let max_abs ← maxAbsK K d off rs v
  if max_abs = 0 then return (0, v)
  let a : ℤ := ⌊Real.logb 2 max_abs⌋
  let scl : ℝ := (2 : ℝ) ^ (-(a : ℝ))
  let v ← scaleK K d off rs scl v
  return (a, v)

/-- Parameters distinguishing `poly_fmult2x2` and `poly_fmult3x3`. -/
structure Kind where
  m : ℕ
  modes : Bool → List ℕ
  calls : List (List Call)

def kind2 : Kind := ⟨2, modes2x2, calls2x2⟩
def kind3 : Kind := ⟨3, modes3x3, calls3x3⟩

/-- Inner loop of `poly_fmult2x2` / `3x3`, fnft__poly_fmult.c:704-721, 914-932, pair `i`. State: result,
buffers, W. -/
noncomputable def fmultMPair (k : Kind) (deg : ℕ) (p : Buf ℂ) (ps rs len : ℕ) (pf pi : Plan)
    (normalize : Bool) (i : ℕ) (s : Buf ℂ × Bufs × ℤ) : Option (Buf ℂ × Bufs × ℤ) := do
  let r ← runPhases deg (ptr p (i * (2 * deg + 2)) (deg + 1 + i * (2 * deg + 2)) ps) (i * (2 * deg + 1)) rs pf pi
    (k.modes (decide (¬ rs - i * (2 * deg + 1) < len))) k.calls (s.1, s.2.1)
  if normalize then do
    let t ← rescaleK (k.m * k.m) (2 * deg) (i * (2 * deg + 1)) rs r.1
    return (t.2, r.2, s.2.2 + t.1)
  else
    return (r.1, r.2, s.2.2)

/-- `if (n>1) memcpy(p_e, r_e, n*(deg+1))` for all entries, fnft__poly_fmult.c:737-742, 947-957. -/
def copyBack (K n deg ps rs : ℕ) (r p : Buf ℂ) : Option (Buf ℂ) :=
  if n > 1 then
    forLoop K (fun e p => fill (e * ps) (n * (deg + 1)) (fun j => r.rd (e * rs + (j - e * ps))) p) p
  else some p

/-- `while (n >= 2)` of `poly_fmult2x2` / `3x3`, fnft__poly_fmult.c:682-743, 886-960. Returns
(ret_code, deg, p, result, W, stride of the last result). -/
noncomputable def fmultMLoop (k : Kind) (normalize : Bool) (ps : ℕ) : ℕ → (n deg : ℕ) →
    (p result : Buf ℂ) → Bufs → ℤ → Option ℤ → ℕ →
    Option (Option ℤ × ℕ × Buf ℂ × Buf ℂ × ℤ × ℕ)
  | 0, n, deg, p, result, _, W, ret, rs => if n ≥ 2 then none else some (ret, deg, p, result, W, rs)
  | fuel + 1, n, deg, p, result, B, W, ret, rs =>
    if n ≥ 2 then do
      let len ← twoPolysLen deg
      match ← mkPlan len (-1) with
      | (_, some pf) =>
        match ← mkPlan len 1 with
        | (_, some pi) =>
          let s ← forLoop ((n + 1) / 2)
            (fmultMPair k deg p ps ((n / 2) * (2 * deg + 1)) len pf pi normalize) (result, B, W)
          if n % 2 ≠ 0 then
            return (some EC_INVALID_ARGUMENT, deg * 2, p, s.1, s.2.2, (n / 2) * (2 * deg + 1))
          let p ← copyBack (k.m * k.m) (n / 2) (deg * 2) ps ((n / 2) * (2 * deg + 1)) s.1 p
          fmultMLoop k normalize ps fuel (n / 2) (deg * 2) p s.1 s.2.1 s.2.2 (some SUCCESS)
            ((n / 2) * (2 * deg + 1))
        | (rc, none) => return (some (E_SUBROUTINE rc), deg, p, result, W, rs)
      | (rc, none) => return (some (E_SUBROUTINE rc), deg, p, result, W, rs)
    else some (ret, deg, p, result, W, rs)

/-- `memmove(b + dst, b + src, cnt)`: the source is read before anything is written. -/
def moveWithin {α : Type*} (dst src cnt : ℕ) (b : Buf α) : Option (Buf α) :=
  fill dst cnt (fun k => b.rd (src + (k - dst))) b

/-- Padding of the factors, fnft__poly_fmult.c:628-668, 797-873: `memmove` of the entries `K-1, …, 1` to
their new place (entry 0 stays), then the identity matrices times `z^d`. Simplification: the padding of
one entry is stored after that of the other (in C: all entries of one padding matrix, then the next),
which touches the same cells once each. -/
noncomputable def padM (m d n N : ℕ) (p : Buf ℂ) : Option (Buf ℂ) := do
  let p ← forLoop (m * m - 1) (fun j p =>
    moveWithin ((m * m - 1 - j) * (N * (d + 1))) ((m * m - 1 - j) * (n * (d + 1))) (n * (d + 1)) p) p
  forLoop (m * m) (fun e p =>
    padLoop d (if e % (m + 1) = 0 then 1 else 0) (N - n) (e * (N * (d + 1)) + n * (d + 1)) p) p

/-- `if (n_excess > 0)` around the padding, fnft__poly_fmult.c:628, 797. -/
noncomputable def padIf (m d n N : ℕ) (p : Buf ℂ) : Option (Buf ℂ) :=
  if N - n > 0 then padM m d n N p else some p

/-- `if (n_excess > 0)` after the loop, fnft__poly_fmult.c:746-757, 963-990: the entries of the result
are moved together (`deg` is the reduced degree, `rs` the stride of the result). -/
noncomputable def truncIf (K n N deg rs : ℕ) (r : Buf ℂ) : Option (Buf ℂ) :=
  if N - n > 0 then
    forLoop (K - 1) (fun j b => moveWithin ((j + 1) * (deg + 1)) ((j + 1) * rs) (deg + 1) b) r
  else some r

/-- `poly_fmult2x2` / `poly_fmult3x3`, fnft__poly_fmult.c:603-768, 770-1007. On an error return `*d` and
`*W_ptr` are not written; the model then reports the old degree and `W = 0`. -/
noncomputable def poly_fmultM (k : Kind) (d n : ℕ) (p result : Buf ℂ) (normalize : Bool) :
    Option FmultRes := do
  let N ← nextpow2 n
  let p ← padIf k.m d n N p
  let n' := n + (N - n)
  let lenmem ← twoPolysLen (d * n' / 2)
  let r ← fmultMLoop k normalize (n' * (d + 1)) n' n' d p result
    ⟨Buf.malloc lenmem, Buf.malloc lenmem, Buf.malloc lenmem⟩ 0 none 0
  if r.1 ≠ none ∧ r.1 ≠ some SUCCESS then return ⟨r.1, d, 0, r.2.2.1, r.2.2.2.1⟩
  else
    let deg' := if N - n > 0 then r.2.1 - (N - n) * d else r.2.1
    let result ← truncIf (k.m * k.m) n N deg' r.2.2.2.2.2 r.2.2.2.1
    return ⟨r.1, deg', r.2.2.2.2.1, r.2.2.1, result⟩

end FNFT

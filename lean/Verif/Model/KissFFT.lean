import Verif.Core
import Mathlib.Analysis.SpecialFunctions.Complex.Log
import Mathlib.Data.Nat.Sqrt
/-!
# Model of /repo/src/3rd_party/kiss_fft/kiss_fft.c and /repo/include/private/fnft__fft_wrapper.h

Double precision configuration without OpenMP: `C_FIXDIV` is a no-op, `HALF_OF(x) = x*.5`
(_kiss_fft_guts.h:93-150).  `kiss_fft_cpx` is `ℂ` (exact arithmetic).  A pointer into an array is the
array together with an offset.  A `do { … } while(--m)` with `m ≥ 1` is a `for` loop with `m`
iterations (`m` is never 0 in a factor table, see `C08_table`).
-/
namespace FNFT
namespace Kiss

/-- `MAXFACTORS`, _kiss_fft_guts.h:29. -/
def MAXFACTORS : ℕ := 32

/-- `struct kiss_fft_state`, _kiss_fft_guts.h:35-40. -/
structure Plan where
  nfft : ℕ
  inverse : Bool
  factors : Buf ℕ
  twiddles : Buf ℂ

/-- One iteration of `kf_bfly2`, kiss_fft.c:34-44 (`u` = number of iterations done). -/
noncomputable def bfly2Body (fo fstride m : ℕ) (tw : Buf ℂ) (u : ℕ) (F : Buf ℂ) :
    Option (Buf ℂ) := do
  let f0 ← F.rd (fo + u)
  let f2 ← F.rd (fo + m + u)
  let w ← tw.rd (u * fstride)
  let t := f2 * w
  let F ← F.wr (fo + m + u) (f0 - t)
  F.wr (fo + u) (f0 + t)

/-- `kf_bfly2`, kiss_fft.c:24-45. -/
noncomputable def bfly2 (fo fstride : ℕ) (st : Plan) (m : ℕ) (F : Buf ℂ) : Option (Buf ℂ) :=
  forLoop m (bfly2Body fo fstride m st.twiddles) F

/-- One iteration of `kf_bfly4`, kiss_fft.c:62-92. -/
noncomputable def bfly4Body (fo fstride m : ℕ) (st : Plan) (u : ℕ) (F : Buf ℂ) :
    Option (Buf ℂ) := do
  let f0 ← F.rd (fo + u)
  let f1 ← F.rd (fo + u + m)
  let f2 ← F.rd (fo + u + 2 * m)
  let f3 ← F.rd (fo + u + 3 * m)
  let w1 ← st.twiddles.rd (u * fstride)
  let w2 ← st.twiddles.rd (u * (fstride * 2))
  let w3 ← st.twiddles.rd (u * (fstride * 3))
  let s0 := f1 * w1
  let s1 := f2 * w2
  let s2 := f3 * w3
  let s5 := f0 - s1
  let f0 := f0 + s1
  let s3 := s0 + s2
  let s4 := s0 - s2
  let F ← F.wr (fo + u + 2 * m) (f0 - s3)
  let F ← F.wr (fo + u) (f0 + s3)
  if st.inverse then
    let F ← F.wr (fo + u + m) ⟨s5.re - s4.im, s5.im + s4.re⟩
    F.wr (fo + u + 3 * m) ⟨s5.re + s4.im, s5.im - s4.re⟩
  else
    let F ← F.wr (fo + u + m) ⟨s5.re + s4.im, s5.im - s4.re⟩
    F.wr (fo + u + 3 * m) ⟨s5.re - s4.im, s5.im + s4.re⟩

/-- `kf_bfly4`, kiss_fft.c:47-93. -/
noncomputable def bfly4 (fo fstride : ℕ) (st : Plan) (m : ℕ) (F : Buf ℂ) : Option (Buf ℂ) :=
  forLoop m (bfly4Body fo fstride m st) F

/-- One iteration of `kf_bfly3`, kiss_fft.c:111-136. -/
noncomputable def bfly3Body (fo fstride m : ℕ) (tw : Buf ℂ) (epi3 : ℂ) (u : ℕ) (F : Buf ℂ) :
    Option (Buf ℂ) := do
  let f0 ← F.rd (fo + u)
  let f1 ← F.rd (fo + u + m)
  let f2 ← F.rd (fo + u + 2 * m)
  let w1 ← tw.rd (u * fstride)
  let w2 ← tw.rd (u * (fstride * 2))
  let s1 := f1 * w1
  let s2 := f2 * w2
  let s3 := s1 + s2
  let s0 := s1 - s2
  let g1 : ℂ := ⟨f0.re - s3.re * (1/2), f0.im - s3.im * (1/2)⟩
  let s0 : ℂ := ⟨s0.re * epi3.im, s0.im * epi3.im⟩
  let F ← F.wr (fo + u) (f0 + s3)
  let F ← F.wr (fo + u + 2 * m) ⟨g1.re + s0.im, g1.im - s0.re⟩
  F.wr (fo + u + m) ⟨g1.re - s0.im, g1.im + s0.re⟩

/-- `kf_bfly3`, kiss_fft.c:95-137. -/
noncomputable def bfly3 (fo fstride : ℕ) (st : Plan) (m : ℕ) (F : Buf ℂ) : Option (Buf ℂ) := do
  let epi3 ← st.twiddles.rd (fstride * m)
  forLoop m (bfly3Body fo fstride m st.twiddles epi3) F

/-- One iteration of `kf_bfly5`, kiss_fft.c:163-197. -/
noncomputable def bfly5Body (fo fstride m : ℕ) (tw : Buf ℂ) (ya yb : ℂ) (u : ℕ) (F : Buf ℂ) :
    Option (Buf ℂ) := do
  let s0 ← F.rd (fo + u)
  let f1 ← F.rd (fo + u + m)
  let f2 ← F.rd (fo + u + 2 * m)
  let f3 ← F.rd (fo + u + 3 * m)
  let f4 ← F.rd (fo + u + 4 * m)
  let w1 ← tw.rd (u * fstride)
  let w2 ← tw.rd (2 * u * fstride)
  let w3 ← tw.rd (3 * u * fstride)
  let w4 ← tw.rd (4 * u * fstride)
  let s1 := f1 * w1
  let s2 := f2 * w2
  let s3 := f3 * w3
  let s4 := f4 * w4
  let s7 := s1 + s4
  let s10 := s1 - s4
  let s8 := s2 + s3
  let s9 := s2 - s3
  let F ← F.wr (fo + u) ⟨s0.re + (s7.re + s8.re), s0.im + (s7.im + s8.im)⟩
  let s5 : ℂ := ⟨s0.re + s7.re * ya.re + s8.re * yb.re, s0.im + s7.im * ya.re + s8.im * yb.re⟩
  let s6 : ℂ := ⟨s10.im * ya.im + s9.im * yb.im, - (s10.re * ya.im) - s9.re * yb.im⟩
  let F ← F.wr (fo + u + m) (s5 - s6)
  let F ← F.wr (fo + u + 4 * m) (s5 + s6)
  let s11 : ℂ := ⟨s0.re + s7.re * yb.re + s8.re * ya.re, s0.im + s7.im * yb.re + s8.im * ya.re⟩
  let s12 : ℂ := ⟨- (s10.im * yb.im) + s9.im * ya.im, s10.re * yb.im - s9.re * ya.im⟩
  let F ← F.wr (fo + u + 2 * m) (s11 + s12)
  F.wr (fo + u + 3 * m) (s11 - s12)

/-- `kf_bfly5`, kiss_fft.c:139-198. -/
noncomputable def bfly5 (fo fstride : ℕ) (st : Plan) (m : ℕ) (F : Buf ℂ) : Option (Buf ℂ) := do
  let ya ← st.twiddles.rd (fstride * m)
  let yb ← st.twiddles.rd (fstride * 2 * m)
  forLoop m (bfly5Body fo fstride m st.twiddles ya yb) F

/-- First inner loop of `kf_bfly_generic` (kiss_fft.c:218-222): `scratch[q1] = Fout[k]; k += m`. -/
def bflyGenLoad (fo m : ℕ) (F : Buf ℂ) (q1 : ℕ) (s : Buf ℂ × ℕ) : Option (Buf ℂ × ℕ) := do
  let v ← F.rd (fo + s.2)
  let sc ← s.1.wr q1 v
  return (sc, s.2 + m)

/-- Innermost loop of `kf_bfly_generic` (kiss_fft.c:228-233), iteration `q = q' + 1`.
State: Fout, twidx. -/
noncomputable def bflyGenAcc (fo fstride : ℕ) (st : Plan) (sc : Buf ℂ) (k q' : ℕ)
    (s : Buf ℂ × ℕ) : Option (Buf ℂ × ℕ) := do
  let twidx := s.2 + fstride * k
  let twidx := if twidx ≥ st.nfft then twidx - st.nfft else twidx
  let v ← sc.rd (q' + 1)
  let w ← st.twiddles.rd twidx
  let a ← s.1.rd (fo + k)
  let F ← s.1.wr (fo + k) (a + v * w)
  return (F, twidx)

/-- Middle loop of `kf_bfly_generic` (kiss_fft.c:225-235). State: Fout, k. -/
noncomputable def bflyGenOut (fo fstride : ℕ) (st : Plan) (m p : ℕ) (sc : Buf ℂ) (_q1 : ℕ)
    (s : Buf ℂ × ℕ) : Option (Buf ℂ × ℕ) := do
  let v ← sc.rd 0
  let F ← s.1.wr (fo + s.2) v
  let r ← forLoop (p - 1) (bflyGenAcc fo fstride st sc s.2) (F, 0)
  return (r.1, s.2 + m)

/-- Outer loop of `kf_bfly_generic` (kiss_fft.c:216-236). State: Fout, scratch. -/
noncomputable def bflyGenBody (fo fstride : ℕ) (st : Plan) (m p : ℕ) (u : ℕ)
    (s : Buf ℂ × Buf ℂ) : Option (Buf ℂ × Buf ℂ) := do
  let r ← forLoop p (bflyGenLoad fo m s.1) (s.2, u)
  let t ← forLoop p (bflyGenOut fo fstride st m p r.1) (s.1, u)
  return (t.1, r.1)

/-- `kf_bfly_generic`, kiss_fft.c:200-238. -/
noncomputable def bflyGeneric (fo fstride : ℕ) (st : Plan) (m p : ℕ) (F : Buf ℂ) :
    Option (Buf ℂ) := do
  let r ← forLoop m (bflyGenBody fo fstride st m p) (F, Buf.malloc p)
  return r.1

/-- The `switch (p)` of `kf_work`, kiss_fft.c:298-304. -/
noncomputable def bfly (fo fstride : ℕ) (st : Plan) (m p : ℕ) (F : Buf ℂ) : Option (Buf ℂ) :=
  if p = 2 then bfly2 fo fstride st m F
  else if p = 3 then bfly3 fo fstride st m F
  else if p = 4 then bfly4 fo fstride st m F
  else if p = 5 then bfly5 fo fstride st m F
  else bflyGeneric fo fstride st m p F

/-- Copy loop of `kf_work` for `m == 1` (kiss_fft.c:279-283). State: Fout, offset into `f`. -/
def workCopy (fo step : ℕ) (f : Buf ℂ) (i : ℕ) (s : Buf ℂ × ℕ) : Option (Buf ℂ × ℕ) := do
  let v ← f.rd s.2
  let F ← s.1.wr (fo + i) v
  return (F, s.2 + step)

/-- `kf_work`, kiss_fft.c:240-305 (without OpenMP). `fac` is the offset of the pointer `factors` in the
plan's table. The first argument bounds the recursion depth; the top-level call uses `MAXFACTORS`, and
a call with depth bound 0 would read the factor table out of bounds (`fac = 2*MAXFACTORS`), so `none`
is the right answer there. -/
noncomputable def work (st : Plan) (f : Buf ℂ) :
    ℕ → (fo fi fstride in_stride fac : ℕ) → Buf ℂ → Option (Buf ℂ)
  | 0, _, _, _, _, _, _ => none
  | d + 1, fo, fi, fstride, in_stride, fac, F => do
    let p ← st.factors.rd fac
    let m ← st.factors.rd (fac + 1)
    let r ←
      if m = 1 then
        forLoop p (workCopy fo (fstride * in_stride) f) (F, fi)
      else
        forLoop p (fun i (s : Buf ℂ × ℕ) => do
          let F ← work st f d (fo + i * m) s.2 (fstride * p) in_stride (fac + 2) s.1
          return (F, s.2 + fstride * in_stride)) (F, fi)
    bfly fo fstride st m p r.1

/-- `while (n % p) {…}` of `kf_factor` (kiss_fft.c:320-328): next divisor of `n`, starting at `p`.
`none` when the fuel is used up. `fs` is `floor(sqrt(n_original))`. -/
def nextP (fs n : ℕ) : ℕ → ℕ → Option ℕ
  | 0, _ => none
  | fuel + 1, p =>
    if n % p ≠ 0 then
      let p := if p = 4 then 2 else if p = 2 then 3 else p + 2
      let p := if p > fs then n else p
      nextP fs n fuel p
    else some p

/-- Outer loop of `kf_factor` (kiss_fft.c:319-332). `i` is the offset of `facbuf`. Outer `none`: fuel
used up; inner `none`: write beyond the table. -/
def factorLoop (fs : ℕ) : ℕ → ℕ → ℕ → ℕ → Buf ℕ → Option (Option (Buf ℕ))
  | 0, _, _, _, _ => none
  | fuel + 1, n, p, i, T =>
    match nextP fs n (fuel + 1) p with
    | none => none
    | some p =>
      match (do let T ← T.wr i p; T.wr (i + 1) (n / p)) with
      | none => some none
      | some T => if n / p > 1 then factorLoop fs fuel (n / p) p (i + 2) T else some (some T)

/-- `kf_factor`, kiss_fft.c:307-333, on a table of `2*MAXFACTORS` entries. `floor(sqrt((double)n))` is
taken to be exact (true for `n < 2^53`). -/
def factor (fuel n : ℕ) : Option (Option (Buf ℕ)) :=
  factorLoop (Nat.sqrt n) fuel n 4 0 (Buf.malloc (2 * MAXFACTORS))

/-- `kf_cexp(st->twiddles+i, phase)`, kiss_fft.c:360-366: `phase = -2*pi*i/nfft`, sign flipped for the
inverse transform. `pi` is exact. -/
noncomputable def twiddle (n : ℕ) (inv : Bool) (i : ℕ) : ℂ :=
  let phase : ℝ := -2 * Real.pi * i / n
  let phase := if inv then phase * (-1) else phase
  ⟨Real.cos phase, Real.sin phase⟩

/-- `kiss_fft_alloc(nfft, inverse, NULL, NULL)`, kiss_fft.c:342-371; same result convention as
`factor`. -/
noncomputable def alloc (fuel nfft : ℕ) (inv : Bool) : Option (Option Plan) :=
  match factor fuel nfft with
  | none => none
  | some none => some none
  | some (some T) => some (some ⟨nfft, inv, T, Buf.ofFn nfft (twiddle nfft inv)⟩)

/-- `kiss_fft(cfg, fin, fout)` with `fin != fout` (kiss_fft.c:374-391). -/
noncomputable def fft (st : Plan) (fin fout : Buf ℂ) : Option (Buf ℂ) :=
  work st fin MAXFACTORS 0 0 1 1 0 fout

/-- `memcpy(dst, src, n)` element by element. -/
def copyN {α : Type*} (n : ℕ) (src dst : Buf α) : Option (Buf α) :=
  forLoop n (fun i d => do let v ← src.rd i; d.wr i v) dst

/-- `kiss_fft(cfg, buf, buf)`: in place, through a temporary buffer (kiss_fft.c:376-382). -/
noncomputable def fftInplace (st : Plan) (buf : Buf ℂ) : Option (Buf ℂ) := do
  let tmp ← work st buf MAXFACTORS 0 0 1 1 0 (Buf.malloc st.nfft)
  copyN st.nfft tmp buf

/-- `fnft__fft_wrapper_create_plan` without FFTW (fnft__fft_wrapper.h:84-112): arguments check, then
`kiss_fft_alloc`. Returns (code, plan), outer `none`s as in `factor`. -/
noncomputable def createPlan (fuel len : ℕ) (is_inverse : ℤ) : Option (Option (ℤ × Option Plan)) :=
  if len = 0 then some (some (EC_INVALID_ARGUMENT, none))
  else if is_inverse ≠ 1 ∧ is_inverse ≠ -1 then some (some (EC_INVALID_ARGUMENT, none))
  else match alloc fuel len (decide ((is_inverse + 1) / 2 ≠ 0)) with
    | none => none
    | some none => some none
    | some (some st) => some (some (SUCCESS, some st))

/-- `while ( (m%d) == 0 ) m/=d;` of `kiss_fft_next_fast_size` (kiss_fft.c:403-405). -/
def divOut (d : ℕ) : ℕ → ℕ → Option ℕ
  | 0, _ => none
  | fuel + 1, m => if m % d = 0 then divOut d fuel (m / d) else some m

/-- `kiss_fft_next_fast_size`, kiss_fft.c:399-411; `none` when the fuel is used up. This is also
`fnft__fft_wrapper_next_fft_length` (fnft__fft_wrapper.h:44-49). `UINT` wrap-around of `n++` is not
modelled. -/
def nextFastSize : ℕ → ℕ → Option ℕ
  | 0, _ => none
  | fuel + 1, n => do
    let m ← divOut 2 (fuel + 1) n
    let m ← divOut 3 (fuel + 1) m
    let m ← divOut 5 (fuel + 1) m
    if m ≤ 1 then return n else nextFastSize fuel (n + 1)

/-- `fft_wrapper_create_plan` as called by the rest of the library. The loops of `kf_factor` need fewer
than `2n+6` iterations (`C08_factor_table`, `C09_fft`), so this fuel loses nothing; `none` is an overrun
of the factor table. -/
noncomputable def mkPlan (len : ℕ) (is_inverse : ℤ) : Option (ℤ × Option Plan) :=
  (createPlan (2 * len + 6) len is_inverse).join

/-- `fft_wrapper_next_fft_length` as called by the rest of the library (fuel suffices for `n ≥ 1`,
`C07_next_fft_length`). -/
def nextLen (n : ℕ) : Option ℕ := nextFastSize (4 * n) n

end Kiss
end FNFT

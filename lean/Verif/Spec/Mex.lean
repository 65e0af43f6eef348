import Verif.Model.Mex
/-!
# Specification: what the help texts of the MATLAB interface promise
-/
namespace FNFT.Spec
open FNFT

/-- An array that MATLAB can create: a real or complex array of class double with all of its numbers, or a real array of another class. (Complex arrays of other classes exist as well, see `C84`.) -/
def MxValid (a : MxArray) : Prop :=
  (a.cls = .double ∧ (∀ i, i < a.rows * a.cols → a.re.rd i ≠ none) ∧ (a.cplx = true → ∀ i, i < a.rows * a.cols → a.im.rd i ≠ none)) ∨
  (a.cls ≠ .double ∧ a.cplx = false)

/-- A complex row vector with the entries `v 0, ..., v (n-1)`. -/
def IsCplxRow (a : MxArray) (n : ℕ) (v : ℕ → ℂ) : Prop :=
  a.cls = .double ∧ a.cplx = true ∧ a.rows = 1 ∧ a.cols = n ∧ ∀ i, i < n → a.re.rd i = some (v i).re ∧ a.im.rd i = some (v i).im

/-- A row vector of doubles; its real parts are `v 0, ..., v (n-1)`. -/
def IsRow (a : MxArray) (n : ℕ) (v : ℕ → ℝ) : Prop :=
  a.cls = .double ∧ a.rows = 1 ∧ a.cols = n ∧ ∀ i, i < n → a.re.rd i = some (v i)

/-- One number (of class double). -/
def IsNumber (a : MxArray) (x : ℝ) : Prop := a.cls = .double ∧ a.rows * a.cols = 1 ∧ a.re.rd 0 = some x

def IsText (a : MxArray) (s : String) : Prop := a.cls = .char ∧ a.str = s

/-- The sign `k` that a gateway makes of the number `y`: it is rounded towards zero. -/
def IsSign (y : ℝ) (k : ℤ) : Prop := (k = 1 ∨ k = -1) ∧ 1 ≤ k * y ∧ k * y < 2

/-- The optional inputs are a sequence of groups; each group changes the settings according to the rule `R`. -/
inductive Options {σ : Type} (R : List MxArray → σ → σ → Prop) : List MxArray → σ → σ → Prop
  | nil (s : σ) : Options R [] s s
  | cons {g r : List MxArray} {s t u : σ} : R g s t → Options R r t u → Options R (g ++ r) s u

/-- The array contains the first `n` numbers `v`, and is not longer. -/
def Exactly (b : Buf ℂ) (n : ℕ) (v : ℕ → ℂ) : Prop := b.len = n ∧ ∀ i, i < n → b.rd i = some (v i)

/-! ## fnft_nsev -/

/-- Names of the discretizations in the help text. -/
def nsevNames : List (String × NseDisc) :=
  [("discr_modal", .D2SPLIT2_MODAL), ("discr_2split1A", .D2SPLIT1A), ("discr_2split1B", .D2SPLIT1B), ("discr_2split2A", .D2SPLIT2A),
   ("discr_2split2B", .D2SPLIT2B), ("discr_2split2S", .D2SPLIT2S), ("discr_2split3A", .D2SPLIT3A), ("discr_2split3B", .D2SPLIT3B),
   ("discr_2split3S", .D2SPLIT3S), ("discr_2split4A", .D2SPLIT4A), ("discr_2split4B", .D2SPLIT4B), ("discr_2split5A", .D2SPLIT5A),
   ("discr_2split5B", .D2SPLIT5B), ("discr_2split6A", .D2SPLIT6A), ("discr_2split6B", .D2SPLIT6B), ("discr_2split7A", .D2SPLIT7A),
   ("discr_2split7B", .D2SPLIT7B), ("discr_2split8A", .D2SPLIT8A), ("discr_2split8B", .D2SPLIT8B), ("discr_4split4A", .D4SPLIT4A),
   ("discr_4split4B", .D4SPLIT4B), ("discr_BO", .BO), ("discr_CF4_2", .CF4_2), ("discr_CF4_3", .CF4_3), ("discr_CF5_3", .CF5_3),
   ("discr_CF6_4", .CF6_4), ("discr_ES4", .ES4), ("discr_TES4", .TES4)]

/-- The groups of optional inputs of `mex_fnft_nsev`. -/
inductive NsevRule : List MxArray → VGate NsevOpts → VGate NsevOpts → Prop
  | M {a b s x} : IsText a "M" → IsNumber b x → 0 ≤ x → NsevRule [a, b] s { s with M := ⌊x⌋₊ }
  | fasteigen {a s} : IsText a "bsloc_fasteigen" → NsevRule [a] s { s with o := { s.o with loc := .FAST_EIGENVALUE } }
  | newton {a b s n v g} : IsText a "bsloc_newton" → IsCplxRow b n v → 1 ≤ n → Exactly g n v →
      NsevRule [a, b] s { s with K := n, bs := some g, o := { s.o with loc := .NEWTON } }
  | niter {a b s x} : IsText a "bsloc_niter" → IsNumber b x → 0 ≤ x → NsevRule [a, b] s { s with o := { s.o with niter := ⌊x⌋₊ } }
  | tol {a b s x} : IsText a "bsloc_tol" → IsNumber b x → 0 ≤ x → NsevRule [a, b] s { s with o := { s.o with tol := .num (x : EReal) } }
  | subsamp {a s} : IsText a "bsloc_subsamp_refine" → NsevRule [a] s { s with o := { s.o with loc := .SUBSAMPLE_AND_REFINE } }
  | dsub {a b s x} : IsText a "bsloc_Dsub" → IsNumber b x → 0 ≤ x → NsevRule [a, b] s { s with o := { s.o with Dsub := ⌊x⌋₊ } }
  | filtNone {a s} : IsText a "bsfilt_none" → NsevRule [a] s { s with o := { s.o with filt := .NONE } }
  | filtBasic {a s} : IsText a "bsfilt_basic" → NsevRule [a] s { s with o := { s.o with filt := .BASIC } }
  | filtFull {a s} : IsText a "bsfilt_full" → NsevRule [a] s { s with o := { s.o with filt := .FULL } }
  | filtManual {a b s v} : IsText a "bsfilt_manual" → IsRow b 4 v →
      NsevRule [a, b] s { s with o := { s.o with filt := .MANUAL, box := ![.num (v 0 : EReal), .num (v 1 : EReal), .num (v 2 : EReal), .num (v 3 : EReal)] } }
  | re {a s} : IsText a "RE" → NsevRule [a] s { s with o := { s.o with rich := 1 } }
  | residues {a s} : IsText a "dstype_residues" → NsevRule [a] s { s with o := { s.o with ds := .RESIDUES } }
  | ab {a s} : IsText a "cstype_ab" → NsevRule [a] s { s with o := { s.o with cs := .AB } }
  | skipCs {a s} : IsText a "skip_cs" → NsevRule [a] s { s with skipCs := true }
  | skipBs {a s} : IsText a "skip_bs" → NsevRule [a] s { s with skipBs := true, skipNc := true }
  | skipNc {a s} : IsText a "skip_nc" → NsevRule [a] s { s with skipNc := true }
  | skipNorm {a s} : IsText a "skip_normalization" → NsevRule [a] s { s with o := { s.o with nrm := false } }
  | quiet {a s} : IsText a "quiet" → NsevRule [a] s s
  | disc {a s name d} : IsText a name → (name, d) ∈ nsevNames → NsevRule [a] s { s with o := { s.o with disc := d } }

/-- `[..] = mex_fnft_nsev(q, T, XI, kappa, ...)` with `nlhs` outputs is a correct call: `q` are the `D ≥ 2` samples `v`, `T` and `XI` intervals, and the optional inputs
change the default settings into `s`. -/
def NsevMexCall (nlhs : ℕ) (prhs : List MxArray) (D : ℕ) (v : ℕ → ℂ) (t x : ℕ → ℝ) (k : ℤ) (s : VGate NsevOpts) : Prop :=
  ∃ q T XI κ rest y, prhs = q :: T :: XI :: κ :: rest ∧ IsCplxRow q D v ∧ 2 ≤ D ∧ IsRow T 2 t ∧ t 0 < t 1 ∧ IsRow XI 2 x ∧ x 0 < x 1 ∧ IsNumber κ y ∧ IsSign y k ∧
    Options NsevRule rest ⟨D, D, none, false, decide (nlhs < 2), decide (nlhs < 3), nsev_default_opts⟩ s

/-- The arguments satisfy what the documentation of `fnft_nsev` and `fnft_kdvv` requires of the arrays: `D` samples, intervals, space for `M` values (`2M` for the type `AB`), for `*K_ptr` bound states and
norming constants; norming constants only together with bound states. -/
structure VPre {O : Type} (cs : O → CsType) (c : VCall O) : Prop where
  hD : 2 ≤ c.D
  hq : ∀ i, i < c.D → c.q.rd i ≠ none
  hT : c.T.1 < c.T.2
  hXI : c.XI.1 < c.XI.2
  hcs : ∀ b, c.st.contspec = some b → (if cs c.opts = .AB then 2 * c.M else c.M) ≤ b.len
  hK : ∃ K, c.st.K = some K ∧ (∀ b, c.st.bs = some b → K ≤ b.len) ∧ ∀ b, c.st.nc = some b → K ≤ b.len ∧ c.st.bs ≠ none

/-- What the documentation promises about the results: all values of the requested continuous spectrum, `*K_ptr` bound states and norming constants. -/
structure VPost {O : Type} (cs : O → CsType) (c : VCall O) (r : NsevSt) : Prop where
  hcs : c.st.contspec ≠ none → ∃ b, r.contspec = some b ∧ ∀ i, i < (if cs c.opts = .AB then 2 * c.M else c.M) → b.rd i ≠ none
  hK : ∃ K, r.K = some K ∧ (c.st.bs ≠ none → ∃ b, r.bs = some b ∧ ∀ i, i < K → b.rd i ≠ none) ∧ (c.st.nc ≠ none → ∃ b, r.nc = some b ∧ ∀ i, i < K → b.rd i ≠ none)

/-- The output is the row vector of the first `n` numbers of the array. -/
def OutRow (m : Option MxMat) (n : ℕ) (b : Option (Buf ℂ)) : Prop :=
  ∃ m' b', m = some m' ∧ b = some b' ∧ m'.rows = 1 ∧ m'.cols = n ∧ ∀ i, i < n → b'.rd i ≠ none ∧ m'.val.rd i = b'.rd i

/-- The output is `[]`. -/
def OutEmpty (m : Option MxMat) : Prop := ∃ m', m = some m' ∧ m'.rows = 0 ∧ m'.cols = 0

/-- The outputs of `mex_fnft_nsev` and `mex_fnft_kdvv` for the results `r`. -/
structure VOut {O : Type} (cs : O → CsType) (nlhs : ℕ) (s : VGate O) (r : NsevSt) (p : Plhs) : Prop where
  hlen : p.len = max nlhs 1
  h0 : if s.skipCs then OutEmpty (p.rd 0) else OutRow (p.rd 0) (if cs s.o = .AB then 2 * s.M else s.M) r.contspec
  h1 : 2 ≤ nlhs → if s.skipBs then OutEmpty (p.rd 1) else ∃ K, r.K = some K ∧ OutRow (p.rd 1) K r.bs
  h2 : 3 ≤ nlhs → if s.skipNc then OutEmpty (p.rd 2) else ∃ K, r.K = some K ∧ OutRow (p.rd 2) K r.nc

/-- The call of the C routine belongs to the inputs: samples `v`, intervals `t`, `x`, sign `k`, settings `s`. Arrays for results are there unless the result is to be skipped; initial guesses are passed as
given, otherwise there is space for `maxK` bound states. -/
structure VBelongs {O : Type} (D : ℕ) (v : ℕ → ℂ) (t x : ℕ → ℝ) (k : ℤ) (s : VGate O) (maxK : ℕ) (c : VCall O) : Prop where
  hD : c.D = D
  hq : Exactly c.q D v
  hT : c.T = (t 0, t 1)
  hXI : c.XI = (x 0, x 1)
  hk : c.kappa = k
  hM : c.M = s.M
  ho : c.opts = s.o
  hcs : c.st.contspec = none ↔ s.skipCs = true
  hg : ∀ g, s.bs = some g → c.st.bs = some g ∧ c.st.K = some s.K ∧ g.len = s.K
  hn : s.bs = none → s.skipBs = false → c.st.K = some maxK ∧ c.st.bs ≠ none
  hsk : s.bs = none → s.skipBs = true → c.st.bs = none
  hnc : c.st.nc = none ↔ s.skipNc = true

/-! ## fnft_kdvv -/

/-- Names of the discretizations in the help text. -/
def kdvvNames : List (String × KdvDisc) :=
  [("discr_modal", .D2SPLIT2_MODAL), ("discr_2split1A", .D2SPLIT1A), ("discr_2split1B", .D2SPLIT1B), ("discr_2split2A", .D2SPLIT2A),
   ("discr_2split2B", .D2SPLIT2B), ("discr_2split2S", .D2SPLIT2S), ("discr_2split3A", .D2SPLIT3A), ("discr_2split3B", .D2SPLIT3B),
   ("discr_2split3S", .D2SPLIT3S), ("discr_2split4A", .D2SPLIT4A), ("discr_2split4B", .D2SPLIT4B), ("discr_2split5A", .D2SPLIT5A),
   ("discr_2split5B", .D2SPLIT5B), ("discr_2split6A", .D2SPLIT6A), ("discr_2split6B", .D2SPLIT6B), ("discr_2split7A", .D2SPLIT7A),
   ("discr_2split7B", .D2SPLIT7B), ("discr_2split8A", .D2SPLIT8A), ("discr_2split8B", .D2SPLIT8B), ("discr_4split4A", .D4SPLIT4A),
   ("discr_4split4B", .D4SPLIT4B), ("discr_BO", .BO), ("discr_CF4_2", .CF4_2), ("discr_CF4_3", .CF4_3), ("discr_CF5_3", .CF5_3),
   ("discr_CF6_4", .CF6_4), ("discr_ES4", .ES4), ("discr_TES4", .TES4)]

/-- The groups of optional inputs of `mex_fnft_kdvv`. -/
inductive KdvvRule : List MxArray → VGate KdvvOpts → VGate KdvvOpts → Prop
  | M {a b s x} : IsText a "M" → IsNumber b x → 0 ≤ x → KdvvRule [a, b] s { s with M := ⌊x⌋₊ }
  | newton {a b s n v g} : IsText a "bsloc_newton" → IsCplxRow b n v → 1 ≤ n → Exactly g n v →
      KdvvRule [a, b] s { s with K := n, bs := some g, o := { s.o with loc := .NEWTON } }
  | gridsearch {a s} : IsText a "bsloc_gridsearch_refine" → KdvvRule [a] s { s with o := { s.o with loc := .GRIDSEARCH_AND_REFINE } }
  | niter {a b s x} : IsText a "bsloc_niter" → IsNumber b x → 0 ≤ x → KdvvRule [a, b] s { s with o := { s.o with niter := ⌊x⌋₊ } }
  | spacing {a b s x} : IsText a "grid_spacing" → IsNumber b x → 0 < x → KdvvRule [a, b] s { s with o := { s.o with grid_spacing := x } }
  | re {a s} : IsText a "RE" → KdvvRule [a] s { s with o := { s.o with rich := 1 } }
  | residues {a s} : IsText a "dstype_residues" → KdvvRule [a] s { s with o := { s.o with ds := .RESIDUES } }
  | ab {a s} : IsText a "cstype_ab" → KdvvRule [a] s { s with o := { s.o with cs := .AB } }
  | skipCs {a s} : IsText a "skip_cs" → KdvvRule [a] s { s with skipCs := true }
  | skipBs {a s} : IsText a "skip_bs" → KdvvRule [a] s { s with skipBs := true, skipNc := true }
  | skipNc {a s} : IsText a "skip_nc" → KdvvRule [a] s { s with skipNc := true }
  | skipNorm {a s} : IsText a "skip_normalization" → KdvvRule [a] s { s with o := { s.o with nrm := false } }
  | quiet {a s} : IsText a "quiet" → KdvvRule [a] s s
  | disc {a s name d} : IsText a name → (name, d) ∈ kdvvNames → KdvvRule [a] s { s with o := { s.o with disc := d } }

/-- `[..] = mex_fnft_kdvv(q, T, XI, ...)` with `nlhs` outputs is a correct call: `q` are the `D ≥ 2` real samples `v`, `T` and `XI` intervals, and the optional inputs
change the default settings into `s`. -/
def KdvvMexCall (nlhs : ℕ) (prhs : List MxArray) (D : ℕ) (v : ℕ → ℝ) (t x : ℕ → ℝ) (s : VGate KdvvOpts) : Prop :=
  ∃ q T XI rest, prhs = q :: T :: XI :: rest ∧ IsRow q D v ∧ q.cplx = false ∧ 2 ≤ D ∧ IsRow T 2 t ∧ t 0 < t 1 ∧ IsRow XI 2 x ∧ x 0 < x 1 ∧
    Options KdvvRule rest ⟨D, D, none, false, decide (nlhs < 2), decide (nlhs < 3), kdvv_default_opts⟩ s

/-! ## fnft_manakovv -/

/-- Names of the discretizations in the help text. The last one is not mentioned there, but accepted. -/
def manNames : List (String × ManDisc) :=
  [("discr_2split3A", .D2SPLIT3A), ("discr_2split3B", .D2SPLIT3B), ("discr_2split4A", .D2SPLIT4A), ("discr_2split4B", .D2SPLIT4B), ("discr_2split6B", .D2SPLIT6B),
   ("discr_4split4A", .D4SPLIT4A), ("discr_4split4B", .D4SPLIT4B), ("discr_4split6B", .D4SPLIT6B), ("discr_FTES4_4A", .FTES4_4A),
   ("discr_FTES4_suzuki", .FTES4_suzuki), ("discr_BO", .BO), ("discr_CF4_2", .CF4_2), ("discr_FTES4_4B", .FTES4_4B)]

/-- The groups of optional inputs of `mex_fnft_manakovv`. -/
inductive ManRule : List MxArray → ManGate → ManGate → Prop
  | M {a b s x} : IsText a "M" → IsNumber b x → 0 ≤ x → ManRule [a, b] s { s with M := ⌊x⌋₊ }
  | re {a s} : IsText a "RE" → ManRule [a] s { s with o := { s.o with rich := 1 } }
  | ab {a s} : IsText a "cstype_ab" → ManRule [a] s { s with o := { s.o with cs := .AB } }
  | both {a s} : IsText a "cstype_both" → ManRule [a] s { s with o := { s.o with cs := .BOTH } }
  | skipBs {a s} : IsText a "skip_bs" → ManRule [a] s { s with skipBs := true }
  | skipCs {a s} : IsText a "skip_contspec" → ManRule [a] s { s with skipCs := true }
  | quiet {a s} : IsText a "quiet" → ManRule [a] s s
  | disc {a s name d} : IsText a name → (name, d) ∈ manNames → ManRule [a] s { s with o := { s.o with disc := d } }

/-- `[..] = mex_fnft_manakovv(q1, q2, T, XI, kappa, ...)` is a correct call: `q1`, `q2` are the `D ≥ 2` samples `v`, `w`, `T` and `XI` intervals, and the optional inputs
change the default settings into `s`. -/
def ManMexCall (prhs : List MxArray) (D : ℕ) (v w : ℕ → ℂ) (t x : ℕ → ℝ) (k : ℤ) (s : ManGate) : Prop :=
  ∃ q1 q2 T XI κ rest y, prhs = q1 :: q2 :: T :: XI :: κ :: rest ∧ IsCplxRow q1 D v ∧ IsCplxRow q2 D w ∧ 2 ≤ D ∧ IsRow T 2 t ∧ t 0 < t 1 ∧ IsRow XI 2 x ∧ x 0 < x 1 ∧
    IsNumber κ y ∧ IsSign y k ∧ Options ManRule rest ⟨D, false, false, manakovv_default_opts⟩ s

/-- Length of the continuous spectrum of each type. -/
def manSize (cs : CsType) (M : ℕ) : ℕ := match cs with
  | .REFLECTION_COEFFICIENT => 2 * M
  | .AB => 3 * M
  | _ => 5 * M

/-- The call of the C routine belongs to the inputs, and satisfies the documentation of `fnft_manakovv`: both signals, intervals, space for the values of the continuous spectrum and for `*K_ptr` bound states. -/
structure ManBelongs (D : ℕ) (v w : ℕ → ℂ) (t x : ℕ → ℝ) (k : ℤ) (s : ManGate) (c : ManCall) : Prop where
  hD : c.D = D
  hq1 : Exactly c.q1 D v
  hq2 : Exactly c.q2 D w
  hT : c.T = (t 0, t 1)
  hXI : c.XI = (x 0, x 1)
  hk : c.kappa = k
  hM : c.M = s.M
  ho : c.opts = s.o
  hcs : if s.skipCs then c.st.contspec = none else ∃ b, c.st.contspec = some b ∧ manSize s.o.cs s.M ≤ b.len
  hbs : if s.skipBs then c.st.bs = none else ∃ b K, c.st.bs = some b ∧ c.st.K = some K ∧ K = manakovv_max_K D (some s.o) ∧ K ≤ b.len

/-- What the documentation promises about the results. -/
structure ManPost (c : ManCall) (r : ManvSt) : Prop where
  hcs : c.st.contspec ≠ none → ∃ b, r.contspec = some b ∧ ∀ i, i < manSize c.opts.cs c.M → b.rd i ≠ none
  hbs : c.st.bs ≠ none → ∃ K b, r.K = some K ∧ r.bs = some b ∧ ∀ i, i < K → b.rd i ≠ none

/-- The outputs of `mex_fnft_manakovv` for the results `r`. -/
structure ManOut (nlhs : ℕ) (s : ManGate) (r : ManvSt) (p : Plhs) : Prop where
  hlen : p.len = max nlhs 1
  h0 : if s.skipCs then OutEmpty (p.rd 0) else OutRow (p.rd 0) (manSize s.o.cs s.M) r.contspec
  h1 : 2 ≤ nlhs → if s.skipBs then OutEmpty (p.rd 1) else ∃ K, r.K = some K ∧ OutRow (p.rd 1) K r.bs

/-! ## fnft_nsep -/

/-- A complex row vector, or `[]`. -/
def IsGuesses (a : MxArray) (n : ℕ) (v : ℕ → ℂ) : Prop := IsCplxRow a n v ∨ (a.cols = 0 ∧ n = 0)

/-- Arrays without elements have no columns (this excludes `zeros(0,n)`, see `C84_nsep_empty`). -/
def MxEmptyValid (a : MxArray) : Prop := MxValid a ∧ (a.rows * a.cols = 0 → a.cols = 0)

/-- The groups of optional inputs of `mex_fnft_nsep`. The upsampling factors belong to the degrees of the discretizations. -/
inductive NsepRule : List MxArray → NsepGate → NsepGate → Prop
  | filtNone {a s} : IsText a "filt_none" → NsepRule [a] s { s with o := { s.o with filt := .NONE } }
  | filtManual {a b s v} : IsText a "filt_manual" → IsRow b 4 v →
      NsepRule [a, b] s { s with o := { s.o with filt := .MANUAL, box := ![.num (v 0 : EReal), .num (v 1 : EReal), .num (v 2 : EReal), .num (v 3 : EReal)] } }
  | pps {a b s x} : IsText a "points_per_spine" → IsNumber b x → 0 ≤ x → NsepRule [a, b] s { s with o := { s.o with pps := ⌊x⌋₊ } }
  | phase {a b s x} : IsText a "phase_shift" → IsNumber b x → NsepRule [a, b] s { s with phase := x }
  | mixed {a s} : IsText a "loc_mixed" → NsepRule [a] s { s with o := { s.o with loc := .MIXED } }
  | subsample {a s} : IsText a "loc_subsample_and_refine" → NsepRule [a] s { s with o := { s.o with loc := .SUBSAMPLE_AND_REFINE } }
  | newton {a b c s n m v w g g'} : IsText a "loc_newton" → IsGuesses b n v → IsGuesses c m w → Exactly g n v → Exactly g' m w →
      NsepRule [a, b, c] s { s with K := n, main := some g, M := m, aux := some g', o := { s.o with loc := .NEWTON, disc := .BO } }
  | gridsearch {a s} : IsText a "loc_gridsearch" → NsepRule [a] s { s with o := { s.o with loc := .GRIDSEARCH } }
  | evals {a b s x} : IsText a "loc_max_evals" → IsNumber b x → 0 ≤ x → NsepRule [a, b] s { s with o := { s.o with max_evals := ⌊x⌋₊ } }
  | dsub {a b s x} : IsText a "loc_Dsub" → IsNumber b x → 0 ≤ x → NsepRule [a, b] s { s with o := { s.o with Dsub := ⌊x⌋₊ } }
  | skipNorm {a s} : IsText a "skip_normalization" → NsepRule [a] s { s with o := { s.o with nrm := false } }
  | quiet {a s} : IsText a "quiet" → NsepRule [a] s s
  | modal {a s} : IsText a "discr_modal" → NsepRule [a] s { s with o := { s.o with disc := .D2SPLIT2_MODAL } }
  | s2A {a s} : IsText a "discr_2split2A" → NsepRule [a] s { s with o := { s.o with disc := .D2SPLIT2A } }
  | s4A {a s} : IsText a "discr_2split4A" → NsepRule [a] s { s with up := 4, o := { s.o with disc := .D2SPLIT4A } }
  | s4B {a s} : IsText a "discr_2split4B" → NsepRule [a] s { s with up := 2, o := { s.o with disc := .D2SPLIT4B } }
  | f4B {a s} : IsText a "discr_4split4B" → NsepRule [a] s { s with up := 4, o := { s.o with disc := .D4SPLIT4B } }

/-- `[..] = mex_fnft_nsep(q, T, kappa, ...)` is a correct call: `q` are the samples `v`, their number `D` is a power of two and at least two, `T` is an interval, and the optional inputs
change the default settings into `s`. -/
def NsepMexCall (prhs : List MxArray) (D : ℕ) (v : ℕ → ℂ) (t : ℕ → ℝ) (k : ℤ) (s : NsepGate) : Prop :=
  ∃ q T κ rest y, prhs = q :: T :: κ :: rest ∧ IsCplxRow q D v ∧ (∃ p, 1 ≤ p ∧ D = 2 ^ p) ∧ IsRow T 2 t ∧ t 0 < t 1 ∧ IsNumber κ y ∧ IsSign y k ∧
    Options NsepRule rest ⟨D, none, D, none, 0, 1, nsep_default_opts⟩ s

/-- The call of the C routine belongs to the inputs: the samples, the interval, the settings; without Newton's method there is space for `K` points of the main and `M` points of the auxiliary spectrum; for Newton's method
the arrays contain the `K * points_per_spine` and `M` guesses. -/
structure NsepBelongs (D : ℕ) (v : ℕ → ℂ) (t : ℕ → ℝ) (k : ℤ) (s : NsepGate) (c : NsepCall) : Prop where
  hD : c.D = D
  hq : Exactly c.q D v
  hT : c.T = (t 0, t 1)
  hph : c.phase = s.phase
  hk : c.kappa = k
  ho : c.opts = s.o
  hmain : ∃ b, c.main = some b ∧ if s.o.loc = .NEWTON then s.main = some b ∧ b.len = s.K ∧ s.K = c.K * s.o.pps else c.K = s.o.pps * s.up * D + 1 ∧ b.len = c.K
  haux : ∃ b, c.aux = some b ∧ if s.o.loc = .NEWTON then s.aux = some b ∧ b.len = s.M ∧ s.M = c.M else c.M = s.up * D ∧ b.len = c.M

/-- `*K_ptr` and `*M_ptr` values have been written. -/
def NsepPost (r : NsepRet) : Prop :=
  (∃ b, r.main = some b ∧ ∀ i, i < r.K → b.rd i ≠ none) ∧ ∃ b, r.aux = some b ∧ ∀ i, i < r.M → b.rd i ≠ none

/-! ## fnft_nsev_inverse -/

/-- A complex row vector, or an array without elements. -/
def IsRowOrEmpty (a : MxArray) (n : ℕ) (v : ℕ → ℂ) : Prop := IsCplxRow a n v ∨ (a.rows * a.cols = 0 ∧ n = 0)

/-- The groups of optional inputs of `mex_fnft_nsev_inverse` for `D` samples and a continuous spectrum of length `M`. -/
inductive InvRule (D M : ℕ) : List MxArray → InvGate → InvGate → Prop
  | rho {a s} : IsText a "cstype_reflection_coefficient" → InvRule D M [a] s { s with o := { s.o with cs := .REFLECTION_COEFFICIENT } }
  | btau {a s} : IsText a "cstype_B_of_tau" → InvRule D M [a] s { s with o := { s.o with cs := .B_OF_TAU } }
  | bxi {a s} : IsText a "cstype_b_of_xi" → InvRule D M [a] s { s with o := { s.o with cs := .B_OF_XI } }
  | residues {a s} : IsText a "dstype_residues" → InvRule D M [a] s { s with o := { s.o with ds := .RESIDUES } }
  | seed {a b s w} : IsText a "csmethod_use_seed_potential_instead" → IsCplxRow b D w → M = 0 →
      InvRule D M [a, b] s { s with q0 := some b, o := { s.o with meth := .USE_SEED } }
  | refl {a s} : IsText a "csmethod_tfmatrix_contains_refl_coeff" → InvRule D M [a] s { s with o := { s.o with meth := .REFL_COEFF } }
  | ab {a s} : IsText a "csmethod_tfmatrix_contains_ab_from_iter" → InvRule D M [a] s { s with o := { s.o with meth := .AB_FROM_ITER } }
  | modal {a s} : IsText a "discr_modal" → InvRule D M [a] s { s with o := { s.o with disc := .D2SPLIT2_MODAL } }
  | over {a b s x} : IsText a "oversampling_factor" → IsNumber b x → 1 ≤ x → InvRule D M [a, b] s { s with o := { s.o with over := ⌊x⌋₊ } }
  | quiet {a s} : IsText a "quiet" → InvRule D M [a] s s

/-- `q = mex_fnft_nsev_inverse(contspec, XI, bound_states, normconsts, D, T, kappa, ...)` is a correct call. -/
def InvMexCall (prhs : List MxArray) (M : ℕ) (cs : ℕ → ℂ) (x : ℕ → ℝ) (K : ℕ) (bs nc : ℕ → ℂ) (D : ℕ) (t : ℕ → ℝ) (k : ℤ) (s : InvGate) : Prop :=
  ∃ c XI b n dd T κ rest d y, prhs = c :: XI :: b :: n :: dd :: T :: κ :: rest ∧ IsRowOrEmpty c M cs ∧ IsRow XI 2 x ∧ x 0 < x 1 ∧ IsRowOrEmpty b K bs ∧ IsRowOrEmpty n K nc ∧
    IsNumber dd d ∧ D = ⌊d⌋₊ ∧ 2 ≤ D ∧ IsRow T 2 t ∧ t 0 < t 1 ∧ IsNumber κ y ∧ IsSign y k ∧ Options (InvRule D M) rest ⟨none, inv_default_opts⟩ s

/-- The call of the C routine belongs to the inputs. Spectra that are empty are passed as NULL. -/
structure InvBelongs (M : ℕ) (cs : ℕ → ℂ) (x : ℕ → ℝ) (K : ℕ) (bs nc : ℕ → ℂ) (D : ℕ) (t : ℕ → ℝ) (k : ℤ) (s : InvGate) (c : InvCall) : Prop where
  hM : c.M = M
  hcs : if M = 0 then c.contspec = none else ∃ b, c.contspec = some b ∧ Exactly b M cs
  hXI : c.XI = (x 0, x 1)
  hK : c.K = K
  hbs : if K = 0 then c.bs = none else ∃ b, c.bs = some b ∧ Exactly b K bs
  hnc : if K = 0 then c.nc = none else ∃ b, c.nc = some b ∧ Exactly b K nc
  hD : c.D = D
  hq : c.q.len = D ∧ ∀ b w, s.q0 = some b → IsCplxRow b D w → Exactly c.q D w
  hT : c.T = (t 0, t 1)
  hk : c.kappa = k
  ho : c.opts = s.o

end FNFT.Spec

import Verif.Proofs.AknsExec
import Verif.Model.ManTab
import Mathlib.LinearAlgebra.Matrix.Notation
/-!
# A verified checker for the loop bodies of `manakov_fscatter`

The coefficients computed by a loop body and the entries of the splitting scheme are expanded into lists of
monomials with integer coefficients, which are sorted and compared inside the kernel.
-/
namespace FNFT.Refl
open FNFT

/-- Sums of monomials: power of `z`, variables, coefficient. -/
abbrev P := List (ℕ × List ℕ × ℤ)

variable (z : ℂ) (v : ℕ → ℂ)

noncomputable def evM (m : ℕ × List ℕ × ℤ) : ℂ := m.2.2 * z ^ m.1 * (m.2.1.map v).prod

noncomputable def ev : P → ℂ
  | [] => 0
  | m :: p => evM z v m + ev p

theorem ev_append (p q : P) : ev z v (p ++ q) = ev z v p + ev z v q := by
  induction p with
  | nil => simp [ev]
  | cons m p ih => simp [ev, ih, add_assoc]

/-- Insertion of a variable. -/
def insN (a : ℕ) : List ℕ → List ℕ
  | [] => [a]
  | b :: l => if Nat.ble a b then a :: b :: l else b :: insN a l

theorem insN_prod (a : ℕ) (l : List ℕ) : ((insN a l).map v).prod = v a * (l.map v).prod := by
  induction l with
  | nil => simp [insN]
  | cons b l ih =>
    simp only [insN]
    split_ifs
    · simp
    · simp only [List.map_cons, List.prod_cons, ih]; ring

/-- Product of monomials. -/
def mulM (m m' : ℕ × List ℕ × ℤ) : ℕ × List ℕ × ℤ := (m.1 + m'.1, m.2.1.foldr insN m'.2.1, m.2.2 * m'.2.2)

theorem foldr_insN (l l' : List ℕ) : ((l.foldr insN l').map v).prod = (l.map v).prod * (l'.map v).prod := by
  induction l with
  | nil => simp
  | cons a l ih => simp [insN_prod, ih, mul_assoc]

theorem evM_mulM (m m' : ℕ × List ℕ × ℤ) : evM z v (mulM m m') = evM z v m * evM z v m' := by
  simp only [evM, mulM, foldr_insN, pow_add]; push_cast; ring

def mul1 (m : ℕ × List ℕ × ℤ) : P → P
  | [] => []
  | m' :: q => mulM m m' :: mul1 m q

theorem ev_mul1 (m : ℕ × List ℕ × ℤ) (q : P) : ev z v (mul1 m q) = evM z v m * ev z v q := by
  induction q with
  | nil => simp [mul1, ev]
  | cons m' q ih => simp only [mul1, ev, evM_mulM, ih]; ring

def mul : P → P → P
  | [], _ => []
  | m :: p, q => mul1 m q ++ mul p q

theorem ev_mul (p q : P) : ev z v (mul p q) = ev z v p * ev z v q := by
  induction p with
  | nil => simp [mul, ev]
  | cons m p ih => simp only [mul, ev, ev_append, ev_mul1, ih]; ring

/-- Multiplication by an integer. -/
def smul (c : ℤ) (p : P) : P := mul1 (0, [], c) p

theorem ev_smul (c : ℤ) (p : P) : ev z v (smul c p) = c * ev z v p := by
  rw [smul, ev_mul1]; simp [evM]

/-- Multiplication by a power of `z`. -/
def shift (k : ℕ) (p : P) : P := mul1 (k, [], 1) p

theorem ev_shift (k : ℕ) (p : P) : ev z v (shift k p) = z ^ k * ev z v p := by
  rw [shift, ev_mul1]; simp [evM]

/-- Multiplication by a variable. -/
def mulV (a : ℕ) (p : P) : P := mul1 (0, [a], 1) p

theorem ev_mulV (a : ℕ) (p : P) : ev z v (mulV a p) = v a * ev z v p := by
  rw [mulV, ev_mul1]; simp [evM]

/-! ## Sorting -/

/-- Sorting key of a monomial. -/
def key (m : ℕ × List ℕ × ℤ) : ℕ := m.2.1.foldl (fun k a => 64 * k + a + 1) m.1

def merge : ℕ → P → P → P
  | 0, p, q => p ++ q
  | _ + 1, [], q => q
  | _ + 1, p, [] => p
  | n + 1, a :: p, b :: q =>
    if Nat.ble (key a) (key b) then a :: merge n p (b :: q) else b :: merge n (a :: p) q

theorem ev_merge (n : ℕ) (p q : P) : ev z v (merge n p q) = ev z v p + ev z v q := by
  induction n generalizing p q with
  | zero => exact ev_append z v p q
  | succ n ih =>
    cases p with
    | nil => simp [merge, ev]
    | cons a p =>
      cases q with
      | nil => simp [merge, ev]
      | cons b q =>
        simp only [merge]
        split_ifs
        · simp only [ev, ih]; ring
        · simp only [ev, ih]; ring

/-- Splits a list into two. -/
def halve : P → P × P
  | [] => ([], [])
  | [a] => ([a], [])
  | a :: b :: l => let h := halve l; (a :: h.1, b :: h.2)

theorem ev_halve (p : P) : ev z v (halve p).1 + ev z v (halve p).2 = ev z v p := by
  induction p using halve.induct with
  | case1 => simp [halve, ev]
  | case2 a => simp [halve, ev]
  | case3 a b l ih => simp only [halve, ev, ← ih]; ring

def msort : ℕ → P → P
  | 0, p => p
  | _ + 1, [] => []
  | _ + 1, [a] => [a]
  | n + 1, p => let h := halve p; merge p.length (msort n h.1) (msort n h.2)

theorem ev_msort (n : ℕ) (p : P) : ev z v (msort n p) = ev z v p := by
  induction n generalizing p with
  | zero => simp [msort]
  | succ n ih =>
    match p with
    | [] => simp [msort]
    | [a] => simp [msort]
    | a :: b :: l => simp only [msort, ev_merge, ih, ev_halve]

/-- Adds up runs of equal monomials and checks that every sum vanishes; `c` is the sum of the run of `m`. -/
def runZero (m : ℕ × List ℕ) (c : ℤ) : P → Bool
  | [] => c == 0
  | a :: p => if a.1 == m.1 && a.2.1 == m.2 then runZero m (c + a.2.2) p
    else c == 0 && runZero (a.1, a.2.1) a.2.2 p

theorem runZero_sound (m : ℕ × List ℕ) (c : ℤ) (p : P) (h : runZero m c p = true) :
    evM z v (m.1, m.2, c) + ev z v p = 0 := by
  induction p generalizing m c with
  | nil => simp only [runZero, beq_iff_eq] at h; simp [h, ev, evM]
  | cons a p ih =>
    simp only [runZero] at h
    split_ifs at h with hc
    · simp only [Bool.and_eq_true, beq_iff_eq] at hc
      have := ih _ _ h
      rw [ev, ← add_assoc, ← this]
      congr 1
      simp only [evM, hc.1, hc.2]; push_cast; ring
    · simp only [Bool.and_eq_true, beq_iff_eq] at h
      have := ih _ _ h.2
      rw [ev]
      simp only at this
      rw [show (a.1, a.2.1, a.2.2) = a from rfl] at this
      rw [this, h.1]; simp [evM]

/-- The polynomial is zero. -/
def isZero (p : P) : Bool := runZero (0, []) 0 (msort p.length p)

theorem isZero_sound {p : P} (h : isZero p = true) : ev z v p = 0 := by
  have := runZero_sound z v _ _ _ h
  rw [ev_msort] at this
  simpa [evM] using this

/-! ## Loop bodies -/

/-- `K` times an expression. -/
def exP : ℕ → Ex → Option P
  | K, .num n => some [(0, [], K * n)]
  | K, .e s c => if c < 9 then some [(0, [9 * s + c], K)] else none
  | _, .p _ _ => none
  | K, .add a b => do let p ← exP K a; let q ← exP K b; return p ++ q
  | K, .sub a b => do let p ← exP K a; let q ← exP K b; return p ++ smul (-1) q
  | K, .mul a b => do let p ← exP K a; let q ← exP 1 b; return mul p q
  | K, .div a b =>
    match b with
    | .num n => if n ≠ 0 ∧ K % n = 0 then exP (K / n) a else none
    | _ => none
  | K, .neg a => do let p ← exP K a; return smul (-1) p

/-- Variable `9*s+c` is entry `c` of matrix `s`. -/
def vars (env : ℕ → ℕ → ℂ) (i : ℕ) : ℂ := env (i / 9) (i % 9)

theorem exP_sound (env f : ℕ → ℕ → ℂ) (x : Ex) (K : ℕ) (p : P) (h : exP K x = some p) :
    ev z (vars env) p = K * x.val env f := by
  induction x generalizing K p with
  | num n =>
    simp only [exP, Option.some.injEq] at h
    subst h
    simp [ev, evM, Ex.val]
  | e s c =>
    simp only [exP] at h
    split_ifs at h with hc
    cases h
    simp only [ev, evM, Ex.val, vars, List.map_cons, List.map_nil, List.prod_cons, List.prod_nil]
    rw [show (9 * s + c) / 9 = s by omega, show (9 * s + c) % 9 = c by omega]
    simp
  | p t k => simp [exP] at h
  | add a b iha ihb =>
    simp only [exP, Option.bind_eq_bind, Option.bind_eq_some_iff, Option.pure_def, Option.some.injEq] at h
    obtain ⟨p1, h1, p2, h2, rfl⟩ := h
    rw [ev_append, iha _ _ h1, ihb _ _ h2, Ex.val]; ring
  | sub a b iha ihb =>
    simp only [exP, Option.bind_eq_bind, Option.bind_eq_some_iff, Option.pure_def, Option.some.injEq] at h
    obtain ⟨p1, h1, p2, h2, rfl⟩ := h
    rw [ev_append, ev_smul, iha _ _ h1, ihb _ _ h2, Ex.val]; push_cast; ring
  | mul a b iha ihb =>
    simp only [exP, Option.bind_eq_bind, Option.bind_eq_some_iff, Option.pure_def, Option.some.injEq] at h
    obtain ⟨p1, h1, p2, h2, rfl⟩ := h
    rw [ev_mul, iha _ _ h1, ihb _ _ h2, Ex.val]; push_cast; ring
  | div a b iha ihb =>
    cases b with
    | num n =>
      simp only [exP] at h
      split_ifs at h with hc
      rw [iha _ _ h, Ex.val, Ex.val]
      obtain ⟨m, rfl⟩ := Nat.dvd_of_mod_eq_zero hc.2
      rw [Nat.mul_div_cancel_left _ (Nat.pos_of_ne_zero hc.1)]
      have : (n : ℂ) ≠ 0 := by exact_mod_cast hc.1
      push_cast
      field_simp
    | _ => simp [exP] at h
  | neg a iha =>
    simp only [exP, Option.bind_eq_bind, Option.bind_eq_some_iff, Option.pure_def, Option.some.injEq] at h
    obtain ⟨p1, h1, rfl⟩ := h
    rw [ev_smul, iha _ _ h1, Ex.val]; push_cast; ring

/-- `K` times the polynomial `t` of a loop body. -/
def tabP (K deg t : ℕ) : List Asg → Option P
  | [] => some []
  | a :: l => do
    let q ← tabP K deg t l
    let p ← exP K a.rhs
    return if a.t == t then shift (deg - a.k) p ++ q else q

theorem tabP_sound (env : ℕ → ℕ → ℂ) (K deg t : ℕ) (l : List Asg) (acc : List (ℕ × ℕ × ℂ)) (p : P)
    (h : tabP K deg t l = some p) :
    K * sumT t (fun k => z ^ (deg - k)) (runVals env l acc) =
      ev z (vars env) p + K * sumT t (fun k => z ^ (deg - k)) acc := by
  induction l generalizing acc p with
  | nil =>
    simp only [tabP, Option.some.injEq] at h
    subst h
    simp [runVals, ev]
  | cons a l ih =>
    simp only [tabP, Option.bind_eq_bind, Option.bind_eq_some_iff, Option.pure_def, Option.some.injEq] at h
    obtain ⟨q, h1, p1, h2, rfl⟩ := h
    rw [runVals, ih _ _ h1, sumT]
    by_cases ht : a.t = t
    · simp only [ht, beq_self_eq_true, if_true, ev_append, ev_shift, exP_sound z env (look acc) _ _ _ h2]; ring
    · simp only [ht, beq_iff_eq, if_false, zero_add]

/-! ## Splitting schemes -/

/-- Factors of a splitting scheme: the `s`-th matrix of the loop body, `diag(1, z^k, z^k)`, `diag(z^k, 1, 1)`. -/
inductive Fac
  | B (s : ℕ)
  | A (k : ℕ)
  | An (k : ℕ)

abbrev M3 := Matrix (Fin 3) (Fin 3) ℂ

/-- Matrix stored row by row. -/
def matOf (e : ℕ → ℂ) : M3 := Matrix.of fun i j => e (3 * i + j)

def facM (z : ℂ) (env : ℕ → ℕ → ℂ) : Fac → M3
  | .B s => matOf (env s)
  | .A k => Matrix.diagonal ![1, z ^ k, z ^ k]
  | .An k => Matrix.diagonal ![z ^ k, 1, 1]

/-- Entry `(i,j)` of a product of factors. -/
def entry : List Fac → ℕ → ℕ → P
  | [], i, j => if i == j then [(0, [], 1)] else []
  | .B s :: l, i, j => mulV (9 * s + (3 * i + 0)) (entry l 0 j) ++ (mulV (9 * s + (3 * i + 1)) (entry l 1 j) ++
      mulV (9 * s + (3 * i + 2)) (entry l 2 j))
  | .A k :: l, i, j => shift (if i == 0 then 0 else k) (entry l i j)
  | .An k :: l, i, j => shift (if i == 0 then k else 0) (entry l i j)

theorem entry_sound (env : ℕ → ℕ → ℂ) (l : List Fac) (i j : Fin 3) :
    ev z (vars env) (entry l i j) = (l.map (facM z env)).prod i j := by
  induction l generalizing i with
  | nil =>
    rw [List.map_nil, List.prod_nil, entry]
    by_cases h : i = j
    · subst h; simp [ev, evM]
    · have : ¬ (i : ℕ) = j := fun hh => h (Fin.ext hh)
      simp [ev, this, h]
  | cons a l ih =>
    rw [List.map_cons, List.prod_cons]
    cases a with
    | B s =>
      have e0 := ih 0
      have e1 := ih 1
      have e2 := ih 2
      simp only [Fin.val_zero, Fin.val_one, Fin.val_two] at e0 e1 e2
      have hv : ∀ k < 3, vars env (9 * s + (3 * (i : ℕ) + k)) = env s (3 * i + k) := by
        intro k hk
        have := i.2
        rw [vars, show (9 * s + (3 * (i : ℕ) + k)) / 9 = s by omega, show (9 * s + (3 * (i : ℕ) + k)) % 9 = 3 * i + k by omega]
      rw [entry, ev_append, ev_append, ev_mulV, ev_mulV, ev_mulV, hv 0 (by omega), hv 1 (by omega), hv 2 (by omega), e0, e1, e2,
        Matrix.mul_apply, Fin.sum_univ_three]
      simp [facM, matOf]
      ring
    | A k =>
      rw [entry, ev_shift, ih, facM, Matrix.diagonal_mul]
      fin_cases i <;> simp
    | An k =>
      rw [entry, ev_shift, ih, facM, Matrix.diagonal_mul]
      fin_cases i <;> simp

/-- `-∑ c * entry`. -/
def combP (comb : List (ℤ × List Fac)) (i j : ℕ) : P :=
  match comb with
  | [] => []
  | (c, l) :: r => smul (-c) (entry l i j) ++ combP r i j

/-- Linear combination of products of factors. -/
def combM (z : ℂ) (env : ℕ → ℕ → ℂ) (comb : List (ℤ × List Fac)) : M3 :=
  match comb with
  | [] => 0
  | (c, l) :: r => (c : ℂ) • (l.map (facM z env)).prod + combM z env r

theorem combP_sound (env : ℕ → ℕ → ℂ) (comb : List (ℤ × List Fac)) (i j : Fin 3) :
    ev z (vars env) (combP comb i j) = - combM z env comb i j := by
  induction comb with
  | nil => simp [combP, ev, combM]
  | cons a r ih =>
    obtain ⟨c, l⟩ := a
    rw [combP, ev_append, ev_smul, entry_sound, ih, combM]
    simp only [Matrix.add_apply, Matrix.smul_apply, smul_eq_mul]
    push_cast; ring

/-- `K` times polynomial `3*i+j` of the loop body is the `(i,j)` entry of the combination. -/
def chk (K deg : ℕ) (tab : Tab) (comb : List (ℤ × List Fac)) (i j : ℕ) : Bool :=
  match tabP K deg (3 * i + j) tab.asg with
  | none => false
  | some p => isZero (p ++ combP comb i j)

/-- The polynomial matrix computed by a loop body, evaluated at `z`. -/
noncomputable def tabMat3 (tab : Tab) (deg : ℕ) (e : ℕ → ℕ → ℂ) (z : ℂ) : M3 :=
  Matrix.of fun i j => sumT (3 * i + j) (fun k => z ^ (deg - k)) (runVals e tab.asg [])

theorem chk_sound (K deg : ℕ) (tab : Tab) (comb : List (ℤ × List Fac))
    (h : ((List.range 3).all fun i => (List.range 3).all fun j => chk K deg tab comb i j) = true)
    (env : ℕ → ℕ → ℂ) : (K : ℂ) • tabMat3 tab deg env z = combM z env comb := by
  ext i j
  simp only [List.all_eq_true, List.mem_range] at h
  have h' := h i i.2 j j.2
  rw [chk] at h'
  split at h'
  · cases h'
  · next p hp =>
    have e1 := isZero_sound z (vars env) h'
    rw [ev_append, combP_sound] at e1
    have e2 := tabP_sound z env K deg _ _ [] p hp
    simp only [tabMat3, Matrix.smul_apply, Matrix.of_apply, smul_eq_mul]
    rw [e2, sumT]
    linear_combination e1

end FNFT.Refl

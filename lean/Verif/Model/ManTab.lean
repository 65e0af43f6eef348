import Verif.Model.AknsTypes
/-!
# Sample loops of `manakov_fscatter`

Generated from /repo/src/private/fnft__manakov_fscatter.c by tools/gen_manakov.py: every statement
`pXY[k] = rhs;` of every loop body, in program order. `⟨t, k, rhs⟩` stands for `pXY[k] = rhs` with
`t = 3*(X-1)+(Y-1)`; `.e s c` is entry `c` of the `s`-th matrix of the body: the matrices in `e_Bstorage`
in the order in which they are laid out, followed by `E1` and `E2`.
-/
namespace FNFT

/-- `case 2SPLIT3A` of `manakov_fscatter`, fnft__manakov_fscatter.c:207-298. -/
def manTab3A : Tab where
  zero := false
  scales := [1 / 3, 1]
  asg := [
    ⟨0, 0, 0⟩,
    ⟨0, 1, 0⟩,
    ⟨0, 2, (9 * .e 0 0 * .e 0 1 * .e 0 3) / 8 + (9 * .e 0 0 * .e 0 2 * .e 0 6) / 8 + (9 * .e 0 1 * .e 0 3 * .e 0 4) / 8 + (9 * .e 0 1 * .e 0 5 * .e 0 6) / 8 + (9 * .e 0 2 * .e 0 3 * .e 0 7) / 8 + (9 * .e 0 2 * .e 0 6 * .e 0 8) / 8⟩,
    ⟨0, 3, 0⟩,
    ⟨0, 4, 0⟩,
    ⟨0, 5, 0⟩,
    ⟨0, 6, (9 * .e 0 0 * .e 0 0 * .e 0 0) / 8 - .e 1 0 / 8 + (9 * .e 0 0 * .e 0 1 * .e 0 3) / 8 + (9 * .e 0 0 * .e 0 2 * .e 0 6) / 8⟩,
    ⟨1, 0, 0⟩,
    ⟨1, 1, 0⟩,
    ⟨1, 2, (9 * .e 0 1 * .e 0 4 * .e 0 4) / 8 + (9 * .e 0 0 * .e 0 1 * .e 0 4) / 8 + (9 * .e 0 0 * .e 0 2 * .e 0 7) / 8 + (9 * .e 0 1 * .e 0 5 * .e 0 7) / 8 + (9 * .e 0 2 * .e 0 4 * .e 0 7) / 8 + (9 * .e 0 2 * .e 0 7 * .e 0 8) / 8⟩,
    ⟨1, 3, 0⟩,
    ⟨1, 4, 0⟩,
    ⟨1, 5, 0⟩,
    ⟨1, 6, (9 * .e 0 0 * .e 0 0 * .e 0 1) / 8 + (9 * .e 0 3 * .e 0 1 * .e 0 1) / 8 + (9 * .e 0 2 * .e 0 6 * .e 0 1) / 8 - .e 1 1 / 8⟩,
    ⟨2, 0, 0⟩,
    ⟨2, 1, 0⟩,
    ⟨2, 2, (9 * .e 0 2 * .e 0 8 * .e 0 8) / 8 + (9 * .e 0 0 * .e 0 1 * .e 0 5) / 8 + (9 * .e 0 0 * .e 0 2 * .e 0 8) / 8 + (9 * .e 0 1 * .e 0 4 * .e 0 5) / 8 + (9 * .e 0 1 * .e 0 5 * .e 0 8) / 8 + (9 * .e 0 2 * .e 0 5 * .e 0 7) / 8⟩,
    ⟨2, 3, 0⟩,
    ⟨2, 4, 0⟩,
    ⟨2, 5, 0⟩,
    ⟨2, 6, (9 * .e 0 0 * .e 0 0 * .e 0 2) / 8 + (9 * .e 0 6 * .e 0 2 * .e 0 2) / 8 + (9 * .e 0 1 * .e 0 3 * .e 0 2) / 8 - .e 1 2 / 8⟩,
    ⟨3, 0, (9 * .e 0 1 * .e 0 3 * .e 0 3) / 8 - .e 1 3 / 8 + (9 * .e 0 3 * .e 0 4 * .e 0 4) / 8 + (9 * .e 0 2 * .e 0 3 * .e 0 6) / 8 + (9 * .e 0 3 * .e 0 5 * .e 0 7) / 8 + (9 * .e 0 4 * .e 0 5 * .e 0 6) / 8 + (9 * .e 0 5 * .e 0 6 * .e 0 8) / 8⟩,
    ⟨3, 1, 0⟩,
    ⟨3, 2, 0⟩,
    ⟨3, 3, 0⟩,
    ⟨3, 4, (9 * .e 0 0 * .e 0 0 * .e 0 3) / 8 + (9 * .e 0 0 * .e 0 3 * .e 0 4) / 8 + (9 * .e 0 0 * .e 0 5 * .e 0 6) / 8⟩,
    ⟨3, 5, 0⟩,
    ⟨3, 6, 0⟩,
    ⟨4, 0, (9 * .e 0 4 * .e 0 4 * .e 0 4) / 8 - .e 1 4 / 8 + (9 * .e 0 1 * .e 0 3 * .e 0 4) / 8 + (9 * .e 0 2 * .e 0 3 * .e 0 7) / 8 + (9 * .e 0 4 * .e 0 5 * .e 0 7) / 4 + (9 * .e 0 5 * .e 0 7 * .e 0 8) / 8⟩,
    ⟨4, 1, 0⟩,
    ⟨4, 2, 0⟩,
    ⟨4, 3, 0⟩,
    ⟨4, 4, (9 * .e 0 0 * .e 0 1 * .e 0 3) / 8 + (9 * .e 0 1 * .e 0 3 * .e 0 4) / 8 + (9 * .e 0 1 * .e 0 5 * .e 0 6) / 8⟩,
    ⟨4, 5, 0⟩,
    ⟨4, 6, 0⟩,
    ⟨5, 0, (9 * .e 0 4 * .e 0 4 * .e 0 5) / 8 + (9 * .e 0 4 * .e 0 5 * .e 0 8) / 8 + (9 * .e 0 7 * .e 0 5 * .e 0 5) / 8 + (9 * .e 0 5 * .e 0 8 * .e 0 8) / 8 + (9 * .e 0 1 * .e 0 3 * .e 0 5) / 8 + (9 * .e 0 2 * .e 0 3 * .e 0 8) / 8 - .e 1 5 / 8⟩,
    ⟨5, 1, 0⟩,
    ⟨5, 2, 0⟩,
    ⟨5, 3, 0⟩,
    ⟨5, 4, (9 * .e 0 0 * .e 0 2 * .e 0 3) / 8 + (9 * .e 0 2 * .e 0 3 * .e 0 4) / 8 + (9 * .e 0 2 * .e 0 5 * .e 0 6) / 8⟩,
    ⟨5, 5, 0⟩,
    ⟨5, 6, 0⟩,
    ⟨6, 0, (9 * .e 0 2 * .e 0 6 * .e 0 6) / 8 - .e 1 6 / 8 + (9 * .e 0 6 * .e 0 8 * .e 0 8) / 8 + (9 * .e 0 1 * .e 0 3 * .e 0 6) / 8 + (9 * .e 0 3 * .e 0 4 * .e 0 7) / 8 + (9 * .e 0 3 * .e 0 7 * .e 0 8) / 8 + (9 * .e 0 5 * .e 0 6 * .e 0 7) / 8⟩,
    ⟨6, 1, 0⟩,
    ⟨6, 2, 0⟩,
    ⟨6, 3, 0⟩,
    ⟨6, 4, (9 * .e 0 0 * .e 0 0 * .e 0 6) / 8 + (9 * .e 0 0 * .e 0 3 * .e 0 7) / 8 + (9 * .e 0 0 * .e 0 6 * .e 0 8) / 8⟩,
    ⟨6, 5, 0⟩,
    ⟨6, 6, 0⟩,
    ⟨7, 0, (9 * .e 0 4 * .e 0 4 * .e 0 7) / 8 + (9 * .e 0 4 * .e 0 7 * .e 0 8) / 8 + (9 * .e 0 1 * .e 0 6 * .e 0 4) / 8 + (9 * .e 0 5 * .e 0 7 * .e 0 7) / 8 + (9 * .e 0 7 * .e 0 8 * .e 0 8) / 8 + (9 * .e 0 2 * .e 0 6 * .e 0 7) / 8 - .e 1 7 / 8⟩,
    ⟨7, 1, 0⟩,
    ⟨7, 2, 0⟩,
    ⟨7, 3, 0⟩,
    ⟨7, 4, (9 * .e 0 0 * .e 0 1 * .e 0 6) / 8 + (9 * .e 0 1 * .e 0 3 * .e 0 7) / 8 + (9 * .e 0 1 * .e 0 6 * .e 0 8) / 8⟩,
    ⟨7, 5, 0⟩,
    ⟨7, 6, 0⟩,
    ⟨8, 0, (9 * .e 0 8 * .e 0 8 * .e 0 8) / 8 - .e 1 8 / 8 + (9 * .e 0 1 * .e 0 5 * .e 0 6) / 8 + (9 * .e 0 2 * .e 0 6 * .e 0 8) / 8 + (9 * .e 0 4 * .e 0 5 * .e 0 7) / 8 + (9 * .e 0 5 * .e 0 7 * .e 0 8) / 4⟩,
    ⟨8, 1, 0⟩,
    ⟨8, 2, 0⟩,
    ⟨8, 3, 0⟩,
    ⟨8, 4, (9 * .e 0 0 * .e 0 2 * .e 0 6) / 8 + (9 * .e 0 2 * .e 0 3 * .e 0 7) / 8 + (9 * .e 0 2 * .e 0 6 * .e 0 8) / 8⟩,
    ⟨8, 5, 0⟩,
    ⟨8, 6, 0⟩]

/-- `case 2SPLIT3B` of `manakov_fscatter`, fnft__manakov_fscatter.c:300-393. -/
def manTab3B : Tab where
  zero := false
  scales := [1 / 3, 2 / 3, 1]
  asg := [
    ⟨0, 0, 0⟩,
    ⟨0, 1, 0⟩,
    ⟨0, 2, (9 * .e 0 1 * .e 1 3) / 8 + (9 * .e 0 2 * .e 1 6) / 8⟩,
    ⟨0, 3, 0⟩,
    ⟨0, 4, 0⟩,
    ⟨0, 5, 0⟩,
    ⟨0, 6, (9 * .e 0 0 * .e 1 0) / 8 - .e 2 0 / 8⟩,
    ⟨1, 0, (9 * .e 0 1 * .e 1 4) / 8 - .e 2 1 / 8 + (9 * .e 0 2 * .e 1 7) / 8⟩,
    ⟨1, 1, 0⟩,
    ⟨1, 2, 0⟩,
    ⟨1, 3, 0⟩,
    ⟨1, 4, (9 * .e 0 0 * .e 1 1) / 8⟩,
    ⟨1, 5, 0⟩,
    ⟨1, 6, 0⟩,
    ⟨2, 0, (9 * .e 0 1 * .e 1 5) / 8 - .e 2 2 / 8 + (9 * .e 0 2 * .e 1 8) / 8⟩,
    ⟨2, 1, 0⟩,
    ⟨2, 2, 0⟩,
    ⟨2, 3, 0⟩,
    ⟨2, 4, (9 * .e 0 0 * .e 1 2) / 8⟩,
    ⟨2, 5, 0⟩,
    ⟨2, 6, 0⟩,
    ⟨3, 0, 0⟩,
    ⟨3, 1, 0⟩,
    ⟨3, 2, (9 * .e 0 4 * .e 1 3) / 8 + (9 * .e 0 5 * .e 1 6) / 8⟩,
    ⟨3, 3, 0⟩,
    ⟨3, 4, 0⟩,
    ⟨3, 5, 0⟩,
    ⟨3, 6, (9 * .e 0 3 * .e 1 0) / 8 - .e 2 3 / 8⟩,
    ⟨4, 0, (9 * .e 0 4 * .e 1 4) / 8 - .e 2 4 / 8 + (9 * .e 0 5 * .e 1 7) / 8⟩,
    ⟨4, 1, 0⟩,
    ⟨4, 2, 0⟩,
    ⟨4, 3, 0⟩,
    ⟨4, 4, (9 * .e 0 3 * .e 1 1) / 8⟩,
    ⟨4, 5, 0⟩,
    ⟨4, 6, 0⟩,
    ⟨5, 0, (9 * .e 0 4 * .e 1 5) / 8 - .e 2 5 / 8 + (9 * .e 0 5 * .e 1 8) / 8⟩,
    ⟨5, 1, 0⟩,
    ⟨5, 2, 0⟩,
    ⟨5, 3, 0⟩,
    ⟨5, 4, (9 * .e 0 3 * .e 1 2) / 8⟩,
    ⟨5, 5, 0⟩,
    ⟨5, 6, 0⟩,
    ⟨6, 0, 0⟩,
    ⟨6, 1, 0⟩,
    ⟨6, 2, (9 * .e 0 7 * .e 1 3) / 8 + (9 * .e 0 8 * .e 1 6) / 8⟩,
    ⟨6, 3, 0⟩,
    ⟨6, 4, 0⟩,
    ⟨6, 5, 0⟩,
    ⟨6, 6, (9 * .e 0 6 * .e 1 0) / 8 - .e 2 6 / 8⟩,
    ⟨7, 0, (9 * .e 0 7 * .e 1 4) / 8 - .e 2 7 / 8 + (9 * .e 0 8 * .e 1 7) / 8⟩,
    ⟨7, 1, 0⟩,
    ⟨7, 2, 0⟩,
    ⟨7, 3, 0⟩,
    ⟨7, 4, (9 * .e 0 6 * .e 1 1) / 8⟩,
    ⟨7, 5, 0⟩,
    ⟨7, 6, 0⟩,
    ⟨8, 0, (9 * .e 0 7 * .e 1 5) / 8 - .e 2 8 / 8 + (9 * .e 0 8 * .e 1 8) / 8⟩,
    ⟨8, 1, 0⟩,
    ⟨8, 2, 0⟩,
    ⟨8, 3, 0⟩,
    ⟨8, 4, (9 * .e 0 6 * .e 1 2) / 8⟩,
    ⟨8, 5, 0⟩,
    ⟨8, 6, 0⟩]

/-- `case 4SPLIT4A, 2SPLIT4A` of `manakov_fscatter`, fnft__manakov_fscatter.c:394-504. -/
def manTab4A : Tab where
  zero := false
  scales := [1 / 2, 1]
  asg := [
    ⟨0, 0, 0⟩,
    ⟨0, 1, 0⟩,
    ⟨0, 2, 0⟩,
    ⟨0, 3, 0⟩,
    ⟨0, 4, (4 * .e 0 1 * .e 0 3) / 3 + (4 * .e 0 2 * .e 0 6) / 3⟩,
    ⟨0, 5, 0⟩,
    ⟨0, 6, 0⟩,
    ⟨0, 7, 0⟩,
    ⟨0, 8, (4 * .e 0 0 * .e 0 0) / 3 - .e 1 0 / 3⟩,
    ⟨1, 0, 0⟩,
    ⟨1, 1, 0⟩,
    ⟨1, 2, (4 * .e 0 1 * .e 0 4) / 3 + (4 * .e 0 2 * .e 0 7) / 3⟩,
    ⟨1, 3, 0⟩,
    ⟨1, 4, -.e 1 1 / 3⟩,
    ⟨1, 5, 0⟩,
    ⟨1, 6, (4 * .e 0 0 * .e 0 1) / 3⟩,
    ⟨1, 7, 0⟩,
    ⟨1, 8, 0⟩,
    ⟨2, 0, 0⟩,
    ⟨2, 1, 0⟩,
    ⟨2, 2, (4 * .e 0 1 * .e 0 5) / 3 + (4 * .e 0 2 * .e 0 8) / 3⟩,
    ⟨2, 3, 0⟩,
    ⟨2, 4, -.e 1 2 / 3⟩,
    ⟨2, 5, 0⟩,
    ⟨2, 6, (4 * .e 0 0 * .e 0 2) / 3⟩,
    ⟨2, 7, 0⟩,
    ⟨2, 8, 0⟩,
    ⟨3, 0, 0⟩,
    ⟨3, 1, 0⟩,
    ⟨3, 2, (4 * .e 0 3 * .e 0 4) / 3 + (4 * .e 0 5 * .e 0 6) / 3⟩,
    ⟨3, 3, 0⟩,
    ⟨3, 4, -.e 1 3 / 3⟩,
    ⟨3, 5, 0⟩,
    ⟨3, 6, (4 * .e 0 0 * .e 0 3) / 3⟩,
    ⟨3, 7, 0⟩,
    ⟨3, 8, 0⟩,
    ⟨4, 0, (4 * .e 0 4 * .e 0 4) / 3 - .e 1 4 / 3 + (4 * .e 0 5 * .e 0 7) / 3⟩,
    ⟨4, 1, 0⟩,
    ⟨4, 2, 0⟩,
    ⟨4, 3, 0⟩,
    ⟨4, 4, (4 * .e 0 1 * .e 0 3) / 3⟩,
    ⟨4, 5, 0⟩,
    ⟨4, 6, 0⟩,
    ⟨4, 7, 0⟩,
    ⟨4, 8, 0⟩,
    ⟨5, 0, (4 * .e 0 4 * .e 0 5) / 3 - .e 1 5 / 3 + (4 * .e 0 5 * .e 0 8) / 3⟩,
    ⟨5, 1, 0⟩,
    ⟨5, 2, 0⟩,
    ⟨5, 3, 0⟩,
    ⟨5, 4, (4 * .e 0 2 * .e 0 3) / 3⟩,
    ⟨5, 5, 0⟩,
    ⟨5, 6, 0⟩,
    ⟨5, 7, 0⟩,
    ⟨5, 8, 0⟩,
    ⟨6, 0, 0⟩,
    ⟨6, 1, 0⟩,
    ⟨6, 2, (4 * .e 0 3 * .e 0 7) / 3 + (4 * .e 0 6 * .e 0 8) / 3⟩,
    ⟨6, 3, 0⟩,
    ⟨6, 4, -.e 1 6 / 3⟩,
    ⟨6, 5, 0⟩,
    ⟨6, 6, (4 * .e 0 0 * .e 0 6) / 3⟩,
    ⟨6, 7, 0⟩,
    ⟨6, 8, 0⟩,
    ⟨7, 0, (4 * .e 0 4 * .e 0 7) / 3 - .e 1 7 / 3 + (4 * .e 0 7 * .e 0 8) / 3⟩,
    ⟨7, 1, 0⟩,
    ⟨7, 2, 0⟩,
    ⟨7, 3, 0⟩,
    ⟨7, 4, (4 * .e 0 1 * .e 0 6) / 3⟩,
    ⟨7, 5, 0⟩,
    ⟨7, 6, 0⟩,
    ⟨7, 7, 0⟩,
    ⟨7, 8, 0⟩,
    ⟨8, 0, (4 * .e 0 8 * .e 0 8) / 3 - .e 1 8 / 3 + (4 * .e 0 5 * .e 0 7) / 3⟩,
    ⟨8, 1, 0⟩,
    ⟨8, 2, 0⟩,
    ⟨8, 3, 0⟩,
    ⟨8, 4, (4 * .e 0 2 * .e 0 6) / 3⟩,
    ⟨8, 5, 0⟩,
    ⟨8, 6, 0⟩,
    ⟨8, 7, 0⟩,
    ⟨8, 8, 0⟩]

/-- `case 4SPLIT4B, 2SPLIT4B` of `manakov_fscatter`, fnft__manakov_fscatter.c:506-580. -/
def manTab4B : Tab where
  zero := false
  scales := [1 / 2, 1 / 4]
  asg := [
    ⟨0, 0, (4 * .e 0 4 * .e 1 1 * .e 1 3) / 3 - (.e 0 2 * .e 0 6) / 3 - (.e 0 1 * .e 0 3) / 3 + (4 * .e 0 5 * .e 1 1 * .e 1 6) / 3 + (4 * .e 0 7 * .e 1 2 * .e 1 3) / 3 + (4 * .e 0 8 * .e 1 2 * .e 1 6) / 3⟩,
    ⟨0, 1, 0⟩,
    ⟨0, 2, (4 * .e 0 1 * .e 1 0 * .e 1 3) / 3 + (4 * .e 0 3 * .e 1 0 * .e 1 1) / 3 + (4 * .e 0 2 * .e 1 0 * .e 1 6) / 3 + (4 * .e 0 6 * .e 1 0 * .e 1 2) / 3⟩,
    ⟨0, 3, 0⟩,
    ⟨0, 4, -.e 0 0 * .e 0 0 / 3 + (4 * .e 0 0 * .e 1 0 * .e 1 0) / 3⟩,
    ⟨1, 0, (4 * .e 0 4 * .e 1 1 * .e 1 4) / 3 - (.e 0 2 * .e 0 7) / 3 - (.e 0 1 * .e 0 4) / 3 + (4 * .e 0 5 * .e 1 1 * .e 1 7) / 3 + (4 * .e 0 7 * .e 1 2 * .e 1 4) / 3 + (4 * .e 0 8 * .e 1 2 * .e 1 7) / 3⟩,
    ⟨1, 1, 0⟩,
    ⟨1, 2, (4 * .e 0 3 * .e 1 1 * .e 1 1) / 3 + (4 * .e 0 6 * .e 1 2 * .e 1 1) / 3 + (4 * .e 0 1 * .e 1 0 * .e 1 4) / 3 + (4 * .e 0 2 * .e 1 0 * .e 1 7) / 3⟩,
    ⟨1, 3, 0⟩,
    ⟨1, 4, (4 * .e 0 0 * .e 1 0 * .e 1 1) / 3 - (.e 0 0 * .e 0 1) / 3⟩,
    ⟨2, 0, (4 * .e 0 4 * .e 1 1 * .e 1 5) / 3 - (.e 0 2 * .e 0 8) / 3 - (.e 0 1 * .e 0 5) / 3 + (4 * .e 0 5 * .e 1 1 * .e 1 8) / 3 + (4 * .e 0 7 * .e 1 2 * .e 1 5) / 3 + (4 * .e 0 8 * .e 1 2 * .e 1 8) / 3⟩,
    ⟨2, 1, 0⟩,
    ⟨2, 2, (4 * .e 0 6 * .e 1 2 * .e 1 2) / 3 + (4 * .e 0 3 * .e 1 1 * .e 1 2) / 3 + (4 * .e 0 1 * .e 1 0 * .e 1 5) / 3 + (4 * .e 0 2 * .e 1 0 * .e 1 8) / 3⟩,
    ⟨2, 3, 0⟩,
    ⟨2, 4, (4 * .e 0 0 * .e 1 0 * .e 1 2) / 3 - (.e 0 0 * .e 0 2) / 3⟩,
    ⟨3, 0, (4 * .e 0 4 * .e 1 3 * .e 1 4) / 3 - (.e 0 5 * .e 0 6) / 3 - (.e 0 3 * .e 0 4) / 3 + (4 * .e 0 5 * .e 1 4 * .e 1 6) / 3 + (4 * .e 0 7 * .e 1 3 * .e 1 5) / 3 + (4 * .e 0 8 * .e 1 5 * .e 1 6) / 3⟩,
    ⟨3, 1, 0⟩,
    ⟨3, 2, (4 * .e 0 1 * .e 1 3 * .e 1 3) / 3 + (4 * .e 0 2 * .e 1 6 * .e 1 3) / 3 + (4 * .e 0 3 * .e 1 0 * .e 1 4) / 3 + (4 * .e 0 6 * .e 1 0 * .e 1 5) / 3⟩,
    ⟨3, 3, 0⟩,
    ⟨3, 4, (4 * .e 0 0 * .e 1 0 * .e 1 3) / 3 - (.e 0 0 * .e 0 3) / 3⟩,
    ⟨4, 0, (4 * .e 0 4 * .e 1 4 * .e 1 4) / 3 - .e 0 4 * .e 0 4 / 3 - (.e 0 5 * .e 0 7) / 3 + (4 * .e 0 5 * .e 1 4 * .e 1 7) / 3 + (4 * .e 0 7 * .e 1 4 * .e 1 5) / 3 + (4 * .e 0 8 * .e 1 5 * .e 1 7) / 3⟩,
    ⟨4, 1, 0⟩,
    ⟨4, 2, (4 * .e 0 1 * .e 1 3 * .e 1 4) / 3 + (4 * .e 0 3 * .e 1 1 * .e 1 4) / 3 + (4 * .e 0 2 * .e 1 3 * .e 1 7) / 3 + (4 * .e 0 6 * .e 1 1 * .e 1 5) / 3⟩,
    ⟨4, 3, 0⟩,
    ⟨4, 4, (4 * .e 0 0 * .e 1 1 * .e 1 3) / 3 - (.e 0 1 * .e 0 3) / 3⟩,
    ⟨5, 0, (4 * .e 0 7 * .e 1 5 * .e 1 5) / 3 - (.e 0 4 * .e 0 5) / 3 - (.e 0 5 * .e 0 8) / 3 + (4 * .e 0 4 * .e 1 4 * .e 1 5) / 3 + (4 * .e 0 5 * .e 1 4 * .e 1 8) / 3 + (4 * .e 0 8 * .e 1 5 * .e 1 8) / 3⟩,
    ⟨5, 1, 0⟩,
    ⟨5, 2, (4 * .e 0 1 * .e 1 3 * .e 1 5) / 3 + (4 * .e 0 3 * .e 1 2 * .e 1 4) / 3 + (4 * .e 0 2 * .e 1 3 * .e 1 8) / 3 + (4 * .e 0 6 * .e 1 2 * .e 1 5) / 3⟩,
    ⟨5, 3, 0⟩,
    ⟨5, 4, (4 * .e 0 0 * .e 1 2 * .e 1 3) / 3 - (.e 0 2 * .e 0 3) / 3⟩,
    ⟨6, 0, (4 * .e 0 4 * .e 1 3 * .e 1 7) / 3 - (.e 0 6 * .e 0 8) / 3 - (.e 0 3 * .e 0 7) / 3 + (4 * .e 0 5 * .e 1 6 * .e 1 7) / 3 + (4 * .e 0 7 * .e 1 3 * .e 1 8) / 3 + (4 * .e 0 8 * .e 1 6 * .e 1 8) / 3⟩,
    ⟨6, 1, 0⟩,
    ⟨6, 2, (4 * .e 0 2 * .e 1 6 * .e 1 6) / 3 + (4 * .e 0 1 * .e 1 3 * .e 1 6) / 3 + (4 * .e 0 3 * .e 1 0 * .e 1 7) / 3 + (4 * .e 0 6 * .e 1 0 * .e 1 8) / 3⟩,
    ⟨6, 3, 0⟩,
    ⟨6, 4, (4 * .e 0 0 * .e 1 0 * .e 1 6) / 3 - (.e 0 0 * .e 0 6) / 3⟩,
    ⟨7, 0, (4 * .e 0 5 * .e 1 7 * .e 1 7) / 3 - (.e 0 4 * .e 0 7) / 3 - (.e 0 7 * .e 0 8) / 3 + (4 * .e 0 4 * .e 1 4 * .e 1 7) / 3 + (4 * .e 0 7 * .e 1 4 * .e 1 8) / 3 + (4 * .e 0 8 * .e 1 7 * .e 1 8) / 3⟩,
    ⟨7, 1, 0⟩,
    ⟨7, 2, (4 * .e 0 1 * .e 1 4 * .e 1 6) / 3 + (4 * .e 0 3 * .e 1 1 * .e 1 7) / 3 + (4 * .e 0 2 * .e 1 6 * .e 1 7) / 3 + (4 * .e 0 6 * .e 1 1 * .e 1 8) / 3⟩,
    ⟨7, 3, 0⟩,
    ⟨7, 4, (4 * .e 0 0 * .e 1 1 * .e 1 6) / 3 - (.e 0 1 * .e 0 6) / 3⟩,
    ⟨8, 0, (4 * .e 0 8 * .e 1 8 * .e 1 8) / 3 - .e 0 8 * .e 0 8 / 3 - (.e 0 5 * .e 0 7) / 3 + (4 * .e 0 4 * .e 1 5 * .e 1 7) / 3 + (4 * .e 0 5 * .e 1 7 * .e 1 8) / 3 + (4 * .e 0 7 * .e 1 5 * .e 1 8) / 3⟩,
    ⟨8, 1, 0⟩,
    ⟨8, 2, (4 * .e 0 1 * .e 1 5 * .e 1 6) / 3 + (4 * .e 0 3 * .e 1 2 * .e 1 7) / 3 + (4 * .e 0 2 * .e 1 6 * .e 1 8) / 3 + (4 * .e 0 6 * .e 1 2 * .e 1 8) / 3⟩,
    ⟨8, 3, 0⟩,
    ⟨8, 4, (4 * .e 0 0 * .e 1 2 * .e 1 6) / 3 - (.e 0 2 * .e 0 6) / 3⟩]

/-- `case 4SPLIT6B, 2SPLIT6B` of `manakov_fscatter`, fnft__manakov_fscatter.c:582-732. -/
def manTab6B : Tab where
  zero := false
  scales := [1 / 2, 1 / 3, 1 / 4, 1 / 6]
  asg := [
    ⟨0, 0, (.e 0 1 * .e 0 3) / 24 + (.e 0 2 * .e 0 6) / 24 - (16 * .e 0 4 * .e 2 1 * .e 2 3) / 15 - (16 * .e 0 5 * .e 2 1 * .e 2 6) / 15 - (16 * .e 0 7 * .e 2 2 * .e 2 3) / 15 - (16 * .e 0 8 * .e 2 2 * .e 2 6) / 15 + (81 * .e 1 4 * .e 1 4 * .e 3 1 * .e 3 3) / 40 + (81 * .e 1 8 * .e 1 8 * .e 3 2 * .e 3 6) / 40 + (81 * .e 1 4 * .e 1 5 * .e 3 1 * .e 3 6) / 40 + (81 * .e 1 4 * .e 1 7 * .e 3 2 * .e 3 3) / 40 + (81 * .e 1 5 * .e 1 7 * .e 3 1 * .e 3 3) / 40 + (81 * .e 1 5 * .e 1 7 * .e 3 2 * .e 3 6) / 40 + (81 * .e 1 5 * .e 1 8 * .e 3 1 * .e 3 6) / 40 + (81 * .e 1 7 * .e 1 8 * .e 3 2 * .e 3 3) / 40⟩,
    ⟨0, 1, 0⟩,
    ⟨0, 2, 0⟩,
    ⟨0, 3, 0⟩,
    ⟨0, 4, (81 * .e 1 1 * .e 1 3 * .e 3 1 * .e 3 3) / 40 + (81 * .e 1 1 * .e 1 4 * .e 3 0 * .e 3 3) / 40 + (81 * .e 1 3 * .e 1 4 * .e 3 0 * .e 3 1) / 40 + (81 * .e 1 1 * .e 1 5 * .e 3 0 * .e 3 6) / 40 + (81 * .e 1 1 * .e 1 6 * .e 3 2 * .e 3 3) / 40 + (81 * .e 1 2 * .e 1 3 * .e 3 1 * .e 3 6) / 40 + (81 * .e 1 2 * .e 1 7 * .e 3 0 * .e 3 3) / 40 + (81 * .e 1 3 * .e 1 7 * .e 3 0 * .e 3 2) / 40 + (81 * .e 1 5 * .e 1 6 * .e 3 0 * .e 3 1) / 40 + (81 * .e 1 2 * .e 1 6 * .e 3 2 * .e 3 6) / 40 + (81 * .e 1 2 * .e 1 8 * .e 3 0 * .e 3 6) / 40 + (81 * .e 1 6 * .e 1 8 * .e 3 0 * .e 3 2) / 40⟩,
    ⟨0, 5, 0⟩,
    ⟨0, 6, -(16 * .e 0 1 * .e 2 0 * .e 2 3) / 15 - (16 * .e 0 3 * .e 2 0 * .e 2 1) / 15 - (16 * .e 0 2 * .e 2 0 * .e 2 6) / 15 - (16 * .e 0 6 * .e 2 0 * .e 2 2) / 15⟩,
    ⟨0, 7, 0⟩,
    ⟨0, 8, (81 * .e 1 1 * .e 1 3 * .e 3 0 * .e 3 0) / 40 + (81 * .e 1 2 * .e 1 6 * .e 3 0 * .e 3 0) / 40 + (81 * .e 1 0 * .e 1 1 * .e 3 0 * .e 3 3) / 40 + (81 * .e 1 0 * .e 1 3 * .e 3 0 * .e 3 1) / 40 + (81 * .e 1 0 * .e 1 2 * .e 3 0 * .e 3 6) / 40 + (81 * .e 1 0 * .e 1 6 * .e 3 0 * .e 3 2) / 40⟩,
    ⟨0, 9, 0⟩,
    ⟨0, 10, 0⟩,
    ⟨0, 11, 0⟩,
    ⟨0, 12, .e 0 0 * .e 0 0 / 24 - (16 * .e 2 0 * .e 2 0 * .e 0 0) / 15 + (81 * .e 1 0 * .e 1 0 * .e 3 0 * .e 3 0) / 40⟩,
    ⟨1, 0, (.e 0 1 * .e 0 4) / 24 + (.e 0 2 * .e 0 7) / 24 - (16 * .e 0 4 * .e 2 1 * .e 2 4) / 15 - (16 * .e 0 5 * .e 2 1 * .e 2 7) / 15 - (16 * .e 0 7 * .e 2 2 * .e 2 4) / 15 - (16 * .e 0 8 * .e 2 2 * .e 2 7) / 15 + (81 * .e 1 4 * .e 1 4 * .e 3 1 * .e 3 4) / 40 + (81 * .e 1 8 * .e 1 8 * .e 3 2 * .e 3 7) / 40 + (81 * .e 1 4 * .e 1 5 * .e 3 1 * .e 3 7) / 40 + (81 * .e 1 4 * .e 1 7 * .e 3 2 * .e 3 4) / 40 + (81 * .e 1 5 * .e 1 7 * .e 3 1 * .e 3 4) / 40 + (81 * .e 1 5 * .e 1 7 * .e 3 2 * .e 3 7) / 40 + (81 * .e 1 5 * .e 1 8 * .e 3 1 * .e 3 7) / 40 + (81 * .e 1 7 * .e 1 8 * .e 3 2 * .e 3 4) / 40⟩,
    ⟨1, 1, 0⟩,
    ⟨1, 2, 0⟩,
    ⟨1, 3, 0⟩,
    ⟨1, 4, (81 * .e 1 3 * .e 1 4 * .e 3 1 * .e 3 1) / 40 + (81 * .e 1 5 * .e 1 6 * .e 3 1 * .e 3 1) / 40 + (81 * .e 1 1 * .e 1 3 * .e 3 1 * .e 3 4) / 40 + (81 * .e 1 1 * .e 1 4 * .e 3 0 * .e 3 4) / 40 + (81 * .e 1 1 * .e 1 5 * .e 3 0 * .e 3 7) / 40 + (81 * .e 1 1 * .e 1 6 * .e 3 2 * .e 3 4) / 40 + (81 * .e 1 2 * .e 1 3 * .e 3 1 * .e 3 7) / 40 + (81 * .e 1 2 * .e 1 7 * .e 3 0 * .e 3 4) / 40 + (81 * .e 1 3 * .e 1 7 * .e 3 1 * .e 3 2) / 40 + (81 * .e 1 2 * .e 1 6 * .e 3 2 * .e 3 7) / 40 + (81 * .e 1 2 * .e 1 8 * .e 3 0 * .e 3 7) / 40 + (81 * .e 1 6 * .e 1 8 * .e 3 1 * .e 3 2) / 40⟩,
    ⟨1, 5, 0⟩,
    ⟨1, 6, -(16 * .e 0 3 * .e 2 1 * .e 2 1) / 15 - (16 * .e 0 1 * .e 2 0 * .e 2 4) / 15 - (16 * .e 0 2 * .e 2 0 * .e 2 7) / 15 - (16 * .e 0 6 * .e 2 1 * .e 2 2) / 15⟩,
    ⟨1, 7, 0⟩,
    ⟨1, 8, (81 * .e 1 0 * .e 1 3 * .e 3 1 * .e 3 1) / 40 + (81 * .e 1 0 * .e 1 1 * .e 3 0 * .e 3 4) / 40 + (81 * .e 1 1 * .e 1 3 * .e 3 0 * .e 3 1) / 40 + (81 * .e 1 0 * .e 1 2 * .e 3 0 * .e 3 7) / 40 + (81 * .e 1 0 * .e 1 6 * .e 3 1 * .e 3 2) / 40 + (81 * .e 1 2 * .e 1 6 * .e 3 0 * .e 3 1) / 40⟩,
    ⟨1, 9, 0⟩,
    ⟨1, 10, 0⟩,
    ⟨1, 11, 0⟩,
    ⟨1, 12, (81 * .e 3 0 * .e 3 1 * .e 1 0 * .e 1 0) / 40 + (.e 0 0 * .e 0 1) / 24 - (16 * .e 0 0 * .e 2 0 * .e 2 1) / 15⟩,
    ⟨2, 0, (.e 0 1 * .e 0 5) / 24 + (.e 0 2 * .e 0 8) / 24 - (16 * .e 0 4 * .e 2 1 * .e 2 5) / 15 - (16 * .e 0 5 * .e 2 1 * .e 2 8) / 15 - (16 * .e 0 7 * .e 2 2 * .e 2 5) / 15 - (16 * .e 0 8 * .e 2 2 * .e 2 8) / 15 + (81 * .e 1 4 * .e 1 4 * .e 3 1 * .e 3 5) / 40 + (81 * .e 1 8 * .e 1 8 * .e 3 2 * .e 3 8) / 40 + (81 * .e 1 4 * .e 1 5 * .e 3 1 * .e 3 8) / 40 + (81 * .e 1 4 * .e 1 7 * .e 3 2 * .e 3 5) / 40 + (81 * .e 1 5 * .e 1 7 * .e 3 1 * .e 3 5) / 40 + (81 * .e 1 5 * .e 1 7 * .e 3 2 * .e 3 8) / 40 + (81 * .e 1 5 * .e 1 8 * .e 3 1 * .e 3 8) / 40 + (81 * .e 1 7 * .e 1 8 * .e 3 2 * .e 3 5) / 40⟩,
    ⟨2, 1, 0⟩,
    ⟨2, 2, 0⟩,
    ⟨2, 3, 0⟩,
    ⟨2, 4, (81 * .e 1 3 * .e 1 7 * .e 3 2 * .e 3 2) / 40 + (81 * .e 1 6 * .e 1 8 * .e 3 2 * .e 3 2) / 40 + (81 * .e 1 1 * .e 1 3 * .e 3 1 * .e 3 5) / 40 + (81 * .e 1 1 * .e 1 4 * .e 3 0 * .e 3 5) / 40 + (81 * .e 1 3 * .e 1 4 * .e 3 1 * .e 3 2) / 40 + (81 * .e 1 1 * .e 1 5 * .e 3 0 * .e 3 8) / 40 + (81 * .e 1 1 * .e 1 6 * .e 3 2 * .e 3 5) / 40 + (81 * .e 1 2 * .e 1 3 * .e 3 1 * .e 3 8) / 40 + (81 * .e 1 2 * .e 1 7 * .e 3 0 * .e 3 5) / 40 + (81 * .e 1 5 * .e 1 6 * .e 3 1 * .e 3 2) / 40 + (81 * .e 1 2 * .e 1 6 * .e 3 2 * .e 3 8) / 40 + (81 * .e 1 2 * .e 1 8 * .e 3 0 * .e 3 8) / 40⟩,
    ⟨2, 5, 0⟩,
    ⟨2, 6, -(16 * .e 0 6 * .e 2 2 * .e 2 2) / 15 - (16 * .e 0 1 * .e 2 0 * .e 2 5) / 15 - (16 * .e 0 3 * .e 2 1 * .e 2 2) / 15 - (16 * .e 0 2 * .e 2 0 * .e 2 8) / 15⟩,
    ⟨2, 7, 0⟩,
    ⟨2, 8, (81 * .e 1 0 * .e 1 6 * .e 3 2 * .e 3 2) / 40 + (81 * .e 1 0 * .e 1 1 * .e 3 0 * .e 3 5) / 40 + (81 * .e 1 0 * .e 1 3 * .e 3 1 * .e 3 2) / 40 + (81 * .e 1 1 * .e 1 3 * .e 3 0 * .e 3 2) / 40 + (81 * .e 1 0 * .e 1 2 * .e 3 0 * .e 3 8) / 40 + (81 * .e 1 2 * .e 1 6 * .e 3 0 * .e 3 2) / 40⟩,
    ⟨2, 9, 0⟩,
    ⟨2, 10, 0⟩,
    ⟨2, 11, 0⟩,
    ⟨2, 12, (81 * .e 3 0 * .e 3 2 * .e 1 0 * .e 1 0) / 40 + (.e 0 0 * .e 0 2) / 24 - (16 * .e 0 0 * .e 2 0 * .e 2 2) / 15⟩,
    ⟨3, 0, (.e 0 3 * .e 0 4) / 24 + (.e 0 5 * .e 0 6) / 24 - (16 * .e 0 4 * .e 2 3 * .e 2 4) / 15 - (16 * .e 0 5 * .e 2 4 * .e 2 6) / 15 - (16 * .e 0 7 * .e 2 3 * .e 2 5) / 15 - (16 * .e 0 8 * .e 2 5 * .e 2 6) / 15 + (81 * .e 1 4 * .e 1 4 * .e 3 3 * .e 3 4) / 40 + (81 * .e 1 8 * .e 1 8 * .e 3 5 * .e 3 6) / 40 + (81 * .e 1 4 * .e 1 5 * .e 3 4 * .e 3 6) / 40 + (81 * .e 1 4 * .e 1 7 * .e 3 3 * .e 3 5) / 40 + (81 * .e 1 5 * .e 1 7 * .e 3 3 * .e 3 4) / 40 + (81 * .e 1 5 * .e 1 7 * .e 3 5 * .e 3 6) / 40 + (81 * .e 1 5 * .e 1 8 * .e 3 4 * .e 3 6) / 40 + (81 * .e 1 7 * .e 1 8 * .e 3 3 * .e 3 5) / 40⟩,
    ⟨3, 1, 0⟩,
    ⟨3, 2, 0⟩,
    ⟨3, 3, 0⟩,
    ⟨3, 4, (81 * .e 1 1 * .e 1 4 * .e 3 3 * .e 3 3) / 40 + (81 * .e 1 2 * .e 1 7 * .e 3 3 * .e 3 3) / 40 + (81 * .e 1 1 * .e 1 3 * .e 3 3 * .e 3 4) / 40 + (81 * .e 1 3 * .e 1 4 * .e 3 0 * .e 3 4) / 40 + (81 * .e 1 1 * .e 1 5 * .e 3 3 * .e 3 6) / 40 + (81 * .e 1 1 * .e 1 6 * .e 3 3 * .e 3 5) / 40 + (81 * .e 1 2 * .e 1 3 * .e 3 4 * .e 3 6) / 40 + (81 * .e 1 3 * .e 1 7 * .e 3 0 * .e 3 5) / 40 + (81 * .e 1 5 * .e 1 6 * .e 3 0 * .e 3 4) / 40 + (81 * .e 1 2 * .e 1 6 * .e 3 5 * .e 3 6) / 40 + (81 * .e 1 2 * .e 1 8 * .e 3 3 * .e 3 6) / 40 + (81 * .e 1 6 * .e 1 8 * .e 3 0 * .e 3 5) / 40⟩,
    ⟨3, 5, 0⟩,
    ⟨3, 6, -(16 * .e 0 1 * .e 2 3 * .e 2 3) / 15 - (16 * .e 0 3 * .e 2 0 * .e 2 4) / 15 - (16 * .e 0 2 * .e 2 3 * .e 2 6) / 15 - (16 * .e 0 6 * .e 2 0 * .e 2 5) / 15⟩,
    ⟨3, 7, 0⟩,
    ⟨3, 8, (81 * .e 1 0 * .e 1 1 * .e 3 3 * .e 3 3) / 40 + (81 * .e 1 0 * .e 1 3 * .e 3 0 * .e 3 4) / 40 + (81 * .e 1 1 * .e 1 3 * .e 3 0 * .e 3 3) / 40 + (81 * .e 1 0 * .e 1 2 * .e 3 3 * .e 3 6) / 40 + (81 * .e 1 0 * .e 1 6 * .e 3 0 * .e 3 5) / 40 + (81 * .e 1 2 * .e 1 6 * .e 3 0 * .e 3 3) / 40⟩,
    ⟨3, 9, 0⟩,
    ⟨3, 10, 0⟩,
    ⟨3, 11, 0⟩,
    ⟨3, 12, (81 * .e 3 0 * .e 3 3 * .e 1 0 * .e 1 0) / 40 + (.e 0 0 * .e 0 3) / 24 - (16 * .e 0 0 * .e 2 0 * .e 2 3) / 15⟩,
    ⟨4, 0, .e 0 4 * .e 0 4 / 24 - (16 * .e 0 4 * .e 2 4 * .e 2 4) / 15 + (81 * .e 1 4 * .e 1 4 * .e 3 4 * .e 3 4) / 40 + (.e 0 5 * .e 0 7) / 24 - (16 * .e 0 5 * .e 2 4 * .e 2 7) / 15 - (16 * .e 0 7 * .e 2 4 * .e 2 5) / 15 - (16 * .e 0 8 * .e 2 5 * .e 2 7) / 15 + (81 * .e 1 5 * .e 1 7 * .e 3 4 * .e 3 4) / 40 + (81 * .e 1 8 * .e 1 8 * .e 3 5 * .e 3 7) / 40 + (81 * .e 1 4 * .e 1 5 * .e 3 4 * .e 3 7) / 40 + (81 * .e 1 4 * .e 1 7 * .e 3 4 * .e 3 5) / 40 + (81 * .e 1 5 * .e 1 7 * .e 3 5 * .e 3 7) / 40 + (81 * .e 1 5 * .e 1 8 * .e 3 4 * .e 3 7) / 40 + (81 * .e 1 7 * .e 1 8 * .e 3 4 * .e 3 5) / 40⟩,
    ⟨4, 1, 0⟩,
    ⟨4, 2, 0⟩,
    ⟨4, 3, 0⟩,
    ⟨4, 4, (81 * .e 1 1 * .e 1 3 * .e 3 4 * .e 3 4) / 40 + (81 * .e 1 1 * .e 1 4 * .e 3 3 * .e 3 4) / 40 + (81 * .e 1 3 * .e 1 4 * .e 3 1 * .e 3 4) / 40 + (81 * .e 1 1 * .e 1 5 * .e 3 3 * .e 3 7) / 40 + (81 * .e 1 1 * .e 1 6 * .e 3 4 * .e 3 5) / 40 + (81 * .e 1 2 * .e 1 3 * .e 3 4 * .e 3 7) / 40 + (81 * .e 1 2 * .e 1 7 * .e 3 3 * .e 3 4) / 40 + (81 * .e 1 3 * .e 1 7 * .e 3 1 * .e 3 5) / 40 + (81 * .e 1 5 * .e 1 6 * .e 3 1 * .e 3 4) / 40 + (81 * .e 1 2 * .e 1 6 * .e 3 5 * .e 3 7) / 40 + (81 * .e 1 2 * .e 1 8 * .e 3 3 * .e 3 7) / 40 + (81 * .e 1 6 * .e 1 8 * .e 3 1 * .e 3 5) / 40⟩,
    ⟨4, 5, 0⟩,
    ⟨4, 6, -(16 * .e 0 1 * .e 2 3 * .e 2 4) / 15 - (16 * .e 0 3 * .e 2 1 * .e 2 4) / 15 - (16 * .e 0 2 * .e 2 3 * .e 2 7) / 15 - (16 * .e 0 6 * .e 2 1 * .e 2 5) / 15⟩,
    ⟨4, 7, 0⟩,
    ⟨4, 8, (81 * .e 1 0 * .e 1 1 * .e 3 3 * .e 3 4) / 40 + (81 * .e 1 0 * .e 1 3 * .e 3 1 * .e 3 4) / 40 + (81 * .e 1 1 * .e 1 3 * .e 3 1 * .e 3 3) / 40 + (81 * .e 1 0 * .e 1 2 * .e 3 3 * .e 3 7) / 40 + (81 * .e 1 0 * .e 1 6 * .e 3 1 * .e 3 5) / 40 + (81 * .e 1 2 * .e 1 6 * .e 3 1 * .e 3 3) / 40⟩,
    ⟨4, 9, 0⟩,
    ⟨4, 10, 0⟩,
    ⟨4, 11, 0⟩,
    ⟨4, 12, (81 * .e 3 1 * .e 3 3 * .e 1 0 * .e 1 0) / 40 + (.e 0 1 * .e 0 3) / 24 - (16 * .e 0 0 * .e 2 1 * .e 2 3) / 15⟩,
    ⟨5, 0, (.e 0 4 * .e 0 5) / 24 - (16 * .e 0 7 * .e 2 5 * .e 2 5) / 15 + (.e 0 5 * .e 0 8) / 24 - (16 * .e 0 4 * .e 2 4 * .e 2 5) / 15 - (16 * .e 0 5 * .e 2 4 * .e 2 8) / 15 - (16 * .e 0 8 * .e 2 5 * .e 2 8) / 15 + (81 * .e 1 4 * .e 1 7 * .e 3 5 * .e 3 5) / 40 + (81 * .e 1 7 * .e 1 8 * .e 3 5 * .e 3 5) / 40 + (81 * .e 1 4 * .e 1 4 * .e 3 4 * .e 3 5) / 40 + (81 * .e 1 8 * .e 1 8 * .e 3 5 * .e 3 8) / 40 + (81 * .e 1 4 * .e 1 5 * .e 3 4 * .e 3 8) / 40 + (81 * .e 1 5 * .e 1 7 * .e 3 4 * .e 3 5) / 40 + (81 * .e 1 5 * .e 1 7 * .e 3 5 * .e 3 8) / 40 + (81 * .e 1 5 * .e 1 8 * .e 3 4 * .e 3 8) / 40⟩,
    ⟨5, 1, 0⟩,
    ⟨5, 2, 0⟩,
    ⟨5, 3, 0⟩,
    ⟨5, 4, (81 * .e 1 1 * .e 1 6 * .e 3 5 * .e 3 5) / 40 + (81 * .e 1 1 * .e 1 3 * .e 3 4 * .e 3 5) / 40 + (81 * .e 1 1 * .e 1 4 * .e 3 3 * .e 3 5) / 40 + (81 * .e 1 3 * .e 1 4 * .e 3 2 * .e 3 4) / 40 + (81 * .e 1 1 * .e 1 5 * .e 3 3 * .e 3 8) / 40 + (81 * .e 1 2 * .e 1 3 * .e 3 4 * .e 3 8) / 40 + (81 * .e 1 2 * .e 1 7 * .e 3 3 * .e 3 5) / 40 + (81 * .e 1 3 * .e 1 7 * .e 3 2 * .e 3 5) / 40 + (81 * .e 1 5 * .e 1 6 * .e 3 2 * .e 3 4) / 40 + (81 * .e 1 2 * .e 1 6 * .e 3 5 * .e 3 8) / 40 + (81 * .e 1 2 * .e 1 8 * .e 3 3 * .e 3 8) / 40 + (81 * .e 1 6 * .e 1 8 * .e 3 2 * .e 3 5) / 40⟩,
    ⟨5, 5, 0⟩,
    ⟨5, 6, -(16 * .e 0 1 * .e 2 3 * .e 2 5) / 15 - (16 * .e 0 3 * .e 2 2 * .e 2 4) / 15 - (16 * .e 0 2 * .e 2 3 * .e 2 8) / 15 - (16 * .e 0 6 * .e 2 2 * .e 2 5) / 15⟩,
    ⟨5, 7, 0⟩,
    ⟨5, 8, (81 * .e 1 0 * .e 1 1 * .e 3 3 * .e 3 5) / 40 + (81 * .e 1 0 * .e 1 3 * .e 3 2 * .e 3 4) / 40 + (81 * .e 1 1 * .e 1 3 * .e 3 2 * .e 3 3) / 40 + (81 * .e 1 0 * .e 1 2 * .e 3 3 * .e 3 8) / 40 + (81 * .e 1 0 * .e 1 6 * .e 3 2 * .e 3 5) / 40 + (81 * .e 1 2 * .e 1 6 * .e 3 2 * .e 3 3) / 40⟩,
    ⟨5, 9, 0⟩,
    ⟨5, 10, 0⟩,
    ⟨5, 11, 0⟩,
    ⟨5, 12, (81 * .e 3 2 * .e 3 3 * .e 1 0 * .e 1 0) / 40 + (.e 0 2 * .e 0 3) / 24 - (16 * .e 0 0 * .e 2 2 * .e 2 3) / 15⟩,
    ⟨6, 0, (.e 0 3 * .e 0 7) / 24 + (.e 0 6 * .e 0 8) / 24 - (16 * .e 0 4 * .e 2 3 * .e 2 7) / 15 - (16 * .e 0 5 * .e 2 6 * .e 2 7) / 15 - (16 * .e 0 7 * .e 2 3 * .e 2 8) / 15 - (16 * .e 0 8 * .e 2 6 * .e 2 8) / 15 + (81 * .e 1 4 * .e 1 4 * .e 3 3 * .e 3 7) / 40 + (81 * .e 1 8 * .e 1 8 * .e 3 6 * .e 3 8) / 40 + (81 * .e 1 4 * .e 1 5 * .e 3 6 * .e 3 7) / 40 + (81 * .e 1 4 * .e 1 7 * .e 3 3 * .e 3 8) / 40 + (81 * .e 1 5 * .e 1 7 * .e 3 3 * .e 3 7) / 40 + (81 * .e 1 5 * .e 1 7 * .e 3 6 * .e 3 8) / 40 + (81 * .e 1 5 * .e 1 8 * .e 3 6 * .e 3 7) / 40 + (81 * .e 1 7 * .e 1 8 * .e 3 3 * .e 3 8) / 40⟩,
    ⟨6, 1, 0⟩,
    ⟨6, 2, 0⟩,
    ⟨6, 3, 0⟩,
    ⟨6, 4, (81 * .e 1 1 * .e 1 5 * .e 3 6 * .e 3 6) / 40 + (81 * .e 1 2 * .e 1 8 * .e 3 6 * .e 3 6) / 40 + (81 * .e 1 1 * .e 1 3 * .e 3 3 * .e 3 7) / 40 + (81 * .e 1 1 * .e 1 4 * .e 3 3 * .e 3 6) / 40 + (81 * .e 1 3 * .e 1 4 * .e 3 0 * .e 3 7) / 40 + (81 * .e 1 1 * .e 1 6 * .e 3 3 * .e 3 8) / 40 + (81 * .e 1 2 * .e 1 3 * .e 3 6 * .e 3 7) / 40 + (81 * .e 1 2 * .e 1 7 * .e 3 3 * .e 3 6) / 40 + (81 * .e 1 3 * .e 1 7 * .e 3 0 * .e 3 8) / 40 + (81 * .e 1 5 * .e 1 6 * .e 3 0 * .e 3 7) / 40 + (81 * .e 1 2 * .e 1 6 * .e 3 6 * .e 3 8) / 40 + (81 * .e 1 6 * .e 1 8 * .e 3 0 * .e 3 8) / 40⟩,
    ⟨6, 5, 0⟩,
    ⟨6, 6, -(16 * .e 0 2 * .e 2 6 * .e 2 6) / 15 - (16 * .e 0 1 * .e 2 3 * .e 2 6) / 15 - (16 * .e 0 3 * .e 2 0 * .e 2 7) / 15 - (16 * .e 0 6 * .e 2 0 * .e 2 8) / 15⟩,
    ⟨6, 7, 0⟩,
    ⟨6, 8, (81 * .e 1 0 * .e 1 2 * .e 3 6 * .e 3 6) / 40 + (81 * .e 1 0 * .e 1 1 * .e 3 3 * .e 3 6) / 40 + (81 * .e 1 0 * .e 1 3 * .e 3 0 * .e 3 7) / 40 + (81 * .e 1 1 * .e 1 3 * .e 3 0 * .e 3 6) / 40 + (81 * .e 1 0 * .e 1 6 * .e 3 0 * .e 3 8) / 40 + (81 * .e 1 2 * .e 1 6 * .e 3 0 * .e 3 6) / 40⟩,
    ⟨6, 9, 0⟩,
    ⟨6, 10, 0⟩,
    ⟨6, 11, 0⟩,
    ⟨6, 12, (81 * .e 3 0 * .e 3 6 * .e 1 0 * .e 1 0) / 40 + (.e 0 0 * .e 0 6) / 24 - (16 * .e 0 0 * .e 2 0 * .e 2 6) / 15⟩,
    ⟨7, 0, (.e 0 4 * .e 0 7) / 24 - (16 * .e 0 5 * .e 2 7 * .e 2 7) / 15 + (.e 0 7 * .e 0 8) / 24 - (16 * .e 0 4 * .e 2 4 * .e 2 7) / 15 - (16 * .e 0 7 * .e 2 4 * .e 2 8) / 15 - (16 * .e 0 8 * .e 2 7 * .e 2 8) / 15 + (81 * .e 1 4 * .e 1 5 * .e 3 7 * .e 3 7) / 40 + (81 * .e 1 5 * .e 1 8 * .e 3 7 * .e 3 7) / 40 + (81 * .e 1 4 * .e 1 4 * .e 3 4 * .e 3 7) / 40 + (81 * .e 1 8 * .e 1 8 * .e 3 7 * .e 3 8) / 40 + (81 * .e 1 4 * .e 1 7 * .e 3 4 * .e 3 8) / 40 + (81 * .e 1 5 * .e 1 7 * .e 3 4 * .e 3 7) / 40 + (81 * .e 1 5 * .e 1 7 * .e 3 7 * .e 3 8) / 40 + (81 * .e 1 7 * .e 1 8 * .e 3 4 * .e 3 8) / 40⟩,
    ⟨7, 1, 0⟩,
    ⟨7, 2, 0⟩,
    ⟨7, 3, 0⟩,
    ⟨7, 4, (81 * .e 1 2 * .e 1 3 * .e 3 7 * .e 3 7) / 40 + (81 * .e 1 1 * .e 1 3 * .e 3 4 * .e 3 7) / 40 + (81 * .e 1 1 * .e 1 4 * .e 3 4 * .e 3 6) / 40 + (81 * .e 1 3 * .e 1 4 * .e 3 1 * .e 3 7) / 40 + (81 * .e 1 1 * .e 1 5 * .e 3 6 * .e 3 7) / 40 + (81 * .e 1 1 * .e 1 6 * .e 3 4 * .e 3 8) / 40 + (81 * .e 1 2 * .e 1 7 * .e 3 4 * .e 3 6) / 40 + (81 * .e 1 3 * .e 1 7 * .e 3 1 * .e 3 8) / 40 + (81 * .e 1 5 * .e 1 6 * .e 3 1 * .e 3 7) / 40 + (81 * .e 1 2 * .e 1 6 * .e 3 7 * .e 3 8) / 40 + (81 * .e 1 2 * .e 1 8 * .e 3 6 * .e 3 7) / 40 + (81 * .e 1 6 * .e 1 8 * .e 3 1 * .e 3 8) / 40⟩,
    ⟨7, 5, 0⟩,
    ⟨7, 6, -(16 * .e 0 1 * .e 2 4 * .e 2 6) / 15 - (16 * .e 0 3 * .e 2 1 * .e 2 7) / 15 - (16 * .e 0 2 * .e 2 6 * .e 2 7) / 15 - (16 * .e 0 6 * .e 2 1 * .e 2 8) / 15⟩,
    ⟨7, 7, 0⟩,
    ⟨7, 8, (81 * .e 1 0 * .e 1 1 * .e 3 4 * .e 3 6) / 40 + (81 * .e 1 0 * .e 1 3 * .e 3 1 * .e 3 7) / 40 + (81 * .e 1 1 * .e 1 3 * .e 3 1 * .e 3 6) / 40 + (81 * .e 1 0 * .e 1 2 * .e 3 6 * .e 3 7) / 40 + (81 * .e 1 0 * .e 1 6 * .e 3 1 * .e 3 8) / 40 + (81 * .e 1 2 * .e 1 6 * .e 3 1 * .e 3 6) / 40⟩,
    ⟨7, 9, 0⟩,
    ⟨7, 10, 0⟩,
    ⟨7, 11, 0⟩,
    ⟨7, 12, (81 * .e 3 1 * .e 3 6 * .e 1 0 * .e 1 0) / 40 + (.e 0 1 * .e 0 6) / 24 - (16 * .e 0 0 * .e 2 1 * .e 2 6) / 15⟩,
    ⟨8, 0, .e 0 8 * .e 0 8 / 24 - (16 * .e 0 8 * .e 2 8 * .e 2 8) / 15 + (81 * .e 1 8 * .e 1 8 * .e 3 8 * .e 3 8) / 40 + (.e 0 5 * .e 0 7) / 24 - (16 * .e 0 4 * .e 2 5 * .e 2 7) / 15 - (16 * .e 0 5 * .e 2 7 * .e 2 8) / 15 - (16 * .e 0 7 * .e 2 5 * .e 2 8) / 15 + (81 * .e 1 5 * .e 1 7 * .e 3 8 * .e 3 8) / 40 + (81 * .e 1 4 * .e 1 4 * .e 3 5 * .e 3 7) / 40 + (81 * .e 1 4 * .e 1 5 * .e 3 7 * .e 3 8) / 40 + (81 * .e 1 4 * .e 1 7 * .e 3 5 * .e 3 8) / 40 + (81 * .e 1 5 * .e 1 7 * .e 3 5 * .e 3 7) / 40 + (81 * .e 1 5 * .e 1 8 * .e 3 7 * .e 3 8) / 40 + (81 * .e 1 7 * .e 1 8 * .e 3 5 * .e 3 8) / 40⟩,
    ⟨8, 1, 0⟩,
    ⟨8, 2, 0⟩,
    ⟨8, 3, 0⟩,
    ⟨8, 4, (81 * .e 1 2 * .e 1 6 * .e 3 8 * .e 3 8) / 40 + (81 * .e 1 1 * .e 1 3 * .e 3 5 * .e 3 7) / 40 + (81 * .e 1 1 * .e 1 4 * .e 3 5 * .e 3 6) / 40 + (81 * .e 1 3 * .e 1 4 * .e 3 2 * .e 3 7) / 40 + (81 * .e 1 1 * .e 1 5 * .e 3 6 * .e 3 8) / 40 + (81 * .e 1 1 * .e 1 6 * .e 3 5 * .e 3 8) / 40 + (81 * .e 1 2 * .e 1 3 * .e 3 7 * .e 3 8) / 40 + (81 * .e 1 2 * .e 1 7 * .e 3 5 * .e 3 6) / 40 + (81 * .e 1 3 * .e 1 7 * .e 3 2 * .e 3 8) / 40 + (81 * .e 1 5 * .e 1 6 * .e 3 2 * .e 3 7) / 40 + (81 * .e 1 2 * .e 1 8 * .e 3 6 * .e 3 8) / 40 + (81 * .e 1 6 * .e 1 8 * .e 3 2 * .e 3 8) / 40⟩,
    ⟨8, 5, 0⟩,
    ⟨8, 6, -(16 * .e 0 1 * .e 2 5 * .e 2 6) / 15 - (16 * .e 0 3 * .e 2 2 * .e 2 7) / 15 - (16 * .e 0 2 * .e 2 6 * .e 2 8) / 15 - (16 * .e 0 6 * .e 2 2 * .e 2 8) / 15⟩,
    ⟨8, 7, 0⟩,
    ⟨8, 8, (81 * .e 1 0 * .e 1 1 * .e 3 5 * .e 3 6) / 40 + (81 * .e 1 0 * .e 1 3 * .e 3 2 * .e 3 7) / 40 + (81 * .e 1 1 * .e 1 3 * .e 3 2 * .e 3 6) / 40 + (81 * .e 1 0 * .e 1 2 * .e 3 6 * .e 3 8) / 40 + (81 * .e 1 0 * .e 1 6 * .e 3 2 * .e 3 8) / 40 + (81 * .e 1 2 * .e 1 6 * .e 3 2 * .e 3 6) / 40⟩,
    ⟨8, 9, 0⟩,
    ⟨8, 10, 0⟩,
    ⟨8, 11, 0⟩,
    ⟨8, 12, (81 * .e 3 2 * .e 3 6 * .e 1 0 * .e 1 0) / 40 + (.e 0 2 * .e 0 6) / 24 - (16 * .e 0 0 * .e 2 2 * .e 2 6) / 15⟩]

/-- `case FTES4_4A` of `manakov_fscatter`, fnft__manakov_fscatter.c:734-876. -/
def manTabFTES4_4A : Tab where
  zero := false
  scales := [1 / 2, 1]
  asg := [
    ⟨0, 0, (4 * .e 0 4 * .e 0 4 * .e 2 1 * .e 3 3) / 3 - (.e 1 5 * .e 2 1 * .e 3 6) / 3 - (.e 1 7 * .e 2 2 * .e 3 3) / 3 - (.e 1 8 * .e 2 2 * .e 3 6) / 3 - (.e 1 4 * .e 2 1 * .e 3 3) / 3 + (4 * .e 0 8 * .e 0 8 * .e 2 2 * .e 3 6) / 3 + (4 * .e 0 4 * .e 0 5 * .e 2 1 * .e 3 6) / 3 + (4 * .e 0 4 * .e 0 7 * .e 2 2 * .e 3 3) / 3 + (4 * .e 0 5 * .e 0 7 * .e 2 1 * .e 3 3) / 3 + (4 * .e 0 5 * .e 0 7 * .e 2 2 * .e 3 6) / 3 + (4 * .e 0 5 * .e 0 8 * .e 2 1 * .e 3 6) / 3 + (4 * .e 0 7 * .e 0 8 * .e 2 2 * .e 3 3) / 3⟩,
    ⟨0, 1, 0⟩,
    ⟨0, 2, (4 * .e 0 1 * .e 0 4 * .e 2 0 * .e 3 3) / 3 + (4 * .e 0 3 * .e 0 4 * .e 2 1 * .e 3 0) / 3 + (4 * .e 0 1 * .e 0 5 * .e 2 0 * .e 3 6) / 3 + (4 * .e 0 2 * .e 0 7 * .e 2 0 * .e 3 3) / 3 + (4 * .e 0 3 * .e 0 7 * .e 2 2 * .e 3 0) / 3 + (4 * .e 0 5 * .e 0 6 * .e 2 1 * .e 3 0) / 3 + (4 * .e 0 2 * .e 0 8 * .e 2 0 * .e 3 6) / 3 + (4 * .e 0 6 * .e 0 8 * .e 2 2 * .e 3 0) / 3⟩,
    ⟨0, 3, 0⟩,
    ⟨0, 4, (4 * .e 0 1 * .e 0 3 * .e 2 0 * .e 3 0) / 3 - (.e 1 3 * .e 2 1 * .e 3 0) / 3 - (.e 1 2 * .e 2 0 * .e 3 6) / 3 - (.e 1 6 * .e 2 2 * .e 3 0) / 3 - (.e 1 1 * .e 2 0 * .e 3 3) / 3 + (4 * .e 0 1 * .e 0 3 * .e 2 1 * .e 3 3) / 3 + (4 * .e 0 2 * .e 0 6 * .e 2 0 * .e 3 0) / 3 + (4 * .e 0 1 * .e 0 6 * .e 2 2 * .e 3 3) / 3 + (4 * .e 0 2 * .e 0 3 * .e 2 1 * .e 3 6) / 3 + (4 * .e 0 2 * .e 0 6 * .e 2 2 * .e 3 6) / 3⟩,
    ⟨0, 5, 0⟩,
    ⟨0, 6, (4 * .e 0 0 * .e 0 1 * .e 2 0 * .e 3 3) / 3 + (4 * .e 0 0 * .e 0 3 * .e 2 1 * .e 3 0) / 3 + (4 * .e 0 0 * .e 0 2 * .e 2 0 * .e 3 6) / 3 + (4 * .e 0 0 * .e 0 6 * .e 2 2 * .e 3 0) / 3⟩,
    ⟨0, 7, 0⟩,
    ⟨0, 8, (4 * .e 2 0 * .e 3 0 * .e 0 0 * .e 0 0) / 3 - (.e 1 0 * .e 2 0 * .e 3 0) / 3⟩,
    ⟨1, 0, (4 * .e 0 4 * .e 0 4 * .e 2 1 * .e 3 4) / 3 - (.e 1 5 * .e 2 1 * .e 3 7) / 3 - (.e 1 7 * .e 2 2 * .e 3 4) / 3 - (.e 1 8 * .e 2 2 * .e 3 7) / 3 - (.e 1 4 * .e 2 1 * .e 3 4) / 3 + (4 * .e 0 8 * .e 0 8 * .e 2 2 * .e 3 7) / 3 + (4 * .e 0 4 * .e 0 5 * .e 2 1 * .e 3 7) / 3 + (4 * .e 0 4 * .e 0 7 * .e 2 2 * .e 3 4) / 3 + (4 * .e 0 5 * .e 0 7 * .e 2 1 * .e 3 4) / 3 + (4 * .e 0 5 * .e 0 7 * .e 2 2 * .e 3 7) / 3 + (4 * .e 0 5 * .e 0 8 * .e 2 1 * .e 3 7) / 3 + (4 * .e 0 7 * .e 0 8 * .e 2 2 * .e 3 4) / 3⟩,
    ⟨1, 1, 0⟩,
    ⟨1, 2, (4 * .e 0 1 * .e 0 4 * .e 2 0 * .e 3 4) / 3 + (4 * .e 0 3 * .e 0 4 * .e 2 1 * .e 3 1) / 3 + (4 * .e 0 1 * .e 0 5 * .e 2 0 * .e 3 7) / 3 + (4 * .e 0 2 * .e 0 7 * .e 2 0 * .e 3 4) / 3 + (4 * .e 0 3 * .e 0 7 * .e 2 2 * .e 3 1) / 3 + (4 * .e 0 5 * .e 0 6 * .e 2 1 * .e 3 1) / 3 + (4 * .e 0 2 * .e 0 8 * .e 2 0 * .e 3 7) / 3 + (4 * .e 0 6 * .e 0 8 * .e 2 2 * .e 3 1) / 3⟩,
    ⟨1, 3, 0⟩,
    ⟨1, 4, (4 * .e 0 1 * .e 0 3 * .e 2 0 * .e 3 1) / 3 - (.e 1 3 * .e 2 1 * .e 3 1) / 3 - (.e 1 2 * .e 2 0 * .e 3 7) / 3 - (.e 1 6 * .e 2 2 * .e 3 1) / 3 - (.e 1 1 * .e 2 0 * .e 3 4) / 3 + (4 * .e 0 1 * .e 0 3 * .e 2 1 * .e 3 4) / 3 + (4 * .e 0 2 * .e 0 6 * .e 2 0 * .e 3 1) / 3 + (4 * .e 0 1 * .e 0 6 * .e 2 2 * .e 3 4) / 3 + (4 * .e 0 2 * .e 0 3 * .e 2 1 * .e 3 7) / 3 + (4 * .e 0 2 * .e 0 6 * .e 2 2 * .e 3 7) / 3⟩,
    ⟨1, 5, 0⟩,
    ⟨1, 6, (4 * .e 0 0 * .e 0 1 * .e 2 0 * .e 3 4) / 3 + (4 * .e 0 0 * .e 0 3 * .e 2 1 * .e 3 1) / 3 + (4 * .e 0 0 * .e 0 2 * .e 2 0 * .e 3 7) / 3 + (4 * .e 0 0 * .e 0 6 * .e 2 2 * .e 3 1) / 3⟩,
    ⟨1, 7, 0⟩,
    ⟨1, 8, (4 * .e 2 0 * .e 3 1 * .e 0 0 * .e 0 0) / 3 - (.e 1 0 * .e 2 0 * .e 3 1) / 3⟩,
    ⟨2, 0, (4 * .e 0 4 * .e 0 4 * .e 2 1 * .e 3 5) / 3 - (.e 1 5 * .e 2 1 * .e 3 8) / 3 - (.e 1 7 * .e 2 2 * .e 3 5) / 3 - (.e 1 8 * .e 2 2 * .e 3 8) / 3 - (.e 1 4 * .e 2 1 * .e 3 5) / 3 + (4 * .e 0 8 * .e 0 8 * .e 2 2 * .e 3 8) / 3 + (4 * .e 0 4 * .e 0 5 * .e 2 1 * .e 3 8) / 3 + (4 * .e 0 4 * .e 0 7 * .e 2 2 * .e 3 5) / 3 + (4 * .e 0 5 * .e 0 7 * .e 2 1 * .e 3 5) / 3 + (4 * .e 0 5 * .e 0 7 * .e 2 2 * .e 3 8) / 3 + (4 * .e 0 5 * .e 0 8 * .e 2 1 * .e 3 8) / 3 + (4 * .e 0 7 * .e 0 8 * .e 2 2 * .e 3 5) / 3⟩,
    ⟨2, 1, 0⟩,
    ⟨2, 2, (4 * .e 0 1 * .e 0 4 * .e 2 0 * .e 3 5) / 3 + (4 * .e 0 3 * .e 0 4 * .e 2 1 * .e 3 2) / 3 + (4 * .e 0 1 * .e 0 5 * .e 2 0 * .e 3 8) / 3 + (4 * .e 0 2 * .e 0 7 * .e 2 0 * .e 3 5) / 3 + (4 * .e 0 3 * .e 0 7 * .e 2 2 * .e 3 2) / 3 + (4 * .e 0 5 * .e 0 6 * .e 2 1 * .e 3 2) / 3 + (4 * .e 0 2 * .e 0 8 * .e 2 0 * .e 3 8) / 3 + (4 * .e 0 6 * .e 0 8 * .e 2 2 * .e 3 2) / 3⟩,
    ⟨2, 3, 0⟩,
    ⟨2, 4, (4 * .e 0 1 * .e 0 3 * .e 2 0 * .e 3 2) / 3 - (.e 1 3 * .e 2 1 * .e 3 2) / 3 - (.e 1 2 * .e 2 0 * .e 3 8) / 3 - (.e 1 6 * .e 2 2 * .e 3 2) / 3 - (.e 1 1 * .e 2 0 * .e 3 5) / 3 + (4 * .e 0 1 * .e 0 3 * .e 2 1 * .e 3 5) / 3 + (4 * .e 0 2 * .e 0 6 * .e 2 0 * .e 3 2) / 3 + (4 * .e 0 1 * .e 0 6 * .e 2 2 * .e 3 5) / 3 + (4 * .e 0 2 * .e 0 3 * .e 2 1 * .e 3 8) / 3 + (4 * .e 0 2 * .e 0 6 * .e 2 2 * .e 3 8) / 3⟩,
    ⟨2, 5, 0⟩,
    ⟨2, 6, (4 * .e 0 0 * .e 0 1 * .e 2 0 * .e 3 5) / 3 + (4 * .e 0 0 * .e 0 3 * .e 2 1 * .e 3 2) / 3 + (4 * .e 0 0 * .e 0 2 * .e 2 0 * .e 3 8) / 3 + (4 * .e 0 0 * .e 0 6 * .e 2 2 * .e 3 2) / 3⟩,
    ⟨2, 7, 0⟩,
    ⟨2, 8, (4 * .e 2 0 * .e 3 2 * .e 0 0 * .e 0 0) / 3 - (.e 1 0 * .e 2 0 * .e 3 2) / 3⟩,
    ⟨3, 0, (4 * .e 0 4 * .e 0 4 * .e 2 4 * .e 3 3) / 3 - (.e 1 5 * .e 2 4 * .e 3 6) / 3 - (.e 1 7 * .e 2 5 * .e 3 3) / 3 - (.e 1 8 * .e 2 5 * .e 3 6) / 3 - (.e 1 4 * .e 2 4 * .e 3 3) / 3 + (4 * .e 0 8 * .e 0 8 * .e 2 5 * .e 3 6) / 3 + (4 * .e 0 4 * .e 0 5 * .e 2 4 * .e 3 6) / 3 + (4 * .e 0 4 * .e 0 7 * .e 2 5 * .e 3 3) / 3 + (4 * .e 0 5 * .e 0 7 * .e 2 4 * .e 3 3) / 3 + (4 * .e 0 5 * .e 0 7 * .e 2 5 * .e 3 6) / 3 + (4 * .e 0 5 * .e 0 8 * .e 2 4 * .e 3 6) / 3 + (4 * .e 0 7 * .e 0 8 * .e 2 5 * .e 3 3) / 3⟩,
    ⟨3, 1, 0⟩,
    ⟨3, 2, (4 * .e 0 1 * .e 0 4 * .e 2 3 * .e 3 3) / 3 + (4 * .e 0 3 * .e 0 4 * .e 2 4 * .e 3 0) / 3 + (4 * .e 0 1 * .e 0 5 * .e 2 3 * .e 3 6) / 3 + (4 * .e 0 2 * .e 0 7 * .e 2 3 * .e 3 3) / 3 + (4 * .e 0 3 * .e 0 7 * .e 2 5 * .e 3 0) / 3 + (4 * .e 0 5 * .e 0 6 * .e 2 4 * .e 3 0) / 3 + (4 * .e 0 2 * .e 0 8 * .e 2 3 * .e 3 6) / 3 + (4 * .e 0 6 * .e 0 8 * .e 2 5 * .e 3 0) / 3⟩,
    ⟨3, 3, 0⟩,
    ⟨3, 4, (4 * .e 0 1 * .e 0 3 * .e 2 3 * .e 3 0) / 3 - (.e 1 3 * .e 2 4 * .e 3 0) / 3 - (.e 1 2 * .e 2 3 * .e 3 6) / 3 - (.e 1 6 * .e 2 5 * .e 3 0) / 3 - (.e 1 1 * .e 2 3 * .e 3 3) / 3 + (4 * .e 0 1 * .e 0 3 * .e 2 4 * .e 3 3) / 3 + (4 * .e 0 2 * .e 0 6 * .e 2 3 * .e 3 0) / 3 + (4 * .e 0 1 * .e 0 6 * .e 2 5 * .e 3 3) / 3 + (4 * .e 0 2 * .e 0 3 * .e 2 4 * .e 3 6) / 3 + (4 * .e 0 2 * .e 0 6 * .e 2 5 * .e 3 6) / 3⟩,
    ⟨3, 5, 0⟩,
    ⟨3, 6, (4 * .e 0 0 * .e 0 1 * .e 2 3 * .e 3 3) / 3 + (4 * .e 0 0 * .e 0 3 * .e 2 4 * .e 3 0) / 3 + (4 * .e 0 0 * .e 0 2 * .e 2 3 * .e 3 6) / 3 + (4 * .e 0 0 * .e 0 6 * .e 2 5 * .e 3 0) / 3⟩,
    ⟨3, 7, 0⟩,
    ⟨3, 8, (4 * .e 2 3 * .e 3 0 * .e 0 0 * .e 0 0) / 3 - (.e 1 0 * .e 2 3 * .e 3 0) / 3⟩,
    ⟨4, 0, (4 * .e 0 4 * .e 0 4 * .e 2 4 * .e 3 4) / 3 - (.e 1 5 * .e 2 4 * .e 3 7) / 3 - (.e 1 7 * .e 2 5 * .e 3 4) / 3 - (.e 1 8 * .e 2 5 * .e 3 7) / 3 - (.e 1 4 * .e 2 4 * .e 3 4) / 3 + (4 * .e 0 8 * .e 0 8 * .e 2 5 * .e 3 7) / 3 + (4 * .e 0 4 * .e 0 5 * .e 2 4 * .e 3 7) / 3 + (4 * .e 0 4 * .e 0 7 * .e 2 5 * .e 3 4) / 3 + (4 * .e 0 5 * .e 0 7 * .e 2 4 * .e 3 4) / 3 + (4 * .e 0 5 * .e 0 7 * .e 2 5 * .e 3 7) / 3 + (4 * .e 0 5 * .e 0 8 * .e 2 4 * .e 3 7) / 3 + (4 * .e 0 7 * .e 0 8 * .e 2 5 * .e 3 4) / 3⟩,
    ⟨4, 1, 0⟩,
    ⟨4, 2, (4 * .e 0 1 * .e 0 4 * .e 2 3 * .e 3 4) / 3 + (4 * .e 0 3 * .e 0 4 * .e 2 4 * .e 3 1) / 3 + (4 * .e 0 1 * .e 0 5 * .e 2 3 * .e 3 7) / 3 + (4 * .e 0 2 * .e 0 7 * .e 2 3 * .e 3 4) / 3 + (4 * .e 0 3 * .e 0 7 * .e 2 5 * .e 3 1) / 3 + (4 * .e 0 5 * .e 0 6 * .e 2 4 * .e 3 1) / 3 + (4 * .e 0 2 * .e 0 8 * .e 2 3 * .e 3 7) / 3 + (4 * .e 0 6 * .e 0 8 * .e 2 5 * .e 3 1) / 3⟩,
    ⟨4, 3, 0⟩,
    ⟨4, 4, (4 * .e 0 1 * .e 0 3 * .e 2 3 * .e 3 1) / 3 - (.e 1 3 * .e 2 4 * .e 3 1) / 3 - (.e 1 2 * .e 2 3 * .e 3 7) / 3 - (.e 1 6 * .e 2 5 * .e 3 1) / 3 - (.e 1 1 * .e 2 3 * .e 3 4) / 3 + (4 * .e 0 1 * .e 0 3 * .e 2 4 * .e 3 4) / 3 + (4 * .e 0 2 * .e 0 6 * .e 2 3 * .e 3 1) / 3 + (4 * .e 0 1 * .e 0 6 * .e 2 5 * .e 3 4) / 3 + (4 * .e 0 2 * .e 0 3 * .e 2 4 * .e 3 7) / 3 + (4 * .e 0 2 * .e 0 6 * .e 2 5 * .e 3 7) / 3⟩,
    ⟨4, 5, 0⟩,
    ⟨4, 6, (4 * .e 0 0 * .e 0 1 * .e 2 3 * .e 3 4) / 3 + (4 * .e 0 0 * .e 0 3 * .e 2 4 * .e 3 1) / 3 + (4 * .e 0 0 * .e 0 2 * .e 2 3 * .e 3 7) / 3 + (4 * .e 0 0 * .e 0 6 * .e 2 5 * .e 3 1) / 3⟩,
    ⟨4, 7, 0⟩,
    ⟨4, 8, (4 * .e 2 3 * .e 3 1 * .e 0 0 * .e 0 0) / 3 - (.e 1 0 * .e 2 3 * .e 3 1) / 3⟩,
    ⟨5, 0, (4 * .e 0 4 * .e 0 4 * .e 2 4 * .e 3 5) / 3 - (.e 1 5 * .e 2 4 * .e 3 8) / 3 - (.e 1 7 * .e 2 5 * .e 3 5) / 3 - (.e 1 8 * .e 2 5 * .e 3 8) / 3 - (.e 1 4 * .e 2 4 * .e 3 5) / 3 + (4 * .e 0 8 * .e 0 8 * .e 2 5 * .e 3 8) / 3 + (4 * .e 0 4 * .e 0 5 * .e 2 4 * .e 3 8) / 3 + (4 * .e 0 4 * .e 0 7 * .e 2 5 * .e 3 5) / 3 + (4 * .e 0 5 * .e 0 7 * .e 2 4 * .e 3 5) / 3 + (4 * .e 0 5 * .e 0 7 * .e 2 5 * .e 3 8) / 3 + (4 * .e 0 5 * .e 0 8 * .e 2 4 * .e 3 8) / 3 + (4 * .e 0 7 * .e 0 8 * .e 2 5 * .e 3 5) / 3⟩,
    ⟨5, 1, 0⟩,
    ⟨5, 2, (4 * .e 0 1 * .e 0 4 * .e 2 3 * .e 3 5) / 3 + (4 * .e 0 3 * .e 0 4 * .e 2 4 * .e 3 2) / 3 + (4 * .e 0 1 * .e 0 5 * .e 2 3 * .e 3 8) / 3 + (4 * .e 0 2 * .e 0 7 * .e 2 3 * .e 3 5) / 3 + (4 * .e 0 3 * .e 0 7 * .e 2 5 * .e 3 2) / 3 + (4 * .e 0 5 * .e 0 6 * .e 2 4 * .e 3 2) / 3 + (4 * .e 0 2 * .e 0 8 * .e 2 3 * .e 3 8) / 3 + (4 * .e 0 6 * .e 0 8 * .e 2 5 * .e 3 2) / 3⟩,
    ⟨5, 3, 0⟩,
    ⟨5, 4, (4 * .e 0 1 * .e 0 3 * .e 2 3 * .e 3 2) / 3 - (.e 1 3 * .e 2 4 * .e 3 2) / 3 - (.e 1 2 * .e 2 3 * .e 3 8) / 3 - (.e 1 6 * .e 2 5 * .e 3 2) / 3 - (.e 1 1 * .e 2 3 * .e 3 5) / 3 + (4 * .e 0 1 * .e 0 3 * .e 2 4 * .e 3 5) / 3 + (4 * .e 0 2 * .e 0 6 * .e 2 3 * .e 3 2) / 3 + (4 * .e 0 1 * .e 0 6 * .e 2 5 * .e 3 5) / 3 + (4 * .e 0 2 * .e 0 3 * .e 2 4 * .e 3 8) / 3 + (4 * .e 0 2 * .e 0 6 * .e 2 5 * .e 3 8) / 3⟩,
    ⟨5, 5, 0⟩,
    ⟨5, 6, (4 * .e 0 0 * .e 0 1 * .e 2 3 * .e 3 5) / 3 + (4 * .e 0 0 * .e 0 3 * .e 2 4 * .e 3 2) / 3 + (4 * .e 0 0 * .e 0 2 * .e 2 3 * .e 3 8) / 3 + (4 * .e 0 0 * .e 0 6 * .e 2 5 * .e 3 2) / 3⟩,
    ⟨5, 7, 0⟩,
    ⟨5, 8, (4 * .e 2 3 * .e 3 2 * .e 0 0 * .e 0 0) / 3 - (.e 1 0 * .e 2 3 * .e 3 2) / 3⟩,
    ⟨6, 0, (4 * .e 0 4 * .e 0 4 * .e 2 7 * .e 3 3) / 3 - (.e 1 5 * .e 2 7 * .e 3 6) / 3 - (.e 1 7 * .e 2 8 * .e 3 3) / 3 - (.e 1 8 * .e 2 8 * .e 3 6) / 3 - (.e 1 4 * .e 2 7 * .e 3 3) / 3 + (4 * .e 0 8 * .e 0 8 * .e 2 8 * .e 3 6) / 3 + (4 * .e 0 4 * .e 0 5 * .e 2 7 * .e 3 6) / 3 + (4 * .e 0 4 * .e 0 7 * .e 2 8 * .e 3 3) / 3 + (4 * .e 0 5 * .e 0 7 * .e 2 7 * .e 3 3) / 3 + (4 * .e 0 5 * .e 0 7 * .e 2 8 * .e 3 6) / 3 + (4 * .e 0 5 * .e 0 8 * .e 2 7 * .e 3 6) / 3 + (4 * .e 0 7 * .e 0 8 * .e 2 8 * .e 3 3) / 3⟩,
    ⟨6, 1, 0⟩,
    ⟨6, 2, (4 * .e 0 1 * .e 0 4 * .e 2 6 * .e 3 3) / 3 + (4 * .e 0 3 * .e 0 4 * .e 2 7 * .e 3 0) / 3 + (4 * .e 0 1 * .e 0 5 * .e 2 6 * .e 3 6) / 3 + (4 * .e 0 2 * .e 0 7 * .e 2 6 * .e 3 3) / 3 + (4 * .e 0 3 * .e 0 7 * .e 2 8 * .e 3 0) / 3 + (4 * .e 0 5 * .e 0 6 * .e 2 7 * .e 3 0) / 3 + (4 * .e 0 2 * .e 0 8 * .e 2 6 * .e 3 6) / 3 + (4 * .e 0 6 * .e 0 8 * .e 2 8 * .e 3 0) / 3⟩,
    ⟨6, 3, 0⟩,
    ⟨6, 4, (4 * .e 0 1 * .e 0 3 * .e 2 6 * .e 3 0) / 3 - (.e 1 3 * .e 2 7 * .e 3 0) / 3 - (.e 1 2 * .e 2 6 * .e 3 6) / 3 - (.e 1 6 * .e 2 8 * .e 3 0) / 3 - (.e 1 1 * .e 2 6 * .e 3 3) / 3 + (4 * .e 0 1 * .e 0 3 * .e 2 7 * .e 3 3) / 3 + (4 * .e 0 2 * .e 0 6 * .e 2 6 * .e 3 0) / 3 + (4 * .e 0 1 * .e 0 6 * .e 2 8 * .e 3 3) / 3 + (4 * .e 0 2 * .e 0 3 * .e 2 7 * .e 3 6) / 3 + (4 * .e 0 2 * .e 0 6 * .e 2 8 * .e 3 6) / 3⟩,
    ⟨6, 5, 0⟩,
    ⟨6, 6, (4 * .e 0 0 * .e 0 1 * .e 2 6 * .e 3 3) / 3 + (4 * .e 0 0 * .e 0 3 * .e 2 7 * .e 3 0) / 3 + (4 * .e 0 0 * .e 0 2 * .e 2 6 * .e 3 6) / 3 + (4 * .e 0 0 * .e 0 6 * .e 2 8 * .e 3 0) / 3⟩,
    ⟨6, 7, 0⟩,
    ⟨6, 8, (4 * .e 2 6 * .e 3 0 * .e 0 0 * .e 0 0) / 3 - (.e 1 0 * .e 2 6 * .e 3 0) / 3⟩,
    ⟨7, 0, (4 * .e 0 4 * .e 0 4 * .e 2 7 * .e 3 4) / 3 - (.e 1 5 * .e 2 7 * .e 3 7) / 3 - (.e 1 7 * .e 2 8 * .e 3 4) / 3 - (.e 1 8 * .e 2 8 * .e 3 7) / 3 - (.e 1 4 * .e 2 7 * .e 3 4) / 3 + (4 * .e 0 8 * .e 0 8 * .e 2 8 * .e 3 7) / 3 + (4 * .e 0 4 * .e 0 5 * .e 2 7 * .e 3 7) / 3 + (4 * .e 0 4 * .e 0 7 * .e 2 8 * .e 3 4) / 3 + (4 * .e 0 5 * .e 0 7 * .e 2 7 * .e 3 4) / 3 + (4 * .e 0 5 * .e 0 7 * .e 2 8 * .e 3 7) / 3 + (4 * .e 0 5 * .e 0 8 * .e 2 7 * .e 3 7) / 3 + (4 * .e 0 7 * .e 0 8 * .e 2 8 * .e 3 4) / 3⟩,
    ⟨7, 1, 0⟩,
    ⟨7, 2, (4 * .e 0 1 * .e 0 4 * .e 2 6 * .e 3 4) / 3 + (4 * .e 0 3 * .e 0 4 * .e 2 7 * .e 3 1) / 3 + (4 * .e 0 1 * .e 0 5 * .e 2 6 * .e 3 7) / 3 + (4 * .e 0 2 * .e 0 7 * .e 2 6 * .e 3 4) / 3 + (4 * .e 0 3 * .e 0 7 * .e 2 8 * .e 3 1) / 3 + (4 * .e 0 5 * .e 0 6 * .e 2 7 * .e 3 1) / 3 + (4 * .e 0 2 * .e 0 8 * .e 2 6 * .e 3 7) / 3 + (4 * .e 0 6 * .e 0 8 * .e 2 8 * .e 3 1) / 3⟩,
    ⟨7, 3, 0⟩,
    ⟨7, 4, (4 * .e 0 1 * .e 0 3 * .e 2 6 * .e 3 1) / 3 - (.e 1 3 * .e 2 7 * .e 3 1) / 3 - (.e 1 2 * .e 2 6 * .e 3 7) / 3 - (.e 1 6 * .e 2 8 * .e 3 1) / 3 - (.e 1 1 * .e 2 6 * .e 3 4) / 3 + (4 * .e 0 1 * .e 0 3 * .e 2 7 * .e 3 4) / 3 + (4 * .e 0 2 * .e 0 6 * .e 2 6 * .e 3 1) / 3 + (4 * .e 0 1 * .e 0 6 * .e 2 8 * .e 3 4) / 3 + (4 * .e 0 2 * .e 0 3 * .e 2 7 * .e 3 7) / 3 + (4 * .e 0 2 * .e 0 6 * .e 2 8 * .e 3 7) / 3⟩,
    ⟨7, 5, 0⟩,
    ⟨7, 6, (4 * .e 0 0 * .e 0 1 * .e 2 6 * .e 3 4) / 3 + (4 * .e 0 0 * .e 0 3 * .e 2 7 * .e 3 1) / 3 + (4 * .e 0 0 * .e 0 2 * .e 2 6 * .e 3 7) / 3 + (4 * .e 0 0 * .e 0 6 * .e 2 8 * .e 3 1) / 3⟩,
    ⟨7, 7, 0⟩,
    ⟨7, 8, (4 * .e 2 6 * .e 3 1 * .e 0 0 * .e 0 0) / 3 - (.e 1 0 * .e 2 6 * .e 3 1) / 3⟩,
    ⟨8, 0, (4 * .e 0 4 * .e 0 4 * .e 2 7 * .e 3 5) / 3 - (.e 1 5 * .e 2 7 * .e 3 8) / 3 - (.e 1 7 * .e 2 8 * .e 3 5) / 3 - (.e 1 8 * .e 2 8 * .e 3 8) / 3 - (.e 1 4 * .e 2 7 * .e 3 5) / 3 + (4 * .e 0 8 * .e 0 8 * .e 2 8 * .e 3 8) / 3 + (4 * .e 0 4 * .e 0 5 * .e 2 7 * .e 3 8) / 3 + (4 * .e 0 4 * .e 0 7 * .e 2 8 * .e 3 5) / 3 + (4 * .e 0 5 * .e 0 7 * .e 2 7 * .e 3 5) / 3 + (4 * .e 0 5 * .e 0 7 * .e 2 8 * .e 3 8) / 3 + (4 * .e 0 5 * .e 0 8 * .e 2 7 * .e 3 8) / 3 + (4 * .e 0 7 * .e 0 8 * .e 2 8 * .e 3 5) / 3⟩,
    ⟨8, 1, 0⟩,
    ⟨8, 2, (4 * .e 0 1 * .e 0 4 * .e 2 6 * .e 3 5) / 3 + (4 * .e 0 3 * .e 0 4 * .e 2 7 * .e 3 2) / 3 + (4 * .e 0 1 * .e 0 5 * .e 2 6 * .e 3 8) / 3 + (4 * .e 0 2 * .e 0 7 * .e 2 6 * .e 3 5) / 3 + (4 * .e 0 3 * .e 0 7 * .e 2 8 * .e 3 2) / 3 + (4 * .e 0 5 * .e 0 6 * .e 2 7 * .e 3 2) / 3 + (4 * .e 0 2 * .e 0 8 * .e 2 6 * .e 3 8) / 3 + (4 * .e 0 6 * .e 0 8 * .e 2 8 * .e 3 2) / 3⟩,
    ⟨8, 3, 0⟩,
    ⟨8, 4, (4 * .e 0 1 * .e 0 3 * .e 2 6 * .e 3 2) / 3 - (.e 1 3 * .e 2 7 * .e 3 2) / 3 - (.e 1 2 * .e 2 6 * .e 3 8) / 3 - (.e 1 6 * .e 2 8 * .e 3 2) / 3 - (.e 1 1 * .e 2 6 * .e 3 5) / 3 + (4 * .e 0 1 * .e 0 3 * .e 2 7 * .e 3 5) / 3 + (4 * .e 0 2 * .e 0 6 * .e 2 6 * .e 3 2) / 3 + (4 * .e 0 1 * .e 0 6 * .e 2 8 * .e 3 5) / 3 + (4 * .e 0 2 * .e 0 3 * .e 2 7 * .e 3 8) / 3 + (4 * .e 0 2 * .e 0 6 * .e 2 8 * .e 3 8) / 3⟩,
    ⟨8, 5, 0⟩,
    ⟨8, 6, (4 * .e 0 0 * .e 0 1 * .e 2 6 * .e 3 5) / 3 + (4 * .e 0 0 * .e 0 3 * .e 2 7 * .e 3 2) / 3 + (4 * .e 0 0 * .e 0 2 * .e 2 6 * .e 3 8) / 3 + (4 * .e 0 0 * .e 0 6 * .e 2 8 * .e 3 2) / 3⟩,
    ⟨8, 7, 0⟩,
    ⟨8, 8, (4 * .e 2 6 * .e 3 2 * .e 0 0 * .e 0 0) / 3 - (.e 1 0 * .e 2 6 * .e 3 2) / 3⟩]

/-- `case FTES4_suzuki` of `manakov_fscatter`, fnft__manakov_fscatter.c:878-1082. -/
def manTabFTES4_suzuki : Tab where
  zero := false
  scales := [7 / 48, 3 / 8, -1 / 48]
  asg := [
    ⟨0, 0, .e 1 1 * .e 1 3 * .e 2 1 * .e 2 3 * .e 0 1 * .e 0 3 + .e 1 1 * .e 1 3 * .e 2 2 * .e 2 6 * .e 0 1 * .e 0 3 + .e 1 1 * .e 1 6 * .e 2 1 * .e 2 3 * .e 0 2 * .e 0 3 + .e 1 2 * .e 1 3 * .e 2 1 * .e 2 3 * .e 0 1 * .e 0 6 + .e 1 1 * .e 1 6 * .e 2 2 * .e 2 6 * .e 0 2 * .e 0 3 + .e 1 2 * .e 1 3 * .e 2 2 * .e 2 6 * .e 0 1 * .e 0 6 + .e 1 2 * .e 1 6 * .e 2 1 * .e 2 3 * .e 0 2 * .e 0 6 + .e 1 2 * .e 1 6 * .e 2 2 * .e 2 6 * .e 0 2 * .e 0 6⟩,
    ⟨0, 1, 0⟩,
    ⟨0, 2, .e 1 0 * .e 1 1 * .e 2 1 * .e 2 3 * .e 0 0 * .e 0 3 + .e 1 0 * .e 1 3 * .e 2 1 * .e 2 3 * .e 0 0 * .e 0 1 + .e 1 0 * .e 1 1 * .e 2 2 * .e 2 6 * .e 0 0 * .e 0 3 + .e 1 0 * .e 1 2 * .e 2 1 * .e 2 3 * .e 0 0 * .e 0 6 + .e 1 0 * .e 1 3 * .e 2 2 * .e 2 6 * .e 0 0 * .e 0 1 + .e 1 0 * .e 1 6 * .e 2 1 * .e 2 3 * .e 0 0 * .e 0 2 + .e 1 0 * .e 1 2 * .e 2 2 * .e 2 6 * .e 0 0 * .e 0 6 + .e 1 0 * .e 1 6 * .e 2 2 * .e 2 6 * .e 0 0 * .e 0 2 + .e 1 1 * .e 1 4 * .e 2 3 * .e 2 4 * .e 0 1 * .e 0 3 + .e 1 3 * .e 1 4 * .e 2 1 * .e 2 4 * .e 0 1 * .e 0 3 + .e 1 1 * .e 1 4 * .e 2 5 * .e 2 6 * .e 0 1 * .e 0 3 + .e 1 1 * .e 1 5 * .e 2 3 * .e 2 7 * .e 0 1 * .e 0 3 + .e 1 1 * .e 1 7 * .e 2 3 * .e 2 4 * .e 0 2 * .e 0 3 + .e 1 2 * .e 1 4 * .e 2 3 * .e 2 4 * .e 0 1 * .e 0 6 + .e 1 3 * .e 1 4 * .e 2 2 * .e 2 7 * .e 0 1 * .e 0 3 + .e 1 3 * .e 1 5 * .e 2 1 * .e 2 4 * .e 0 1 * .e 0 6 + .e 1 3 * .e 1 7 * .e 2 1 * .e 2 5 * .e 0 1 * .e 0 3 + .e 1 4 * .e 1 6 * .e 2 1 * .e 2 4 * .e 0 2 * .e 0 3 + .e 1 1 * .e 1 5 * .e 2 6 * .e 2 8 * .e 0 1 * .e 0 3 + .e 1 1 * .e 1 7 * .e 2 5 * .e 2 6 * .e 0 2 * .e 0 3 + .e 1 1 * .e 1 8 * .e 2 3 * .e 2 7 * .e 0 2 * .e 0 3 + .e 1 2 * .e 1 4 * .e 2 5 * .e 2 6 * .e 0 1 * .e 0 6 + .e 1 2 * .e 1 5 * .e 2 3 * .e 2 7 * .e 0 1 * .e 0 6 + .e 1 2 * .e 1 7 * .e 2 3 * .e 2 4 * .e 0 2 * .e 0 6 + .e 1 3 * .e 1 5 * .e 2 2 * .e 2 7 * .e 0 1 * .e 0 6 + .e 1 3 * .e 1 7 * .e 2 2 * .e 2 8 * .e 0 1 * .e 0 3 + .e 1 3 * .e 1 8 * .e 2 1 * .e 2 5 * .e 0 1 * .e 0 6 + .e 1 4 * .e 1 6 * .e 2 2 * .e 2 7 * .e 0 2 * .e 0 3 + .e 1 5 * .e 1 6 * .e 2 1 * .e 2 4 * .e 0 2 * .e 0 6 + .e 1 6 * .e 1 7 * .e 2 1 * .e 2 5 * .e 0 2 * .e 0 3 + .e 1 1 * .e 1 8 * .e 2 6 * .e 2 8 * .e 0 2 * .e 0 3 + .e 1 2 * .e 1 5 * .e 2 6 * .e 2 8 * .e 0 1 * .e 0 6 + .e 1 2 * .e 1 7 * .e 2 5 * .e 2 6 * .e 0 2 * .e 0 6 + .e 1 2 * .e 1 8 * .e 2 3 * .e 2 7 * .e 0 2 * .e 0 6 + .e 1 3 * .e 1 8 * .e 2 2 * .e 2 8 * .e 0 1 * .e 0 6 + .e 1 5 * .e 1 6 * .e 2 2 * .e 2 7 * .e 0 2 * .e 0 6 + .e 1 6 * .e 1 7 * .e 2 2 * .e 2 8 * .e 0 2 * .e 0 3 + .e 1 6 * .e 1 8 * .e 2 1 * .e 2 5 * .e 0 2 * .e 0 6 + .e 1 2 * .e 1 8 * .e 2 6 * .e 2 8 * .e 0 2 * .e 0 6 + .e 1 6 * .e 1 8 * .e 2 2 * .e 2 8 * .e 0 2 * .e 0 6⟩,
    ⟨0, 3, 0⟩,
    ⟨0, 4, .e 1 0 * .e 1 0 * .e 2 1 * .e 2 3 * .e 0 0 * .e 0 0 + .e 1 0 * .e 1 0 * .e 2 2 * .e 2 6 * .e 0 0 * .e 0 0 + .e 1 4 * .e 1 4 * .e 2 4 * .e 2 4 * .e 0 1 * .e 0 3 + .e 1 8 * .e 1 8 * .e 2 8 * .e 2 8 * .e 0 2 * .e 0 6 + .e 1 4 * .e 1 5 * .e 2 4 * .e 2 4 * .e 0 1 * .e 0 6 + .e 1 4 * .e 1 7 * .e 2 4 * .e 2 4 * .e 0 2 * .e 0 3 + .e 1 5 * .e 1 7 * .e 2 4 * .e 2 4 * .e 0 2 * .e 0 6 + .e 1 5 * .e 1 7 * .e 2 8 * .e 2 8 * .e 0 1 * .e 0 3 + .e 1 5 * .e 1 8 * .e 2 8 * .e 2 8 * .e 0 1 * .e 0 6 + .e 1 7 * .e 1 8 * .e 2 8 * .e 2 8 * .e 0 2 * .e 0 3 + .e 1 3 * .e 1 3 * .e 2 1 * .e 2 4 * .e 0 0 * .e 0 1 + .e 1 1 * .e 1 1 * .e 2 3 * .e 2 4 * .e 0 0 * .e 0 3 + .e 1 3 * .e 1 3 * .e 2 2 * .e 2 7 * .e 0 0 * .e 0 1 + .e 1 6 * .e 1 6 * .e 2 1 * .e 2 5 * .e 0 0 * .e 0 2 + .e 1 1 * .e 1 1 * .e 2 5 * .e 2 6 * .e 0 0 * .e 0 3 + .e 1 6 * .e 1 6 * .e 2 2 * .e 2 8 * .e 0 0 * .e 0 2 + .e 1 2 * .e 1 2 * .e 2 3 * .e 2 7 * .e 0 0 * .e 0 6 + .e 1 4 * .e 1 4 * .e 2 5 * .e 2 7 * .e 0 1 * .e 0 3 + .e 1 7 * .e 1 7 * .e 2 4 * .e 2 5 * .e 0 2 * .e 0 3 + .e 1 2 * .e 1 2 * .e 2 6 * .e 2 8 * .e 0 0 * .e 0 6 + .e 1 5 * .e 1 5 * .e 2 4 * .e 2 7 * .e 0 1 * .e 0 6 + .e 1 7 * .e 1 7 * .e 2 5 * .e 2 8 * .e 0 2 * .e 0 3 + .e 1 5 * .e 1 5 * .e 2 7 * .e 2 8 * .e 0 1 * .e 0 6 + .e 1 8 * .e 1 8 * .e 2 5 * .e 2 7 * .e 0 2 * .e 0 6 + .e 1 0 * .e 1 4 * .e 2 1 * .e 2 4 * .e 0 0 * .e 0 3 + .e 1 0 * .e 1 4 * .e 2 3 * .e 2 4 * .e 0 0 * .e 0 1 + .e 1 0 * .e 1 4 * .e 2 2 * .e 2 7 * .e 0 0 * .e 0 3 + .e 1 0 * .e 1 4 * .e 2 5 * .e 2 6 * .e 0 0 * .e 0 1 + .e 1 0 * .e 1 5 * .e 2 1 * .e 2 4 * .e 0 0 * .e 0 6 + .e 1 0 * .e 1 5 * .e 2 3 * .e 2 7 * .e 0 0 * .e 0 1 + .e 1 0 * .e 1 7 * .e 2 1 * .e 2 5 * .e 0 0 * .e 0 3 + .e 1 0 * .e 1 7 * .e 2 3 * .e 2 4 * .e 0 0 * .e 0 2 + .e 1 1 * .e 1 2 * .e 2 3 * .e 2 4 * .e 0 0 * .e 0 6 + .e 1 1 * .e 1 2 * .e 2 3 * .e 2 7 * .e 0 0 * .e 0 3 + .e 1 3 * .e 1 6 * .e 2 1 * .e 2 4 * .e 0 0 * .e 0 2 + .e 1 3 * .e 1 6 * .e 2 1 * .e 2 5 * .e 0 0 * .e 0 1 + .e 1 0 * .e 1 5 * .e 2 2 * .e 2 7 * .e 0 0 * .e 0 6 + .e 1 0 * .e 1 5 * .e 2 6 * .e 2 8 * .e 0 0 * .e 0 1 + .e 1 0 * .e 1 7 * .e 2 2 * .e 2 8 * .e 0 0 * .e 0 3 + .e 1 0 * .e 1 7 * .e 2 5 * .e 2 6 * .e 0 0 * .e 0 2 + .e 1 0 * .e 1 8 * .e 2 1 * .e 2 5 * .e 0 0 * .e 0 6 + .e 1 0 * .e 1 8 * .e 2 3 * .e 2 7 * .e 0 0 * .e 0 2 + .e 1 1 * .e 1 2 * .e 2 5 * .e 2 6 * .e 0 0 * .e 0 6 + .e 1 1 * .e 1 2 * .e 2 6 * .e 2 8 * .e 0 0 * .e 0 3 + .e 1 3 * .e 1 6 * .e 2 2 * .e 2 7 * .e 0 0 * .e 0 2 + .e 1 3 * .e 1 6 * .e 2 2 * .e 2 8 * .e 0 0 * .e 0 1 + .e 1 0 * .e 1 8 * .e 2 2 * .e 2 8 * .e 0 0 * .e 0 6 + .e 1 0 * .e 1 8 * .e 2 6 * .e 2 8 * .e 0 0 * .e 0 2 + .e 1 4 * .e 1 5 * .e 2 4 * .e 2 7 * .e 0 1 * .e 0 3 + .e 1 4 * .e 1 7 * .e 2 4 * .e 2 5 * .e 0 1 * .e 0 3 + .e 1 4 * .e 1 5 * .e 2 5 * .e 2 7 * .e 0 1 * .e 0 6 + .e 1 4 * .e 1 5 * .e 2 7 * .e 2 8 * .e 0 1 * .e 0 3 + .e 1 4 * .e 1 7 * .e 2 5 * .e 2 7 * .e 0 2 * .e 0 3 + .e 1 4 * .e 1 7 * .e 2 5 * .e 2 8 * .e 0 1 * .e 0 3 + .e 1 4 * .e 1 8 * .e 2 4 * .e 2 5 * .e 0 1 * .e 0 6 + .e 1 4 * .e 1 8 * .e 2 4 * .e 2 7 * .e 0 2 * .e 0 3 + .e 1 5 * .e 1 7 * .e 2 5 * .e 2 7 * .e 0 1 * .e 0 3 + .e 1 4 * .e 1 8 * .e 2 5 * .e 2 8 * .e 0 1 * .e 0 6 + .e 1 4 * .e 1 8 * .e 2 7 * .e 2 8 * .e 0 2 * .e 0 3 + .e 1 5 * .e 1 7 * .e 2 5 * .e 2 7 * .e 0 2 * .e 0 6 + .e 1 5 * .e 1 8 * .e 2 4 * .e 2 7 * .e 0 2 * .e 0 6 + .e 1 5 * .e 1 8 * .e 2 5 * .e 2 7 * .e 0 1 * .e 0 6 + .e 1 7 * .e 1 8 * .e 2 4 * .e 2 5 * .e 0 2 * .e 0 6 + .e 1 7 * .e 1 8 * .e 2 5 * .e 2 7 * .e 0 2 * .e 0 3 + .e 1 5 * .e 1 8 * .e 2 7 * .e 2 8 * .e 0 2 * .e 0 6 + .e 1 7 * .e 1 8 * .e 2 5 * .e 2 8 * .e 0 2 * .e 0 6⟩,
    ⟨0, 5, 0⟩,
    ⟨0, 6, .e 1 0 * .e 1 1 * .e 2 3 * .e 2 4 * .e 0 0 * .e 0 0 + .e 1 0 * .e 1 3 * .e 2 1 * .e 2 4 * .e 0 0 * .e 0 0 + .e 1 0 * .e 1 1 * .e 2 5 * .e 2 6 * .e 0 0 * .e 0 0 + .e 1 0 * .e 1 2 * .e 2 3 * .e 2 7 * .e 0 0 * .e 0 0 + .e 1 0 * .e 1 3 * .e 2 2 * .e 2 7 * .e 0 0 * .e 0 0 + .e 1 0 * .e 1 6 * .e 2 1 * .e 2 5 * .e 0 0 * .e 0 0 + .e 1 0 * .e 1 2 * .e 2 6 * .e 2 8 * .e 0 0 * .e 0 0 + .e 1 0 * .e 1 6 * .e 2 2 * .e 2 8 * .e 0 0 * .e 0 0 + .e 1 1 * .e 1 3 * .e 2 0 * .e 2 0 * .e 0 1 * .e 0 3 + .e 1 1 * .e 1 4 * .e 2 4 * .e 2 4 * .e 0 0 * .e 0 3 + .e 1 1 * .e 1 6 * .e 2 0 * .e 2 0 * .e 0 2 * .e 0 3 + .e 1 2 * .e 1 3 * .e 2 0 * .e 2 0 * .e 0 1 * .e 0 6 + .e 1 3 * .e 1 4 * .e 2 4 * .e 2 4 * .e 0 0 * .e 0 1 + .e 1 1 * .e 1 5 * .e 2 4 * .e 2 4 * .e 0 0 * .e 0 6 + .e 1 2 * .e 1 6 * .e 2 0 * .e 2 0 * .e 0 2 * .e 0 6 + .e 1 3 * .e 1 7 * .e 2 4 * .e 2 4 * .e 0 0 * .e 0 2 + .e 1 2 * .e 1 7 * .e 2 8 * .e 2 8 * .e 0 0 * .e 0 3 + .e 1 5 * .e 1 6 * .e 2 8 * .e 2 8 * .e 0 0 * .e 0 1 + .e 1 2 * .e 1 8 * .e 2 8 * .e 2 8 * .e 0 0 * .e 0 6 + .e 1 6 * .e 1 8 * .e 2 8 * .e 2 8 * .e 0 0 * .e 0 2 + .e 1 1 * .e 1 4 * .e 2 5 * .e 2 7 * .e 0 0 * .e 0 3 + .e 1 1 * .e 1 7 * .e 2 4 * .e 2 5 * .e 0 0 * .e 0 3 + .e 1 2 * .e 1 4 * .e 2 4 * .e 2 7 * .e 0 0 * .e 0 3 + .e 1 3 * .e 1 4 * .e 2 5 * .e 2 7 * .e 0 0 * .e 0 1 + .e 1 3 * .e 1 5 * .e 2 4 * .e 2 7 * .e 0 0 * .e 0 1 + .e 1 4 * .e 1 6 * .e 2 4 * .e 2 5 * .e 0 0 * .e 0 1 + .e 1 1 * .e 1 5 * .e 2 5 * .e 2 7 * .e 0 0 * .e 0 6 + .e 1 1 * .e 1 7 * .e 2 5 * .e 2 8 * .e 0 0 * .e 0 3 + .e 1 1 * .e 1 8 * .e 2 4 * .e 2 5 * .e 0 0 * .e 0 6 + .e 1 2 * .e 1 4 * .e 2 7 * .e 2 8 * .e 0 0 * .e 0 3 + .e 1 2 * .e 1 5 * .e 2 4 * .e 2 7 * .e 0 0 * .e 0 6 + .e 1 2 * .e 1 7 * .e 2 5 * .e 2 7 * .e 0 0 * .e 0 3 + .e 1 3 * .e 1 5 * .e 2 7 * .e 2 8 * .e 0 0 * .e 0 1 + .e 1 3 * .e 1 7 * .e 2 5 * .e 2 7 * .e 0 0 * .e 0 2 + .e 1 3 * .e 1 8 * .e 2 4 * .e 2 7 * .e 0 0 * .e 0 2 + .e 1 4 * .e 1 6 * .e 2 5 * .e 2 8 * .e 0 0 * .e 0 1 + .e 1 5 * .e 1 6 * .e 2 5 * .e 2 7 * .e 0 0 * .e 0 1 + .e 1 6 * .e 1 7 * .e 2 4 * .e 2 5 * .e 0 0 * .e 0 2 + .e 1 1 * .e 1 8 * .e 2 5 * .e 2 8 * .e 0 0 * .e 0 6 + .e 1 2 * .e 1 5 * .e 2 7 * .e 2 8 * .e 0 0 * .e 0 6 + .e 1 2 * .e 1 8 * .e 2 5 * .e 2 7 * .e 0 0 * .e 0 6 + .e 1 3 * .e 1 8 * .e 2 7 * .e 2 8 * .e 0 0 * .e 0 2 + .e 1 6 * .e 1 7 * .e 2 5 * .e 2 8 * .e 0 0 * .e 0 2 + .e 1 6 * .e 1 8 * .e 2 5 * .e 2 7 * .e 0 0 * .e 0 2⟩,
    ⟨0, 7, 0⟩,
    ⟨0, 8, .e 1 1 * .e 1 3 * .e 2 4 * .e 2 4 * .e 0 0 * .e 0 0 + .e 1 2 * .e 1 6 * .e 2 8 * .e 2 8 * .e 0 0 * .e 0 0 + .e 1 1 * .e 1 3 * .e 2 5 * .e 2 7 * .e 0 0 * .e 0 0 + .e 1 1 * .e 1 6 * .e 2 4 * .e 2 5 * .e 0 0 * .e 0 0 + .e 1 2 * .e 1 3 * .e 2 4 * .e 2 7 * .e 0 0 * .e 0 0 + .e 1 1 * .e 1 6 * .e 2 5 * .e 2 8 * .e 0 0 * .e 0 0 + .e 1 2 * .e 1 3 * .e 2 7 * .e 2 8 * .e 0 0 * .e 0 0 + .e 1 2 * .e 1 6 * .e 2 5 * .e 2 7 * .e 0 0 * .e 0 0 + .e 1 0 * .e 1 1 * .e 2 0 * .e 2 0 * .e 0 0 * .e 0 3 + .e 1 0 * .e 1 3 * .e 2 0 * .e 2 0 * .e 0 0 * .e 0 1 + .e 1 0 * .e 1 2 * .e 2 0 * .e 2 0 * .e 0 0 * .e 0 6 + .e 1 0 * .e 1 6 * .e 2 0 * .e 2 0 * .e 0 0 * .e 0 2 + .e 1 1 * .e 1 4 * .e 2 0 * .e 2 3 * .e 0 1 * .e 0 3 + .e 1 3 * .e 1 4 * .e 2 0 * .e 2 1 * .e 0 1 * .e 0 3 + .e 1 1 * .e 1 5 * .e 2 0 * .e 2 6 * .e 0 1 * .e 0 3 + .e 1 1 * .e 1 7 * .e 2 0 * .e 2 3 * .e 0 2 * .e 0 3 + .e 1 2 * .e 1 4 * .e 2 0 * .e 2 3 * .e 0 1 * .e 0 6 + .e 1 3 * .e 1 5 * .e 2 0 * .e 2 1 * .e 0 1 * .e 0 6 + .e 1 3 * .e 1 7 * .e 2 0 * .e 2 2 * .e 0 1 * .e 0 3 + .e 1 4 * .e 1 6 * .e 2 0 * .e 2 1 * .e 0 2 * .e 0 3 + .e 1 1 * .e 1 8 * .e 2 0 * .e 2 6 * .e 0 2 * .e 0 3 + .e 1 2 * .e 1 5 * .e 2 0 * .e 2 6 * .e 0 1 * .e 0 6 + .e 1 2 * .e 1 7 * .e 2 0 * .e 2 3 * .e 0 2 * .e 0 6 + .e 1 3 * .e 1 8 * .e 2 0 * .e 2 2 * .e 0 1 * .e 0 6 + .e 1 5 * .e 1 6 * .e 2 0 * .e 2 1 * .e 0 2 * .e 0 6 + .e 1 6 * .e 1 7 * .e 2 0 * .e 2 2 * .e 0 2 * .e 0 3 + .e 1 2 * .e 1 8 * .e 2 0 * .e 2 6 * .e 0 2 * .e 0 6 + .e 1 6 * .e 1 8 * .e 2 0 * .e 2 2 * .e 0 2 * .e 0 6⟩,
    ⟨0, 9, 0⟩,
    ⟨0, 10, .e 1 0 * .e 1 0 * .e 2 0 * .e 2 0 * .e 0 0 * .e 0 0 + .e 1 3 * .e 1 3 * .e 2 0 * .e 2 1 * .e 0 0 * .e 0 1 + .e 1 1 * .e 1 1 * .e 2 0 * .e 2 3 * .e 0 0 * .e 0 3 + .e 1 6 * .e 1 6 * .e 2 0 * .e 2 2 * .e 0 0 * .e 0 2 + .e 1 4 * .e 1 4 * .e 2 1 * .e 2 3 * .e 0 1 * .e 0 3 + .e 1 2 * .e 1 2 * .e 2 0 * .e 2 6 * .e 0 0 * .e 0 6 + .e 1 7 * .e 1 7 * .e 2 2 * .e 2 3 * .e 0 2 * .e 0 3 + .e 1 5 * .e 1 5 * .e 2 1 * .e 2 6 * .e 0 1 * .e 0 6 + .e 1 8 * .e 1 8 * .e 2 2 * .e 2 6 * .e 0 2 * .e 0 6 + .e 1 0 * .e 1 4 * .e 2 0 * .e 2 1 * .e 0 0 * .e 0 3 + .e 1 0 * .e 1 4 * .e 2 0 * .e 2 3 * .e 0 0 * .e 0 1 + .e 1 0 * .e 1 5 * .e 2 0 * .e 2 1 * .e 0 0 * .e 0 6 + .e 1 0 * .e 1 5 * .e 2 0 * .e 2 6 * .e 0 0 * .e 0 1 + .e 1 0 * .e 1 7 * .e 2 0 * .e 2 2 * .e 0 0 * .e 0 3 + .e 1 0 * .e 1 7 * .e 2 0 * .e 2 3 * .e 0 0 * .e 0 2 + .e 1 1 * .e 1 2 * .e 2 0 * .e 2 3 * .e 0 0 * .e 0 6 + .e 1 1 * .e 1 2 * .e 2 0 * .e 2 6 * .e 0 0 * .e 0 3 + .e 1 3 * .e 1 6 * .e 2 0 * .e 2 1 * .e 0 0 * .e 0 2 + .e 1 3 * .e 1 6 * .e 2 0 * .e 2 2 * .e 0 0 * .e 0 1 + .e 1 0 * .e 1 8 * .e 2 0 * .e 2 2 * .e 0 0 * .e 0 6 + .e 1 0 * .e 1 8 * .e 2 0 * .e 2 6 * .e 0 0 * .e 0 2 + .e 1 4 * .e 1 5 * .e 2 1 * .e 2 3 * .e 0 1 * .e 0 6 + .e 1 4 * .e 1 5 * .e 2 1 * .e 2 6 * .e 0 1 * .e 0 3 + .e 1 4 * .e 1 7 * .e 2 1 * .e 2 3 * .e 0 2 * .e 0 3 + .e 1 4 * .e 1 7 * .e 2 2 * .e 2 3 * .e 0 1 * .e 0 3 + .e 1 4 * .e 1 8 * .e 2 1 * .e 2 6 * .e 0 2 * .e 0 3 + .e 1 4 * .e 1 8 * .e 2 2 * .e 2 3 * .e 0 1 * .e 0 6 + .e 1 5 * .e 1 7 * .e 2 1 * .e 2 3 * .e 0 2 * .e 0 6 + .e 1 5 * .e 1 7 * .e 2 2 * .e 2 6 * .e 0 1 * .e 0 3 + .e 1 5 * .e 1 8 * .e 2 1 * .e 2 6 * .e 0 2 * .e 0 6 + .e 1 5 * .e 1 8 * .e 2 2 * .e 2 6 * .e 0 1 * .e 0 6 + .e 1 7 * .e 1 8 * .e 2 2 * .e 2 3 * .e 0 2 * .e 0 6 + .e 1 7 * .e 1 8 * .e 2 2 * .e 2 6 * .e 0 2 * .e 0 3⟩,
    ⟨0, 11, 0⟩,
    ⟨0, 12, .e 1 0 * .e 1 1 * .e 2 0 * .e 2 3 * .e 0 0 * .e 0 0 + .e 1 0 * .e 1 3 * .e 2 0 * .e 2 1 * .e 0 0 * .e 0 0 + .e 1 0 * .e 1 2 * .e 2 0 * .e 2 6 * .e 0 0 * .e 0 0 + .e 1 0 * .e 1 6 * .e 2 0 * .e 2 2 * .e 0 0 * .e 0 0 + .e 1 1 * .e 1 4 * .e 2 1 * .e 2 3 * .e 0 0 * .e 0 3 + .e 1 3 * .e 1 4 * .e 2 1 * .e 2 3 * .e 0 0 * .e 0 1 + .e 1 1 * .e 1 5 * .e 2 1 * .e 2 3 * .e 0 0 * .e 0 6 + .e 1 1 * .e 1 7 * .e 2 2 * .e 2 3 * .e 0 0 * .e 0 3 + .e 1 2 * .e 1 4 * .e 2 1 * .e 2 6 * .e 0 0 * .e 0 3 + .e 1 3 * .e 1 5 * .e 2 1 * .e 2 6 * .e 0 0 * .e 0 1 + .e 1 3 * .e 1 7 * .e 2 1 * .e 2 3 * .e 0 0 * .e 0 2 + .e 1 4 * .e 1 6 * .e 2 2 * .e 2 3 * .e 0 0 * .e 0 1 + .e 1 1 * .e 1 8 * .e 2 2 * .e 2 3 * .e 0 0 * .e 0 6 + .e 1 2 * .e 1 5 * .e 2 1 * .e 2 6 * .e 0 0 * .e 0 6 + .e 1 2 * .e 1 7 * .e 2 2 * .e 2 6 * .e 0 0 * .e 0 3 + .e 1 3 * .e 1 8 * .e 2 1 * .e 2 6 * .e 0 0 * .e 0 2 + .e 1 5 * .e 1 6 * .e 2 2 * .e 2 6 * .e 0 0 * .e 0 1 + .e 1 6 * .e 1 7 * .e 2 2 * .e 2 3 * .e 0 0 * .e 0 2 + .e 1 2 * .e 1 8 * .e 2 2 * .e 2 6 * .e 0 0 * .e 0 6 + .e 1 6 * .e 1 8 * .e 2 2 * .e 2 6 * .e 0 0 * .e 0 2⟩,
    ⟨0, 13, 0⟩,
    ⟨0, 14, .e 1 1 * .e 1 3 * .e 2 1 * .e 2 3 * .e 0 0 * .e 0 0 + .e 1 1 * .e 1 6 * .e 2 2 * .e 2 3 * .e 0 0 * .e 0 0 + .e 1 2 * .e 1 3 * .e 2 1 * .e 2 6 * .e 0 0 * .e 0 0 + .e 1 2 * .e 1 6 * .e 2 2 * .e 2 6 * .e 0 0 * .e 0 0⟩,
    ⟨1, 0, .e 1 1 * .e 1 3 * .e 2 1 * .e 2 3 * .e 0 1 * .e 0 4 + .e 1 1 * .e 1 3 * .e 2 2 * .e 2 6 * .e 0 1 * .e 0 4 + .e 1 1 * .e 1 6 * .e 2 1 * .e 2 3 * .e 0 2 * .e 0 4 + .e 1 2 * .e 1 3 * .e 2 1 * .e 2 3 * .e 0 1 * .e 0 7 + .e 1 1 * .e 1 6 * .e 2 2 * .e 2 6 * .e 0 2 * .e 0 4 + .e 1 2 * .e 1 3 * .e 2 2 * .e 2 6 * .e 0 1 * .e 0 7 + .e 1 2 * .e 1 6 * .e 2 1 * .e 2 3 * .e 0 2 * .e 0 7 + .e 1 2 * .e 1 6 * .e 2 2 * .e 2 6 * .e 0 2 * .e 0 7⟩,
    ⟨1, 1, 0⟩,
    ⟨1, 2, .e 1 0 * .e 1 3 * .e 2 1 * .e 2 3 * .e 0 1 * .e 0 1 + .e 1 0 * .e 1 3 * .e 2 2 * .e 2 6 * .e 0 1 * .e 0 1 + .e 1 0 * .e 1 1 * .e 2 1 * .e 2 3 * .e 0 0 * .e 0 4 + .e 1 0 * .e 1 1 * .e 2 2 * .e 2 6 * .e 0 0 * .e 0 4 + .e 1 0 * .e 1 2 * .e 2 1 * .e 2 3 * .e 0 0 * .e 0 7 + .e 1 0 * .e 1 6 * .e 2 1 * .e 2 3 * .e 0 1 * .e 0 2 + .e 1 0 * .e 1 2 * .e 2 2 * .e 2 6 * .e 0 0 * .e 0 7 + .e 1 0 * .e 1 6 * .e 2 2 * .e 2 6 * .e 0 1 * .e 0 2 + .e 1 1 * .e 1 4 * .e 2 3 * .e 2 4 * .e 0 1 * .e 0 4 + .e 1 3 * .e 1 4 * .e 2 1 * .e 2 4 * .e 0 1 * .e 0 4 + .e 1 1 * .e 1 4 * .e 2 5 * .e 2 6 * .e 0 1 * .e 0 4 + .e 1 1 * .e 1 5 * .e 2 3 * .e 2 7 * .e 0 1 * .e 0 4 + .e 1 1 * .e 1 7 * .e 2 3 * .e 2 4 * .e 0 2 * .e 0 4 + .e 1 2 * .e 1 4 * .e 2 3 * .e 2 4 * .e 0 1 * .e 0 7 + .e 1 3 * .e 1 4 * .e 2 2 * .e 2 7 * .e 0 1 * .e 0 4 + .e 1 3 * .e 1 5 * .e 2 1 * .e 2 4 * .e 0 1 * .e 0 7 + .e 1 3 * .e 1 7 * .e 2 1 * .e 2 5 * .e 0 1 * .e 0 4 + .e 1 4 * .e 1 6 * .e 2 1 * .e 2 4 * .e 0 2 * .e 0 4 + .e 1 1 * .e 1 5 * .e 2 6 * .e 2 8 * .e 0 1 * .e 0 4 + .e 1 1 * .e 1 7 * .e 2 5 * .e 2 6 * .e 0 2 * .e 0 4 + .e 1 1 * .e 1 8 * .e 2 3 * .e 2 7 * .e 0 2 * .e 0 4 + .e 1 2 * .e 1 4 * .e 2 5 * .e 2 6 * .e 0 1 * .e 0 7 + .e 1 2 * .e 1 5 * .e 2 3 * .e 2 7 * .e 0 1 * .e 0 7 + .e 1 2 * .e 1 7 * .e 2 3 * .e 2 4 * .e 0 2 * .e 0 7 + .e 1 3 * .e 1 5 * .e 2 2 * .e 2 7 * .e 0 1 * .e 0 7 + .e 1 3 * .e 1 7 * .e 2 2 * .e 2 8 * .e 0 1 * .e 0 4 + .e 1 3 * .e 1 8 * .e 2 1 * .e 2 5 * .e 0 1 * .e 0 7 + .e 1 4 * .e 1 6 * .e 2 2 * .e 2 7 * .e 0 2 * .e 0 4 + .e 1 5 * .e 1 6 * .e 2 1 * .e 2 4 * .e 0 2 * .e 0 7 + .e 1 6 * .e 1 7 * .e 2 1 * .e 2 5 * .e 0 2 * .e 0 4 + .e 1 1 * .e 1 8 * .e 2 6 * .e 2 8 * .e 0 2 * .e 0 4 + .e 1 2 * .e 1 5 * .e 2 6 * .e 2 8 * .e 0 1 * .e 0 7 + .e 1 2 * .e 1 7 * .e 2 5 * .e 2 6 * .e 0 2 * .e 0 7 + .e 1 2 * .e 1 8 * .e 2 3 * .e 2 7 * .e 0 2 * .e 0 7 + .e 1 3 * .e 1 8 * .e 2 2 * .e 2 8 * .e 0 1 * .e 0 7 + .e 1 5 * .e 1 6 * .e 2 2 * .e 2 7 * .e 0 2 * .e 0 7 + .e 1 6 * .e 1 7 * .e 2 2 * .e 2 8 * .e 0 2 * .e 0 4 + .e 1 6 * .e 1 8 * .e 2 1 * .e 2 5 * .e 0 2 * .e 0 7 + .e 1 2 * .e 1 8 * .e 2 6 * .e 2 8 * .e 0 2 * .e 0 7 + .e 1 6 * .e 1 8 * .e 2 2 * .e 2 8 * .e 0 2 * .e 0 7⟩,
    ⟨1, 3, 0⟩,
    ⟨1, 4, .e 1 3 * .e 1 3 * .e 2 1 * .e 2 4 * .e 0 1 * .e 0 1 + .e 1 3 * .e 1 3 * .e 2 2 * .e 2 7 * .e 0 1 * .e 0 1 + .e 1 4 * .e 1 4 * .e 2 4 * .e 2 4 * .e 0 1 * .e 0 4 + .e 1 8 * .e 1 8 * .e 2 8 * .e 2 8 * .e 0 2 * .e 0 7 + .e 1 0 * .e 1 4 * .e 2 3 * .e 2 4 * .e 0 1 * .e 0 1 + .e 1 0 * .e 1 4 * .e 2 5 * .e 2 6 * .e 0 1 * .e 0 1 + .e 1 0 * .e 1 5 * .e 2 3 * .e 2 7 * .e 0 1 * .e 0 1 + .e 1 3 * .e 1 6 * .e 2 1 * .e 2 5 * .e 0 1 * .e 0 1 + .e 1 0 * .e 1 5 * .e 2 6 * .e 2 8 * .e 0 1 * .e 0 1 + .e 1 3 * .e 1 6 * .e 2 2 * .e 2 8 * .e 0 1 * .e 0 1 + .e 1 4 * .e 1 5 * .e 2 4 * .e 2 4 * .e 0 1 * .e 0 7 + .e 1 4 * .e 1 7 * .e 2 4 * .e 2 4 * .e 0 2 * .e 0 4 + .e 1 5 * .e 1 7 * .e 2 4 * .e 2 4 * .e 0 2 * .e 0 7 + .e 1 5 * .e 1 7 * .e 2 8 * .e 2 8 * .e 0 1 * .e 0 4 + .e 1 5 * .e 1 8 * .e 2 8 * .e 2 8 * .e 0 1 * .e 0 7 + .e 1 7 * .e 1 8 * .e 2 8 * .e 2 8 * .e 0 2 * .e 0 4 + .e 1 0 * .e 1 0 * .e 2 1 * .e 2 3 * .e 0 0 * .e 0 1 + .e 1 0 * .e 1 0 * .e 2 2 * .e 2 6 * .e 0 0 * .e 0 1 + .e 1 1 * .e 1 1 * .e 2 3 * .e 2 4 * .e 0 0 * .e 0 4 + .e 1 6 * .e 1 6 * .e 2 1 * .e 2 5 * .e 0 1 * .e 0 2 + .e 1 1 * .e 1 1 * .e 2 5 * .e 2 6 * .e 0 0 * .e 0 4 + .e 1 6 * .e 1 6 * .e 2 2 * .e 2 8 * .e 0 1 * .e 0 2 + .e 1 2 * .e 1 2 * .e 2 3 * .e 2 7 * .e 0 0 * .e 0 7 + .e 1 4 * .e 1 4 * .e 2 5 * .e 2 7 * .e 0 1 * .e 0 4 + .e 1 7 * .e 1 7 * .e 2 4 * .e 2 5 * .e 0 2 * .e 0 4 + .e 1 2 * .e 1 2 * .e 2 6 * .e 2 8 * .e 0 0 * .e 0 7 + .e 1 5 * .e 1 5 * .e 2 4 * .e 2 7 * .e 0 1 * .e 0 7 + .e 1 7 * .e 1 7 * .e 2 5 * .e 2 8 * .e 0 2 * .e 0 4 + .e 1 5 * .e 1 5 * .e 2 7 * .e 2 8 * .e 0 1 * .e 0 7 + .e 1 8 * .e 1 8 * .e 2 5 * .e 2 7 * .e 0 2 * .e 0 7 + .e 1 0 * .e 1 4 * .e 2 1 * .e 2 4 * .e 0 0 * .e 0 4 + .e 1 0 * .e 1 4 * .e 2 2 * .e 2 7 * .e 0 0 * .e 0 4 + .e 1 0 * .e 1 5 * .e 2 1 * .e 2 4 * .e 0 0 * .e 0 7 + .e 1 0 * .e 1 7 * .e 2 1 * .e 2 5 * .e 0 0 * .e 0 4 + .e 1 0 * .e 1 7 * .e 2 3 * .e 2 4 * .e 0 1 * .e 0 2 + .e 1 1 * .e 1 2 * .e 2 3 * .e 2 4 * .e 0 0 * .e 0 7 + .e 1 1 * .e 1 2 * .e 2 3 * .e 2 7 * .e 0 0 * .e 0 4 + .e 1 3 * .e 1 6 * .e 2 1 * .e 2 4 * .e 0 1 * .e 0 2 + .e 1 0 * .e 1 5 * .e 2 2 * .e 2 7 * .e 0 0 * .e 0 7 + .e 1 0 * .e 1 7 * .e 2 2 * .e 2 8 * .e 0 0 * .e 0 4 + .e 1 0 * .e 1 7 * .e 2 5 * .e 2 6 * .e 0 1 * .e 0 2 + .e 1 0 * .e 1 8 * .e 2 1 * .e 2 5 * .e 0 0 * .e 0 7 + .e 1 0 * .e 1 8 * .e 2 3 * .e 2 7 * .e 0 1 * .e 0 2 + .e 1 1 * .e 1 2 * .e 2 5 * .e 2 6 * .e 0 0 * .e 0 7 + .e 1 1 * .e 1 2 * .e 2 6 * .e 2 8 * .e 0 0 * .e 0 4 + .e 1 3 * .e 1 6 * .e 2 2 * .e 2 7 * .e 0 1 * .e 0 2 + .e 1 0 * .e 1 8 * .e 2 2 * .e 2 8 * .e 0 0 * .e 0 7 + .e 1 0 * .e 1 8 * .e 2 6 * .e 2 8 * .e 0 1 * .e 0 2 + .e 1 4 * .e 1 5 * .e 2 4 * .e 2 7 * .e 0 1 * .e 0 4 + .e 1 4 * .e 1 7 * .e 2 4 * .e 2 5 * .e 0 1 * .e 0 4 + .e 1 4 * .e 1 5 * .e 2 5 * .e 2 7 * .e 0 1 * .e 0 7 + .e 1 4 * .e 1 5 * .e 2 7 * .e 2 8 * .e 0 1 * .e 0 4 + .e 1 4 * .e 1 7 * .e 2 5 * .e 2 7 * .e 0 2 * .e 0 4 + .e 1 4 * .e 1 7 * .e 2 5 * .e 2 8 * .e 0 1 * .e 0 4 + .e 1 4 * .e 1 8 * .e 2 4 * .e 2 5 * .e 0 1 * .e 0 7 + .e 1 4 * .e 1 8 * .e 2 4 * .e 2 7 * .e 0 2 * .e 0 4 + .e 1 5 * .e 1 7 * .e 2 5 * .e 2 7 * .e 0 1 * .e 0 4 + .e 1 4 * .e 1 8 * .e 2 5 * .e 2 8 * .e 0 1 * .e 0 7 + .e 1 4 * .e 1 8 * .e 2 7 * .e 2 8 * .e 0 2 * .e 0 4 + .e 1 5 * .e 1 7 * .e 2 5 * .e 2 7 * .e 0 2 * .e 0 7 + .e 1 5 * .e 1 8 * .e 2 4 * .e 2 7 * .e 0 2 * .e 0 7 + .e 1 5 * .e 1 8 * .e 2 5 * .e 2 7 * .e 0 1 * .e 0 7 + .e 1 7 * .e 1 8 * .e 2 4 * .e 2 5 * .e 0 2 * .e 0 7 + .e 1 7 * .e 1 8 * .e 2 5 * .e 2 7 * .e 0 2 * .e 0 4 + .e 1 5 * .e 1 8 * .e 2 7 * .e 2 8 * .e 0 2 * .e 0 7 + .e 1 7 * .e 1 8 * .e 2 5 * .e 2 8 * .e 0 2 * .e 0 7⟩,
    ⟨1, 5, 0⟩,
    ⟨1, 6, .e 1 3 * .e 1 4 * .e 2 4 * .e 2 4 * .e 0 1 * .e 0 1 + .e 1 5 * .e 1 6 * .e 2 8 * .e 2 8 * .e 0 1 * .e 0 1 + .e 1 3 * .e 1 4 * .e 2 5 * .e 2 7 * .e 0 1 * .e 0 1 + .e 1 3 * .e 1 5 * .e 2 4 * .e 2 7 * .e 0 1 * .e 0 1 + .e 1 4 * .e 1 6 * .e 2 4 * .e 2 5 * .e 0 1 * .e 0 1 + .e 1 3 * .e 1 5 * .e 2 7 * .e 2 8 * .e 0 1 * .e 0 1 + .e 1 4 * .e 1 6 * .e 2 5 * .e 2 8 * .e 0 1 * .e 0 1 + .e 1 5 * .e 1 6 * .e 2 5 * .e 2 7 * .e 0 1 * .e 0 1 + .e 1 1 * .e 1 3 * .e 2 0 * .e 2 0 * .e 0 1 * .e 0 4 + .e 1 1 * .e 1 4 * .e 2 4 * .e 2 4 * .e 0 0 * .e 0 4 + .e 1 1 * .e 1 6 * .e 2 0 * .e 2 0 * .e 0 2 * .e 0 4 + .e 1 2 * .e 1 3 * .e 2 0 * .e 2 0 * .e 0 1 * .e 0 7 + .e 1 1 * .e 1 5 * .e 2 4 * .e 2 4 * .e 0 0 * .e 0 7 + .e 1 2 * .e 1 6 * .e 2 0 * .e 2 0 * .e 0 2 * .e 0 7 + .e 1 3 * .e 1 7 * .e 2 4 * .e 2 4 * .e 0 1 * .e 0 2 + .e 1 2 * .e 1 7 * .e 2 8 * .e 2 8 * .e 0 0 * .e 0 4 + .e 1 2 * .e 1 8 * .e 2 8 * .e 2 8 * .e 0 0 * .e 0 7 + .e 1 6 * .e 1 8 * .e 2 8 * .e 2 8 * .e 0 1 * .e 0 2 + .e 1 0 * .e 1 1 * .e 2 3 * .e 2 4 * .e 0 0 * .e 0 1 + .e 1 0 * .e 1 3 * .e 2 1 * .e 2 4 * .e 0 0 * .e 0 1 + .e 1 0 * .e 1 1 * .e 2 5 * .e 2 6 * .e 0 0 * .e 0 1 + .e 1 0 * .e 1 2 * .e 2 3 * .e 2 7 * .e 0 0 * .e 0 1 + .e 1 0 * .e 1 3 * .e 2 2 * .e 2 7 * .e 0 0 * .e 0 1 + .e 1 0 * .e 1 6 * .e 2 1 * .e 2 5 * .e 0 0 * .e 0 1 + .e 1 0 * .e 1 2 * .e 2 6 * .e 2 8 * .e 0 0 * .e 0 1 + .e 1 0 * .e 1 6 * .e 2 2 * .e 2 8 * .e 0 0 * .e 0 1 + .e 1 1 * .e 1 4 * .e 2 5 * .e 2 7 * .e 0 0 * .e 0 4 + .e 1 1 * .e 1 7 * .e 2 4 * .e 2 5 * .e 0 0 * .e 0 4 + .e 1 2 * .e 1 4 * .e 2 4 * .e 2 7 * .e 0 0 * .e 0 4 + .e 1 1 * .e 1 5 * .e 2 5 * .e 2 7 * .e 0 0 * .e 0 7 + .e 1 1 * .e 1 7 * .e 2 5 * .e 2 8 * .e 0 0 * .e 0 4 + .e 1 1 * .e 1 8 * .e 2 4 * .e 2 5 * .e 0 0 * .e 0 7 + .e 1 2 * .e 1 4 * .e 2 7 * .e 2 8 * .e 0 0 * .e 0 4 + .e 1 2 * .e 1 5 * .e 2 4 * .e 2 7 * .e 0 0 * .e 0 7 + .e 1 2 * .e 1 7 * .e 2 5 * .e 2 7 * .e 0 0 * .e 0 4 + .e 1 3 * .e 1 7 * .e 2 5 * .e 2 7 * .e 0 1 * .e 0 2 + .e 1 3 * .e 1 8 * .e 2 4 * .e 2 7 * .e 0 1 * .e 0 2 + .e 1 6 * .e 1 7 * .e 2 4 * .e 2 5 * .e 0 1 * .e 0 2 + .e 1 1 * .e 1 8 * .e 2 5 * .e 2 8 * .e 0 0 * .e 0 7 + .e 1 2 * .e 1 5 * .e 2 7 * .e 2 8 * .e 0 0 * .e 0 7 + .e 1 2 * .e 1 8 * .e 2 5 * .e 2 7 * .e 0 0 * .e 0 7 + .e 1 3 * .e 1 8 * .e 2 7 * .e 2 8 * .e 0 1 * .e 0 2 + .e 1 6 * .e 1 7 * .e 2 5 * .e 2 8 * .e 0 1 * .e 0 2 + .e 1 6 * .e 1 8 * .e 2 5 * .e 2 7 * .e 0 1 * .e 0 2⟩,
    ⟨1, 7, 0⟩,
    ⟨1, 8, .e 1 0 * .e 1 3 * .e 2 0 * .e 2 0 * .e 0 1 * .e 0 1 + .e 1 0 * .e 1 1 * .e 2 0 * .e 2 0 * .e 0 0 * .e 0 4 + .e 1 0 * .e 1 2 * .e 2 0 * .e 2 0 * .e 0 0 * .e 0 7 + .e 1 0 * .e 1 6 * .e 2 0 * .e 2 0 * .e 0 1 * .e 0 2 + .e 1 1 * .e 1 3 * .e 2 4 * .e 2 4 * .e 0 0 * .e 0 1 + .e 1 2 * .e 1 6 * .e 2 8 * .e 2 8 * .e 0 0 * .e 0 1 + .e 1 1 * .e 1 4 * .e 2 0 * .e 2 3 * .e 0 1 * .e 0 4 + .e 1 3 * .e 1 4 * .e 2 0 * .e 2 1 * .e 0 1 * .e 0 4 + .e 1 1 * .e 1 3 * .e 2 5 * .e 2 7 * .e 0 0 * .e 0 1 + .e 1 1 * .e 1 5 * .e 2 0 * .e 2 6 * .e 0 1 * .e 0 4 + .e 1 1 * .e 1 6 * .e 2 4 * .e 2 5 * .e 0 0 * .e 0 1 + .e 1 1 * .e 1 7 * .e 2 0 * .e 2 3 * .e 0 2 * .e 0 4 + .e 1 2 * .e 1 3 * .e 2 4 * .e 2 7 * .e 0 0 * .e 0 1 + .e 1 2 * .e 1 4 * .e 2 0 * .e 2 3 * .e 0 1 * .e 0 7 + .e 1 3 * .e 1 5 * .e 2 0 * .e 2 1 * .e 0 1 * .e 0 7 + .e 1 3 * .e 1 7 * .e 2 0 * .e 2 2 * .e 0 1 * .e 0 4 + .e 1 4 * .e 1 6 * .e 2 0 * .e 2 1 * .e 0 2 * .e 0 4 + .e 1 1 * .e 1 6 * .e 2 5 * .e 2 8 * .e 0 0 * .e 0 1 + .e 1 1 * .e 1 8 * .e 2 0 * .e 2 6 * .e 0 2 * .e 0 4 + .e 1 2 * .e 1 3 * .e 2 7 * .e 2 8 * .e 0 0 * .e 0 1 + .e 1 2 * .e 1 5 * .e 2 0 * .e 2 6 * .e 0 1 * .e 0 7 + .e 1 2 * .e 1 6 * .e 2 5 * .e 2 7 * .e 0 0 * .e 0 1 + .e 1 2 * .e 1 7 * .e 2 0 * .e 2 3 * .e 0 2 * .e 0 7 + .e 1 3 * .e 1 8 * .e 2 0 * .e 2 2 * .e 0 1 * .e 0 7 + .e 1 5 * .e 1 6 * .e 2 0 * .e 2 1 * .e 0 2 * .e 0 7 + .e 1 6 * .e 1 7 * .e 2 0 * .e 2 2 * .e 0 2 * .e 0 4 + .e 1 2 * .e 1 8 * .e 2 0 * .e 2 6 * .e 0 2 * .e 0 7 + .e 1 6 * .e 1 8 * .e 2 0 * .e 2 2 * .e 0 2 * .e 0 7⟩,
    ⟨1, 9, 0⟩,
    ⟨1, 10, .e 1 3 * .e 1 3 * .e 2 0 * .e 2 1 * .e 0 1 * .e 0 1 + .e 1 0 * .e 1 0 * .e 2 0 * .e 2 0 * .e 0 0 * .e 0 1 + .e 1 0 * .e 1 4 * .e 2 0 * .e 2 3 * .e 0 1 * .e 0 1 + .e 1 0 * .e 1 5 * .e 2 0 * .e 2 6 * .e 0 1 * .e 0 1 + .e 1 3 * .e 1 6 * .e 2 0 * .e 2 2 * .e 0 1 * .e 0 1 + .e 1 1 * .e 1 1 * .e 2 0 * .e 2 3 * .e 0 0 * .e 0 4 + .e 1 6 * .e 1 6 * .e 2 0 * .e 2 2 * .e 0 1 * .e 0 2 + .e 1 4 * .e 1 4 * .e 2 1 * .e 2 3 * .e 0 1 * .e 0 4 + .e 1 2 * .e 1 2 * .e 2 0 * .e 2 6 * .e 0 0 * .e 0 7 + .e 1 7 * .e 1 7 * .e 2 2 * .e 2 3 * .e 0 2 * .e 0 4 + .e 1 5 * .e 1 5 * .e 2 1 * .e 2 6 * .e 0 1 * .e 0 7 + .e 1 8 * .e 1 8 * .e 2 2 * .e 2 6 * .e 0 2 * .e 0 7 + .e 1 0 * .e 1 4 * .e 2 0 * .e 2 1 * .e 0 0 * .e 0 4 + .e 1 0 * .e 1 5 * .e 2 0 * .e 2 1 * .e 0 0 * .e 0 7 + .e 1 0 * .e 1 7 * .e 2 0 * .e 2 2 * .e 0 0 * .e 0 4 + .e 1 0 * .e 1 7 * .e 2 0 * .e 2 3 * .e 0 1 * .e 0 2 + .e 1 1 * .e 1 2 * .e 2 0 * .e 2 3 * .e 0 0 * .e 0 7 + .e 1 1 * .e 1 2 * .e 2 0 * .e 2 6 * .e 0 0 * .e 0 4 + .e 1 3 * .e 1 6 * .e 2 0 * .e 2 1 * .e 0 1 * .e 0 2 + .e 1 0 * .e 1 8 * .e 2 0 * .e 2 2 * .e 0 0 * .e 0 7 + .e 1 0 * .e 1 8 * .e 2 0 * .e 2 6 * .e 0 1 * .e 0 2 + .e 1 4 * .e 1 5 * .e 2 1 * .e 2 3 * .e 0 1 * .e 0 7 + .e 1 4 * .e 1 5 * .e 2 1 * .e 2 6 * .e 0 1 * .e 0 4 + .e 1 4 * .e 1 7 * .e 2 1 * .e 2 3 * .e 0 2 * .e 0 4 + .e 1 4 * .e 1 7 * .e 2 2 * .e 2 3 * .e 0 1 * .e 0 4 + .e 1 4 * .e 1 8 * .e 2 1 * .e 2 6 * .e 0 2 * .e 0 4 + .e 1 4 * .e 1 8 * .e 2 2 * .e 2 3 * .e 0 1 * .e 0 7 + .e 1 5 * .e 1 7 * .e 2 1 * .e 2 3 * .e 0 2 * .e 0 7 + .e 1 5 * .e 1 7 * .e 2 2 * .e 2 6 * .e 0 1 * .e 0 4 + .e 1 5 * .e 1 8 * .e 2 1 * .e 2 6 * .e 0 2 * .e 0 7 + .e 1 5 * .e 1 8 * .e 2 2 * .e 2 6 * .e 0 1 * .e 0 7 + .e 1 7 * .e 1 8 * .e 2 2 * .e 2 3 * .e 0 2 * .e 0 7 + .e 1 7 * .e 1 8 * .e 2 2 * .e 2 6 * .e 0 2 * .e 0 4⟩,
    ⟨1, 11, 0⟩,
    ⟨1, 12, .e 1 3 * .e 1 4 * .e 2 1 * .e 2 3 * .e 0 1 * .e 0 1 + .e 1 3 * .e 1 5 * .e 2 1 * .e 2 6 * .e 0 1 * .e 0 1 + .e 1 4 * .e 1 6 * .e 2 2 * .e 2 3 * .e 0 1 * .e 0 1 + .e 1 5 * .e 1 6 * .e 2 2 * .e 2 6 * .e 0 1 * .e 0 1 + .e 1 0 * .e 1 1 * .e 2 0 * .e 2 3 * .e 0 0 * .e 0 1 + .e 1 0 * .e 1 3 * .e 2 0 * .e 2 1 * .e 0 0 * .e 0 1 + .e 1 0 * .e 1 2 * .e 2 0 * .e 2 6 * .e 0 0 * .e 0 1 + .e 1 0 * .e 1 6 * .e 2 0 * .e 2 2 * .e 0 0 * .e 0 1 + .e 1 1 * .e 1 4 * .e 2 1 * .e 2 3 * .e 0 0 * .e 0 4 + .e 1 1 * .e 1 5 * .e 2 1 * .e 2 3 * .e 0 0 * .e 0 7 + .e 1 1 * .e 1 7 * .e 2 2 * .e 2 3 * .e 0 0 * .e 0 4 + .e 1 2 * .e 1 4 * .e 2 1 * .e 2 6 * .e 0 0 * .e 0 4 + .e 1 3 * .e 1 7 * .e 2 1 * .e 2 3 * .e 0 1 * .e 0 2 + .e 1 1 * .e 1 8 * .e 2 2 * .e 2 3 * .e 0 0 * .e 0 7 + .e 1 2 * .e 1 5 * .e 2 1 * .e 2 6 * .e 0 0 * .e 0 7 + .e 1 2 * .e 1 7 * .e 2 2 * .e 2 6 * .e 0 0 * .e 0 4 + .e 1 3 * .e 1 8 * .e 2 1 * .e 2 6 * .e 0 1 * .e 0 2 + .e 1 6 * .e 1 7 * .e 2 2 * .e 2 3 * .e 0 1 * .e 0 2 + .e 1 2 * .e 1 8 * .e 2 2 * .e 2 6 * .e 0 0 * .e 0 7 + .e 1 6 * .e 1 8 * .e 2 2 * .e 2 6 * .e 0 1 * .e 0 2⟩,
    ⟨1, 13, 0⟩,
    ⟨1, 14, .e 1 1 * .e 1 3 * .e 2 1 * .e 2 3 * .e 0 0 * .e 0 1 + .e 1 1 * .e 1 6 * .e 2 2 * .e 2 3 * .e 0 0 * .e 0 1 + .e 1 2 * .e 1 3 * .e 2 1 * .e 2 6 * .e 0 0 * .e 0 1 + .e 1 2 * .e 1 6 * .e 2 2 * .e 2 6 * .e 0 0 * .e 0 1⟩,
    ⟨2, 0, .e 1 1 * .e 1 3 * .e 2 1 * .e 2 3 * .e 0 1 * .e 0 5 + .e 1 1 * .e 1 3 * .e 2 2 * .e 2 6 * .e 0 1 * .e 0 5 + .e 1 1 * .e 1 6 * .e 2 1 * .e 2 3 * .e 0 2 * .e 0 5 + .e 1 2 * .e 1 3 * .e 2 1 * .e 2 3 * .e 0 1 * .e 0 8 + .e 1 1 * .e 1 6 * .e 2 2 * .e 2 6 * .e 0 2 * .e 0 5 + .e 1 2 * .e 1 3 * .e 2 2 * .e 2 6 * .e 0 1 * .e 0 8 + .e 1 2 * .e 1 6 * .e 2 1 * .e 2 3 * .e 0 2 * .e 0 8 + .e 1 2 * .e 1 6 * .e 2 2 * .e 2 6 * .e 0 2 * .e 0 8⟩,
    ⟨2, 1, 0⟩,
    ⟨2, 2, .e 1 0 * .e 1 6 * .e 2 1 * .e 2 3 * .e 0 2 * .e 0 2 + .e 1 0 * .e 1 6 * .e 2 2 * .e 2 6 * .e 0 2 * .e 0 2 + .e 1 0 * .e 1 1 * .e 2 1 * .e 2 3 * .e 0 0 * .e 0 5 + .e 1 0 * .e 1 3 * .e 2 1 * .e 2 3 * .e 0 1 * .e 0 2 + .e 1 0 * .e 1 1 * .e 2 2 * .e 2 6 * .e 0 0 * .e 0 5 + .e 1 0 * .e 1 2 * .e 2 1 * .e 2 3 * .e 0 0 * .e 0 8 + .e 1 0 * .e 1 3 * .e 2 2 * .e 2 6 * .e 0 1 * .e 0 2 + .e 1 0 * .e 1 2 * .e 2 2 * .e 2 6 * .e 0 0 * .e 0 8 + .e 1 1 * .e 1 4 * .e 2 3 * .e 2 4 * .e 0 1 * .e 0 5 + .e 1 3 * .e 1 4 * .e 2 1 * .e 2 4 * .e 0 1 * .e 0 5 + .e 1 1 * .e 1 4 * .e 2 5 * .e 2 6 * .e 0 1 * .e 0 5 + .e 1 1 * .e 1 5 * .e 2 3 * .e 2 7 * .e 0 1 * .e 0 5 + .e 1 1 * .e 1 7 * .e 2 3 * .e 2 4 * .e 0 2 * .e 0 5 + .e 1 2 * .e 1 4 * .e 2 3 * .e 2 4 * .e 0 1 * .e 0 8 + .e 1 3 * .e 1 4 * .e 2 2 * .e 2 7 * .e 0 1 * .e 0 5 + .e 1 3 * .e 1 5 * .e 2 1 * .e 2 4 * .e 0 1 * .e 0 8 + .e 1 3 * .e 1 7 * .e 2 1 * .e 2 5 * .e 0 1 * .e 0 5 + .e 1 4 * .e 1 6 * .e 2 1 * .e 2 4 * .e 0 2 * .e 0 5 + .e 1 1 * .e 1 5 * .e 2 6 * .e 2 8 * .e 0 1 * .e 0 5 + .e 1 1 * .e 1 7 * .e 2 5 * .e 2 6 * .e 0 2 * .e 0 5 + .e 1 1 * .e 1 8 * .e 2 3 * .e 2 7 * .e 0 2 * .e 0 5 + .e 1 2 * .e 1 4 * .e 2 5 * .e 2 6 * .e 0 1 * .e 0 8 + .e 1 2 * .e 1 5 * .e 2 3 * .e 2 7 * .e 0 1 * .e 0 8 + .e 1 2 * .e 1 7 * .e 2 3 * .e 2 4 * .e 0 2 * .e 0 8 + .e 1 3 * .e 1 5 * .e 2 2 * .e 2 7 * .e 0 1 * .e 0 8 + .e 1 3 * .e 1 7 * .e 2 2 * .e 2 8 * .e 0 1 * .e 0 5 + .e 1 3 * .e 1 8 * .e 2 1 * .e 2 5 * .e 0 1 * .e 0 8 + .e 1 4 * .e 1 6 * .e 2 2 * .e 2 7 * .e 0 2 * .e 0 5 + .e 1 5 * .e 1 6 * .e 2 1 * .e 2 4 * .e 0 2 * .e 0 8 + .e 1 6 * .e 1 7 * .e 2 1 * .e 2 5 * .e 0 2 * .e 0 5 + .e 1 1 * .e 1 8 * .e 2 6 * .e 2 8 * .e 0 2 * .e 0 5 + .e 1 2 * .e 1 5 * .e 2 6 * .e 2 8 * .e 0 1 * .e 0 8 + .e 1 2 * .e 1 7 * .e 2 5 * .e 2 6 * .e 0 2 * .e 0 8 + .e 1 2 * .e 1 8 * .e 2 3 * .e 2 7 * .e 0 2 * .e 0 8 + .e 1 3 * .e 1 8 * .e 2 2 * .e 2 8 * .e 0 1 * .e 0 8 + .e 1 5 * .e 1 6 * .e 2 2 * .e 2 7 * .e 0 2 * .e 0 8 + .e 1 6 * .e 1 7 * .e 2 2 * .e 2 8 * .e 0 2 * .e 0 5 + .e 1 6 * .e 1 8 * .e 2 1 * .e 2 5 * .e 0 2 * .e 0 8 + .e 1 2 * .e 1 8 * .e 2 6 * .e 2 8 * .e 0 2 * .e 0 8 + .e 1 6 * .e 1 8 * .e 2 2 * .e 2 8 * .e 0 2 * .e 0 8⟩,
    ⟨2, 3, 0⟩,
    ⟨2, 4, .e 1 6 * .e 1 6 * .e 2 1 * .e 2 5 * .e 0 2 * .e 0 2 + .e 1 6 * .e 1 6 * .e 2 2 * .e 2 8 * .e 0 2 * .e 0 2 + .e 1 4 * .e 1 4 * .e 2 4 * .e 2 4 * .e 0 1 * .e 0 5 + .e 1 8 * .e 1 8 * .e 2 8 * .e 2 8 * .e 0 2 * .e 0 8 + .e 1 0 * .e 1 7 * .e 2 3 * .e 2 4 * .e 0 2 * .e 0 2 + .e 1 3 * .e 1 6 * .e 2 1 * .e 2 4 * .e 0 2 * .e 0 2 + .e 1 0 * .e 1 7 * .e 2 5 * .e 2 6 * .e 0 2 * .e 0 2 + .e 1 0 * .e 1 8 * .e 2 3 * .e 2 7 * .e 0 2 * .e 0 2 + .e 1 3 * .e 1 6 * .e 2 2 * .e 2 7 * .e 0 2 * .e 0 2 + .e 1 0 * .e 1 8 * .e 2 6 * .e 2 8 * .e 0 2 * .e 0 2 + .e 1 4 * .e 1 5 * .e 2 4 * .e 2 4 * .e 0 1 * .e 0 8 + .e 1 4 * .e 1 7 * .e 2 4 * .e 2 4 * .e 0 2 * .e 0 5 + .e 1 5 * .e 1 7 * .e 2 4 * .e 2 4 * .e 0 2 * .e 0 8 + .e 1 5 * .e 1 7 * .e 2 8 * .e 2 8 * .e 0 1 * .e 0 5 + .e 1 5 * .e 1 8 * .e 2 8 * .e 2 8 * .e 0 1 * .e 0 8 + .e 1 7 * .e 1 8 * .e 2 8 * .e 2 8 * .e 0 2 * .e 0 5 + .e 1 0 * .e 1 0 * .e 2 1 * .e 2 3 * .e 0 0 * .e 0 2 + .e 1 0 * .e 1 0 * .e 2 2 * .e 2 6 * .e 0 0 * .e 0 2 + .e 1 3 * .e 1 3 * .e 2 1 * .e 2 4 * .e 0 1 * .e 0 2 + .e 1 1 * .e 1 1 * .e 2 3 * .e 2 4 * .e 0 0 * .e 0 5 + .e 1 3 * .e 1 3 * .e 2 2 * .e 2 7 * .e 0 1 * .e 0 2 + .e 1 1 * .e 1 1 * .e 2 5 * .e 2 6 * .e 0 0 * .e 0 5 + .e 1 2 * .e 1 2 * .e 2 3 * .e 2 7 * .e 0 0 * .e 0 8 + .e 1 4 * .e 1 4 * .e 2 5 * .e 2 7 * .e 0 1 * .e 0 5 + .e 1 7 * .e 1 7 * .e 2 4 * .e 2 5 * .e 0 2 * .e 0 5 + .e 1 2 * .e 1 2 * .e 2 6 * .e 2 8 * .e 0 0 * .e 0 8 + .e 1 5 * .e 1 5 * .e 2 4 * .e 2 7 * .e 0 1 * .e 0 8 + .e 1 7 * .e 1 7 * .e 2 5 * .e 2 8 * .e 0 2 * .e 0 5 + .e 1 5 * .e 1 5 * .e 2 7 * .e 2 8 * .e 0 1 * .e 0 8 + .e 1 8 * .e 1 8 * .e 2 5 * .e 2 7 * .e 0 2 * .e 0 8 + .e 1 0 * .e 1 4 * .e 2 1 * .e 2 4 * .e 0 0 * .e 0 5 + .e 1 0 * .e 1 4 * .e 2 3 * .e 2 4 * .e 0 1 * .e 0 2 + .e 1 0 * .e 1 4 * .e 2 2 * .e 2 7 * .e 0 0 * .e 0 5 + .e 1 0 * .e 1 4 * .e 2 5 * .e 2 6 * .e 0 1 * .e 0 2 + .e 1 0 * .e 1 5 * .e 2 1 * .e 2 4 * .e 0 0 * .e 0 8 + .e 1 0 * .e 1 5 * .e 2 3 * .e 2 7 * .e 0 1 * .e 0 2 + .e 1 0 * .e 1 7 * .e 2 1 * .e 2 5 * .e 0 0 * .e 0 5 + .e 1 1 * .e 1 2 * .e 2 3 * .e 2 4 * .e 0 0 * .e 0 8 + .e 1 1 * .e 1 2 * .e 2 3 * .e 2 7 * .e 0 0 * .e 0 5 + .e 1 3 * .e 1 6 * .e 2 1 * .e 2 5 * .e 0 1 * .e 0 2 + .e 1 0 * .e 1 5 * .e 2 2 * .e 2 7 * .e 0 0 * .e 0 8 + .e 1 0 * .e 1 5 * .e 2 6 * .e 2 8 * .e 0 1 * .e 0 2 + .e 1 0 * .e 1 7 * .e 2 2 * .e 2 8 * .e 0 0 * .e 0 5 + .e 1 0 * .e 1 8 * .e 2 1 * .e 2 5 * .e 0 0 * .e 0 8 + .e 1 1 * .e 1 2 * .e 2 5 * .e 2 6 * .e 0 0 * .e 0 8 + .e 1 1 * .e 1 2 * .e 2 6 * .e 2 8 * .e 0 0 * .e 0 5 + .e 1 3 * .e 1 6 * .e 2 2 * .e 2 8 * .e 0 1 * .e 0 2 + .e 1 0 * .e 1 8 * .e 2 2 * .e 2 8 * .e 0 0 * .e 0 8 + .e 1 4 * .e 1 5 * .e 2 4 * .e 2 7 * .e 0 1 * .e 0 5 + .e 1 4 * .e 1 7 * .e 2 4 * .e 2 5 * .e 0 1 * .e 0 5 + .e 1 4 * .e 1 5 * .e 2 5 * .e 2 7 * .e 0 1 * .e 0 8 + .e 1 4 * .e 1 5 * .e 2 7 * .e 2 8 * .e 0 1 * .e 0 5 + .e 1 4 * .e 1 7 * .e 2 5 * .e 2 7 * .e 0 2 * .e 0 5 + .e 1 4 * .e 1 7 * .e 2 5 * .e 2 8 * .e 0 1 * .e 0 5 + .e 1 4 * .e 1 8 * .e 2 4 * .e 2 5 * .e 0 1 * .e 0 8 + .e 1 4 * .e 1 8 * .e 2 4 * .e 2 7 * .e 0 2 * .e 0 5 + .e 1 5 * .e 1 7 * .e 2 5 * .e 2 7 * .e 0 1 * .e 0 5 + .e 1 4 * .e 1 8 * .e 2 5 * .e 2 8 * .e 0 1 * .e 0 8 + .e 1 4 * .e 1 8 * .e 2 7 * .e 2 8 * .e 0 2 * .e 0 5 + .e 1 5 * .e 1 7 * .e 2 5 * .e 2 7 * .e 0 2 * .e 0 8 + .e 1 5 * .e 1 8 * .e 2 4 * .e 2 7 * .e 0 2 * .e 0 8 + .e 1 5 * .e 1 8 * .e 2 5 * .e 2 7 * .e 0 1 * .e 0 8 + .e 1 7 * .e 1 8 * .e 2 4 * .e 2 5 * .e 0 2 * .e 0 8 + .e 1 7 * .e 1 8 * .e 2 5 * .e 2 7 * .e 0 2 * .e 0 5 + .e 1 5 * .e 1 8 * .e 2 7 * .e 2 8 * .e 0 2 * .e 0 8 + .e 1 7 * .e 1 8 * .e 2 5 * .e 2 8 * .e 0 2 * .e 0 8⟩,
    ⟨2, 5, 0⟩,
    ⟨2, 6, .e 1 3 * .e 1 7 * .e 2 4 * .e 2 4 * .e 0 2 * .e 0 2 + .e 1 6 * .e 1 8 * .e 2 8 * .e 2 8 * .e 0 2 * .e 0 2 + .e 1 3 * .e 1 7 * .e 2 5 * .e 2 7 * .e 0 2 * .e 0 2 + .e 1 3 * .e 1 8 * .e 2 4 * .e 2 7 * .e 0 2 * .e 0 2 + .e 1 6 * .e 1 7 * .e 2 4 * .e 2 5 * .e 0 2 * .e 0 2 + .e 1 3 * .e 1 8 * .e 2 7 * .e 2 8 * .e 0 2 * .e 0 2 + .e 1 6 * .e 1 7 * .e 2 5 * .e 2 8 * .e 0 2 * .e 0 2 + .e 1 6 * .e 1 8 * .e 2 5 * .e 2 7 * .e 0 2 * .e 0 2 + .e 1 1 * .e 1 3 * .e 2 0 * .e 2 0 * .e 0 1 * .e 0 5 + .e 1 1 * .e 1 4 * .e 2 4 * .e 2 4 * .e 0 0 * .e 0 5 + .e 1 1 * .e 1 6 * .e 2 0 * .e 2 0 * .e 0 2 * .e 0 5 + .e 1 2 * .e 1 3 * .e 2 0 * .e 2 0 * .e 0 1 * .e 0 8 + .e 1 3 * .e 1 4 * .e 2 4 * .e 2 4 * .e 0 1 * .e 0 2 + .e 1 1 * .e 1 5 * .e 2 4 * .e 2 4 * .e 0 0 * .e 0 8 + .e 1 2 * .e 1 6 * .e 2 0 * .e 2 0 * .e 0 2 * .e 0 8 + .e 1 2 * .e 1 7 * .e 2 8 * .e 2 8 * .e 0 0 * .e 0 5 + .e 1 5 * .e 1 6 * .e 2 8 * .e 2 8 * .e 0 1 * .e 0 2 + .e 1 2 * .e 1 8 * .e 2 8 * .e 2 8 * .e 0 0 * .e 0 8 + .e 1 0 * .e 1 1 * .e 2 3 * .e 2 4 * .e 0 0 * .e 0 2 + .e 1 0 * .e 1 3 * .e 2 1 * .e 2 4 * .e 0 0 * .e 0 2 + .e 1 0 * .e 1 1 * .e 2 5 * .e 2 6 * .e 0 0 * .e 0 2 + .e 1 0 * .e 1 2 * .e 2 3 * .e 2 7 * .e 0 0 * .e 0 2 + .e 1 0 * .e 1 3 * .e 2 2 * .e 2 7 * .e 0 0 * .e 0 2 + .e 1 0 * .e 1 6 * .e 2 1 * .e 2 5 * .e 0 0 * .e 0 2 + .e 1 0 * .e 1 2 * .e 2 6 * .e 2 8 * .e 0 0 * .e 0 2 + .e 1 0 * .e 1 6 * .e 2 2 * .e 2 8 * .e 0 0 * .e 0 2 + .e 1 1 * .e 1 4 * .e 2 5 * .e 2 7 * .e 0 0 * .e 0 5 + .e 1 1 * .e 1 7 * .e 2 4 * .e 2 5 * .e 0 0 * .e 0 5 + .e 1 2 * .e 1 4 * .e 2 4 * .e 2 7 * .e 0 0 * .e 0 5 + .e 1 3 * .e 1 4 * .e 2 5 * .e 2 7 * .e 0 1 * .e 0 2 + .e 1 3 * .e 1 5 * .e 2 4 * .e 2 7 * .e 0 1 * .e 0 2 + .e 1 4 * .e 1 6 * .e 2 4 * .e 2 5 * .e 0 1 * .e 0 2 + .e 1 1 * .e 1 5 * .e 2 5 * .e 2 7 * .e 0 0 * .e 0 8 + .e 1 1 * .e 1 7 * .e 2 5 * .e 2 8 * .e 0 0 * .e 0 5 + .e 1 1 * .e 1 8 * .e 2 4 * .e 2 5 * .e 0 0 * .e 0 8 + .e 1 2 * .e 1 4 * .e 2 7 * .e 2 8 * .e 0 0 * .e 0 5 + .e 1 2 * .e 1 5 * .e 2 4 * .e 2 7 * .e 0 0 * .e 0 8 + .e 1 2 * .e 1 7 * .e 2 5 * .e 2 7 * .e 0 0 * .e 0 5 + .e 1 3 * .e 1 5 * .e 2 7 * .e 2 8 * .e 0 1 * .e 0 2 + .e 1 4 * .e 1 6 * .e 2 5 * .e 2 8 * .e 0 1 * .e 0 2 + .e 1 5 * .e 1 6 * .e 2 5 * .e 2 7 * .e 0 1 * .e 0 2 + .e 1 1 * .e 1 8 * .e 2 5 * .e 2 8 * .e 0 0 * .e 0 8 + .e 1 2 * .e 1 5 * .e 2 7 * .e 2 8 * .e 0 0 * .e 0 8 + .e 1 2 * .e 1 8 * .e 2 5 * .e 2 7 * .e 0 0 * .e 0 8⟩,
    ⟨2, 7, 0⟩,
    ⟨2, 8, .e 1 0 * .e 1 6 * .e 2 0 * .e 2 0 * .e 0 2 * .e 0 2 + .e 1 0 * .e 1 1 * .e 2 0 * .e 2 0 * .e 0 0 * .e 0 5 + .e 1 0 * .e 1 3 * .e 2 0 * .e 2 0 * .e 0 1 * .e 0 2 + .e 1 0 * .e 1 2 * .e 2 0 * .e 2 0 * .e 0 0 * .e 0 8 + .e 1 1 * .e 1 3 * .e 2 4 * .e 2 4 * .e 0 0 * .e 0 2 + .e 1 2 * .e 1 6 * .e 2 8 * .e 2 8 * .e 0 0 * .e 0 2 + .e 1 1 * .e 1 4 * .e 2 0 * .e 2 3 * .e 0 1 * .e 0 5 + .e 1 3 * .e 1 4 * .e 2 0 * .e 2 1 * .e 0 1 * .e 0 5 + .e 1 1 * .e 1 3 * .e 2 5 * .e 2 7 * .e 0 0 * .e 0 2 + .e 1 1 * .e 1 5 * .e 2 0 * .e 2 6 * .e 0 1 * .e 0 5 + .e 1 1 * .e 1 6 * .e 2 4 * .e 2 5 * .e 0 0 * .e 0 2 + .e 1 1 * .e 1 7 * .e 2 0 * .e 2 3 * .e 0 2 * .e 0 5 + .e 1 2 * .e 1 3 * .e 2 4 * .e 2 7 * .e 0 0 * .e 0 2 + .e 1 2 * .e 1 4 * .e 2 0 * .e 2 3 * .e 0 1 * .e 0 8 + .e 1 3 * .e 1 5 * .e 2 0 * .e 2 1 * .e 0 1 * .e 0 8 + .e 1 3 * .e 1 7 * .e 2 0 * .e 2 2 * .e 0 1 * .e 0 5 + .e 1 4 * .e 1 6 * .e 2 0 * .e 2 1 * .e 0 2 * .e 0 5 + .e 1 1 * .e 1 6 * .e 2 5 * .e 2 8 * .e 0 0 * .e 0 2 + .e 1 1 * .e 1 8 * .e 2 0 * .e 2 6 * .e 0 2 * .e 0 5 + .e 1 2 * .e 1 3 * .e 2 7 * .e 2 8 * .e 0 0 * .e 0 2 + .e 1 2 * .e 1 5 * .e 2 0 * .e 2 6 * .e 0 1 * .e 0 8 + .e 1 2 * .e 1 6 * .e 2 5 * .e 2 7 * .e 0 0 * .e 0 2 + .e 1 2 * .e 1 7 * .e 2 0 * .e 2 3 * .e 0 2 * .e 0 8 + .e 1 3 * .e 1 8 * .e 2 0 * .e 2 2 * .e 0 1 * .e 0 8 + .e 1 5 * .e 1 6 * .e 2 0 * .e 2 1 * .e 0 2 * .e 0 8 + .e 1 6 * .e 1 7 * .e 2 0 * .e 2 2 * .e 0 2 * .e 0 5 + .e 1 2 * .e 1 8 * .e 2 0 * .e 2 6 * .e 0 2 * .e 0 8 + .e 1 6 * .e 1 8 * .e 2 0 * .e 2 2 * .e 0 2 * .e 0 8⟩,
    ⟨2, 9, 0⟩,
    ⟨2, 10, .e 1 6 * .e 1 6 * .e 2 0 * .e 2 2 * .e 0 2 * .e 0 2 + .e 1 0 * .e 1 0 * .e 2 0 * .e 2 0 * .e 0 0 * .e 0 2 + .e 1 0 * .e 1 7 * .e 2 0 * .e 2 3 * .e 0 2 * .e 0 2 + .e 1 3 * .e 1 6 * .e 2 0 * .e 2 1 * .e 0 2 * .e 0 2 + .e 1 0 * .e 1 8 * .e 2 0 * .e 2 6 * .e 0 2 * .e 0 2 + .e 1 3 * .e 1 3 * .e 2 0 * .e 2 1 * .e 0 1 * .e 0 2 + .e 1 1 * .e 1 1 * .e 2 0 * .e 2 3 * .e 0 0 * .e 0 5 + .e 1 4 * .e 1 4 * .e 2 1 * .e 2 3 * .e 0 1 * .e 0 5 + .e 1 2 * .e 1 2 * .e 2 0 * .e 2 6 * .e 0 0 * .e 0 8 + .e 1 7 * .e 1 7 * .e 2 2 * .e 2 3 * .e 0 2 * .e 0 5 + .e 1 5 * .e 1 5 * .e 2 1 * .e 2 6 * .e 0 1 * .e 0 8 + .e 1 8 * .e 1 8 * .e 2 2 * .e 2 6 * .e 0 2 * .e 0 8 + .e 1 0 * .e 1 4 * .e 2 0 * .e 2 1 * .e 0 0 * .e 0 5 + .e 1 0 * .e 1 4 * .e 2 0 * .e 2 3 * .e 0 1 * .e 0 2 + .e 1 0 * .e 1 5 * .e 2 0 * .e 2 1 * .e 0 0 * .e 0 8 + .e 1 0 * .e 1 5 * .e 2 0 * .e 2 6 * .e 0 1 * .e 0 2 + .e 1 0 * .e 1 7 * .e 2 0 * .e 2 2 * .e 0 0 * .e 0 5 + .e 1 1 * .e 1 2 * .e 2 0 * .e 2 3 * .e 0 0 * .e 0 8 + .e 1 1 * .e 1 2 * .e 2 0 * .e 2 6 * .e 0 0 * .e 0 5 + .e 1 3 * .e 1 6 * .e 2 0 * .e 2 2 * .e 0 1 * .e 0 2 + .e 1 0 * .e 1 8 * .e 2 0 * .e 2 2 * .e 0 0 * .e 0 8 + .e 1 4 * .e 1 5 * .e 2 1 * .e 2 3 * .e 0 1 * .e 0 8 + .e 1 4 * .e 1 5 * .e 2 1 * .e 2 6 * .e 0 1 * .e 0 5 + .e 1 4 * .e 1 7 * .e 2 1 * .e 2 3 * .e 0 2 * .e 0 5 + .e 1 4 * .e 1 7 * .e 2 2 * .e 2 3 * .e 0 1 * .e 0 5 + .e 1 4 * .e 1 8 * .e 2 1 * .e 2 6 * .e 0 2 * .e 0 5 + .e 1 4 * .e 1 8 * .e 2 2 * .e 2 3 * .e 0 1 * .e 0 8 + .e 1 5 * .e 1 7 * .e 2 1 * .e 2 3 * .e 0 2 * .e 0 8 + .e 1 5 * .e 1 7 * .e 2 2 * .e 2 6 * .e 0 1 * .e 0 5 + .e 1 5 * .e 1 8 * .e 2 1 * .e 2 6 * .e 0 2 * .e 0 8 + .e 1 5 * .e 1 8 * .e 2 2 * .e 2 6 * .e 0 1 * .e 0 8 + .e 1 7 * .e 1 8 * .e 2 2 * .e 2 3 * .e 0 2 * .e 0 8 + .e 1 7 * .e 1 8 * .e 2 2 * .e 2 6 * .e 0 2 * .e 0 5⟩,
    ⟨2, 11, 0⟩,
    ⟨2, 12, .e 1 3 * .e 1 7 * .e 2 1 * .e 2 3 * .e 0 2 * .e 0 2 + .e 1 3 * .e 1 8 * .e 2 1 * .e 2 6 * .e 0 2 * .e 0 2 + .e 1 6 * .e 1 7 * .e 2 2 * .e 2 3 * .e 0 2 * .e 0 2 + .e 1 6 * .e 1 8 * .e 2 2 * .e 2 6 * .e 0 2 * .e 0 2 + .e 1 0 * .e 1 1 * .e 2 0 * .e 2 3 * .e 0 0 * .e 0 2 + .e 1 0 * .e 1 3 * .e 2 0 * .e 2 1 * .e 0 0 * .e 0 2 + .e 1 0 * .e 1 2 * .e 2 0 * .e 2 6 * .e 0 0 * .e 0 2 + .e 1 0 * .e 1 6 * .e 2 0 * .e 2 2 * .e 0 0 * .e 0 2 + .e 1 1 * .e 1 4 * .e 2 1 * .e 2 3 * .e 0 0 * .e 0 5 + .e 1 3 * .e 1 4 * .e 2 1 * .e 2 3 * .e 0 1 * .e 0 2 + .e 1 1 * .e 1 5 * .e 2 1 * .e 2 3 * .e 0 0 * .e 0 8 + .e 1 1 * .e 1 7 * .e 2 2 * .e 2 3 * .e 0 0 * .e 0 5 + .e 1 2 * .e 1 4 * .e 2 1 * .e 2 6 * .e 0 0 * .e 0 5 + .e 1 3 * .e 1 5 * .e 2 1 * .e 2 6 * .e 0 1 * .e 0 2 + .e 1 4 * .e 1 6 * .e 2 2 * .e 2 3 * .e 0 1 * .e 0 2 + .e 1 1 * .e 1 8 * .e 2 2 * .e 2 3 * .e 0 0 * .e 0 8 + .e 1 2 * .e 1 5 * .e 2 1 * .e 2 6 * .e 0 0 * .e 0 8 + .e 1 2 * .e 1 7 * .e 2 2 * .e 2 6 * .e 0 0 * .e 0 5 + .e 1 5 * .e 1 6 * .e 2 2 * .e 2 6 * .e 0 1 * .e 0 2 + .e 1 2 * .e 1 8 * .e 2 2 * .e 2 6 * .e 0 0 * .e 0 8⟩,
    ⟨2, 13, 0⟩,
    ⟨2, 14, .e 1 1 * .e 1 3 * .e 2 1 * .e 2 3 * .e 0 0 * .e 0 2 + .e 1 1 * .e 1 6 * .e 2 2 * .e 2 3 * .e 0 0 * .e 0 2 + .e 1 2 * .e 1 3 * .e 2 1 * .e 2 6 * .e 0 0 * .e 0 2 + .e 1 2 * .e 1 6 * .e 2 2 * .e 2 6 * .e 0 0 * .e 0 2⟩,
    ⟨3, 0, .e 1 1 * .e 1 3 * .e 2 1 * .e 2 3 * .e 0 3 * .e 0 4 + .e 1 1 * .e 1 3 * .e 2 2 * .e 2 6 * .e 0 3 * .e 0 4 + .e 1 1 * .e 1 6 * .e 2 1 * .e 2 3 * .e 0 3 * .e 0 5 + .e 1 2 * .e 1 3 * .e 2 1 * .e 2 3 * .e 0 4 * .e 0 6 + .e 1 1 * .e 1 6 * .e 2 2 * .e 2 6 * .e 0 3 * .e 0 5 + .e 1 2 * .e 1 3 * .e 2 2 * .e 2 6 * .e 0 4 * .e 0 6 + .e 1 2 * .e 1 6 * .e 2 1 * .e 2 3 * .e 0 5 * .e 0 6 + .e 1 2 * .e 1 6 * .e 2 2 * .e 2 6 * .e 0 5 * .e 0 6⟩,
    ⟨3, 1, 0⟩,
    ⟨3, 2, .e 1 0 * .e 1 1 * .e 2 1 * .e 2 3 * .e 0 3 * .e 0 3 + .e 1 0 * .e 1 1 * .e 2 2 * .e 2 6 * .e 0 3 * .e 0 3 + .e 1 0 * .e 1 3 * .e 2 1 * .e 2 3 * .e 0 0 * .e 0 4 + .e 1 0 * .e 1 2 * .e 2 1 * .e 2 3 * .e 0 3 * .e 0 6 + .e 1 0 * .e 1 3 * .e 2 2 * .e 2 6 * .e 0 0 * .e 0 4 + .e 1 0 * .e 1 6 * .e 2 1 * .e 2 3 * .e 0 0 * .e 0 5 + .e 1 0 * .e 1 2 * .e 2 2 * .e 2 6 * .e 0 3 * .e 0 6 + .e 1 0 * .e 1 6 * .e 2 2 * .e 2 6 * .e 0 0 * .e 0 5 + .e 1 1 * .e 1 4 * .e 2 3 * .e 2 4 * .e 0 3 * .e 0 4 + .e 1 3 * .e 1 4 * .e 2 1 * .e 2 4 * .e 0 3 * .e 0 4 + .e 1 1 * .e 1 4 * .e 2 5 * .e 2 6 * .e 0 3 * .e 0 4 + .e 1 1 * .e 1 5 * .e 2 3 * .e 2 7 * .e 0 3 * .e 0 4 + .e 1 1 * .e 1 7 * .e 2 3 * .e 2 4 * .e 0 3 * .e 0 5 + .e 1 2 * .e 1 4 * .e 2 3 * .e 2 4 * .e 0 4 * .e 0 6 + .e 1 3 * .e 1 4 * .e 2 2 * .e 2 7 * .e 0 3 * .e 0 4 + .e 1 3 * .e 1 5 * .e 2 1 * .e 2 4 * .e 0 4 * .e 0 6 + .e 1 3 * .e 1 7 * .e 2 1 * .e 2 5 * .e 0 3 * .e 0 4 + .e 1 4 * .e 1 6 * .e 2 1 * .e 2 4 * .e 0 3 * .e 0 5 + .e 1 1 * .e 1 5 * .e 2 6 * .e 2 8 * .e 0 3 * .e 0 4 + .e 1 1 * .e 1 7 * .e 2 5 * .e 2 6 * .e 0 3 * .e 0 5 + .e 1 1 * .e 1 8 * .e 2 3 * .e 2 7 * .e 0 3 * .e 0 5 + .e 1 2 * .e 1 4 * .e 2 5 * .e 2 6 * .e 0 4 * .e 0 6 + .e 1 2 * .e 1 5 * .e 2 3 * .e 2 7 * .e 0 4 * .e 0 6 + .e 1 2 * .e 1 7 * .e 2 3 * .e 2 4 * .e 0 5 * .e 0 6 + .e 1 3 * .e 1 5 * .e 2 2 * .e 2 7 * .e 0 4 * .e 0 6 + .e 1 3 * .e 1 7 * .e 2 2 * .e 2 8 * .e 0 3 * .e 0 4 + .e 1 3 * .e 1 8 * .e 2 1 * .e 2 5 * .e 0 4 * .e 0 6 + .e 1 4 * .e 1 6 * .e 2 2 * .e 2 7 * .e 0 3 * .e 0 5 + .e 1 5 * .e 1 6 * .e 2 1 * .e 2 4 * .e 0 5 * .e 0 6 + .e 1 6 * .e 1 7 * .e 2 1 * .e 2 5 * .e 0 3 * .e 0 5 + .e 1 1 * .e 1 8 * .e 2 6 * .e 2 8 * .e 0 3 * .e 0 5 + .e 1 2 * .e 1 5 * .e 2 6 * .e 2 8 * .e 0 4 * .e 0 6 + .e 1 2 * .e 1 7 * .e 2 5 * .e 2 6 * .e 0 5 * .e 0 6 + .e 1 2 * .e 1 8 * .e 2 3 * .e 2 7 * .e 0 5 * .e 0 6 + .e 1 3 * .e 1 8 * .e 2 2 * .e 2 8 * .e 0 4 * .e 0 6 + .e 1 5 * .e 1 6 * .e 2 2 * .e 2 7 * .e 0 5 * .e 0 6 + .e 1 6 * .e 1 7 * .e 2 2 * .e 2 8 * .e 0 3 * .e 0 5 + .e 1 6 * .e 1 8 * .e 2 1 * .e 2 5 * .e 0 5 * .e 0 6 + .e 1 2 * .e 1 8 * .e 2 6 * .e 2 8 * .e 0 5 * .e 0 6 + .e 1 6 * .e 1 8 * .e 2 2 * .e 2 8 * .e 0 5 * .e 0 6⟩,
    ⟨3, 3, 0⟩,
    ⟨3, 4, .e 1 1 * .e 1 1 * .e 2 3 * .e 2 4 * .e 0 3 * .e 0 3 + .e 1 1 * .e 1 1 * .e 2 5 * .e 2 6 * .e 0 3 * .e 0 3 + .e 1 4 * .e 1 4 * .e 2 4 * .e 2 4 * .e 0 3 * .e 0 4 + .e 1 8 * .e 1 8 * .e 2 8 * .e 2 8 * .e 0 5 * .e 0 6 + .e 1 0 * .e 1 4 * .e 2 1 * .e 2 4 * .e 0 3 * .e 0 3 + .e 1 0 * .e 1 4 * .e 2 2 * .e 2 7 * .e 0 3 * .e 0 3 + .e 1 0 * .e 1 7 * .e 2 1 * .e 2 5 * .e 0 3 * .e 0 3 + .e 1 1 * .e 1 2 * .e 2 3 * .e 2 7 * .e 0 3 * .e 0 3 + .e 1 0 * .e 1 7 * .e 2 2 * .e 2 8 * .e 0 3 * .e 0 3 + .e 1 1 * .e 1 2 * .e 2 6 * .e 2 8 * .e 0 3 * .e 0 3 + .e 1 4 * .e 1 5 * .e 2 4 * .e 2 4 * .e 0 4 * .e 0 6 + .e 1 4 * .e 1 7 * .e 2 4 * .e 2 4 * .e 0 3 * .e 0 5 + .e 1 5 * .e 1 7 * .e 2 4 * .e 2 4 * .e 0 5 * .e 0 6 + .e 1 5 * .e 1 7 * .e 2 8 * .e 2 8 * .e 0 3 * .e 0 4 + .e 1 5 * .e 1 8 * .e 2 8 * .e 2 8 * .e 0 4 * .e 0 6 + .e 1 7 * .e 1 8 * .e 2 8 * .e 2 8 * .e 0 3 * .e 0 5 + .e 1 0 * .e 1 0 * .e 2 1 * .e 2 3 * .e 0 0 * .e 0 3 + .e 1 0 * .e 1 0 * .e 2 2 * .e 2 6 * .e 0 0 * .e 0 3 + .e 1 3 * .e 1 3 * .e 2 1 * .e 2 4 * .e 0 0 * .e 0 4 + .e 1 3 * .e 1 3 * .e 2 2 * .e 2 7 * .e 0 0 * .e 0 4 + .e 1 6 * .e 1 6 * .e 2 1 * .e 2 5 * .e 0 0 * .e 0 5 + .e 1 6 * .e 1 6 * .e 2 2 * .e 2 8 * .e 0 0 * .e 0 5 + .e 1 2 * .e 1 2 * .e 2 3 * .e 2 7 * .e 0 3 * .e 0 6 + .e 1 4 * .e 1 4 * .e 2 5 * .e 2 7 * .e 0 3 * .e 0 4 + .e 1 7 * .e 1 7 * .e 2 4 * .e 2 5 * .e 0 3 * .e 0 5 + .e 1 2 * .e 1 2 * .e 2 6 * .e 2 8 * .e 0 3 * .e 0 6 + .e 1 5 * .e 1 5 * .e 2 4 * .e 2 7 * .e 0 4 * .e 0 6 + .e 1 7 * .e 1 7 * .e 2 5 * .e 2 8 * .e 0 3 * .e 0 5 + .e 1 5 * .e 1 5 * .e 2 7 * .e 2 8 * .e 0 4 * .e 0 6 + .e 1 8 * .e 1 8 * .e 2 5 * .e 2 7 * .e 0 5 * .e 0 6 + .e 1 0 * .e 1 4 * .e 2 3 * .e 2 4 * .e 0 0 * .e 0 4 + .e 1 0 * .e 1 4 * .e 2 5 * .e 2 6 * .e 0 0 * .e 0 4 + .e 1 0 * .e 1 5 * .e 2 1 * .e 2 4 * .e 0 3 * .e 0 6 + .e 1 0 * .e 1 5 * .e 2 3 * .e 2 7 * .e 0 0 * .e 0 4 + .e 1 0 * .e 1 7 * .e 2 3 * .e 2 4 * .e 0 0 * .e 0 5 + .e 1 1 * .e 1 2 * .e 2 3 * .e 2 4 * .e 0 3 * .e 0 6 + .e 1 3 * .e 1 6 * .e 2 1 * .e 2 4 * .e 0 0 * .e 0 5 + .e 1 3 * .e 1 6 * .e 2 1 * .e 2 5 * .e 0 0 * .e 0 4 + .e 1 0 * .e 1 5 * .e 2 2 * .e 2 7 * .e 0 3 * .e 0 6 + .e 1 0 * .e 1 5 * .e 2 6 * .e 2 8 * .e 0 0 * .e 0 4 + .e 1 0 * .e 1 7 * .e 2 5 * .e 2 6 * .e 0 0 * .e 0 5 + .e 1 0 * .e 1 8 * .e 2 1 * .e 2 5 * .e 0 3 * .e 0 6 + .e 1 0 * .e 1 8 * .e 2 3 * .e 2 7 * .e 0 0 * .e 0 5 + .e 1 1 * .e 1 2 * .e 2 5 * .e 2 6 * .e 0 3 * .e 0 6 + .e 1 3 * .e 1 6 * .e 2 2 * .e 2 7 * .e 0 0 * .e 0 5 + .e 1 3 * .e 1 6 * .e 2 2 * .e 2 8 * .e 0 0 * .e 0 4 + .e 1 0 * .e 1 8 * .e 2 2 * .e 2 8 * .e 0 3 * .e 0 6 + .e 1 0 * .e 1 8 * .e 2 6 * .e 2 8 * .e 0 0 * .e 0 5 + .e 1 4 * .e 1 5 * .e 2 4 * .e 2 7 * .e 0 3 * .e 0 4 + .e 1 4 * .e 1 7 * .e 2 4 * .e 2 5 * .e 0 3 * .e 0 4 + .e 1 4 * .e 1 5 * .e 2 5 * .e 2 7 * .e 0 4 * .e 0 6 + .e 1 4 * .e 1 5 * .e 2 7 * .e 2 8 * .e 0 3 * .e 0 4 + .e 1 4 * .e 1 7 * .e 2 5 * .e 2 7 * .e 0 3 * .e 0 5 + .e 1 4 * .e 1 7 * .e 2 5 * .e 2 8 * .e 0 3 * .e 0 4 + .e 1 4 * .e 1 8 * .e 2 4 * .e 2 5 * .e 0 4 * .e 0 6 + .e 1 4 * .e 1 8 * .e 2 4 * .e 2 7 * .e 0 3 * .e 0 5 + .e 1 5 * .e 1 7 * .e 2 5 * .e 2 7 * .e 0 3 * .e 0 4 + .e 1 4 * .e 1 8 * .e 2 5 * .e 2 8 * .e 0 4 * .e 0 6 + .e 1 4 * .e 1 8 * .e 2 7 * .e 2 8 * .e 0 3 * .e 0 5 + .e 1 5 * .e 1 7 * .e 2 5 * .e 2 7 * .e 0 5 * .e 0 6 + .e 1 5 * .e 1 8 * .e 2 4 * .e 2 7 * .e 0 5 * .e 0 6 + .e 1 5 * .e 1 8 * .e 2 5 * .e 2 7 * .e 0 4 * .e 0 6 + .e 1 7 * .e 1 8 * .e 2 4 * .e 2 5 * .e 0 5 * .e 0 6 + .e 1 7 * .e 1 8 * .e 2 5 * .e 2 7 * .e 0 3 * .e 0 5 + .e 1 5 * .e 1 8 * .e 2 7 * .e 2 8 * .e 0 5 * .e 0 6 + .e 1 7 * .e 1 8 * .e 2 5 * .e 2 8 * .e 0 5 * .e 0 6⟩,
    ⟨3, 5, 0⟩,
    ⟨3, 6, .e 1 1 * .e 1 4 * .e 2 4 * .e 2 4 * .e 0 3 * .e 0 3 + .e 1 2 * .e 1 7 * .e 2 8 * .e 2 8 * .e 0 3 * .e 0 3 + .e 1 1 * .e 1 4 * .e 2 5 * .e 2 7 * .e 0 3 * .e 0 3 + .e 1 1 * .e 1 7 * .e 2 4 * .e 2 5 * .e 0 3 * .e 0 3 + .e 1 2 * .e 1 4 * .e 2 4 * .e 2 7 * .e 0 3 * .e 0 3 + .e 1 1 * .e 1 7 * .e 2 5 * .e 2 8 * .e 0 3 * .e 0 3 + .e 1 2 * .e 1 4 * .e 2 7 * .e 2 8 * .e 0 3 * .e 0 3 + .e 1 2 * .e 1 7 * .e 2 5 * .e 2 7 * .e 0 3 * .e 0 3 + .e 1 1 * .e 1 3 * .e 2 0 * .e 2 0 * .e 0 3 * .e 0 4 + .e 1 1 * .e 1 6 * .e 2 0 * .e 2 0 * .e 0 3 * .e 0 5 + .e 1 2 * .e 1 3 * .e 2 0 * .e 2 0 * .e 0 4 * .e 0 6 + .e 1 3 * .e 1 4 * .e 2 4 * .e 2 4 * .e 0 0 * .e 0 4 + .e 1 1 * .e 1 5 * .e 2 4 * .e 2 4 * .e 0 3 * .e 0 6 + .e 1 2 * .e 1 6 * .e 2 0 * .e 2 0 * .e 0 5 * .e 0 6 + .e 1 3 * .e 1 7 * .e 2 4 * .e 2 4 * .e 0 0 * .e 0 5 + .e 1 5 * .e 1 6 * .e 2 8 * .e 2 8 * .e 0 0 * .e 0 4 + .e 1 2 * .e 1 8 * .e 2 8 * .e 2 8 * .e 0 3 * .e 0 6 + .e 1 6 * .e 1 8 * .e 2 8 * .e 2 8 * .e 0 0 * .e 0 5 + .e 1 0 * .e 1 1 * .e 2 3 * .e 2 4 * .e 0 0 * .e 0 3 + .e 1 0 * .e 1 3 * .e 2 1 * .e 2 4 * .e 0 0 * .e 0 3 + .e 1 0 * .e 1 1 * .e 2 5 * .e 2 6 * .e 0 0 * .e 0 3 + .e 1 0 * .e 1 2 * .e 2 3 * .e 2 7 * .e 0 0 * .e 0 3 + .e 1 0 * .e 1 3 * .e 2 2 * .e 2 7 * .e 0 0 * .e 0 3 + .e 1 0 * .e 1 6 * .e 2 1 * .e 2 5 * .e 0 0 * .e 0 3 + .e 1 0 * .e 1 2 * .e 2 6 * .e 2 8 * .e 0 0 * .e 0 3 + .e 1 0 * .e 1 6 * .e 2 2 * .e 2 8 * .e 0 0 * .e 0 3 + .e 1 3 * .e 1 4 * .e 2 5 * .e 2 7 * .e 0 0 * .e 0 4 + .e 1 3 * .e 1 5 * .e 2 4 * .e 2 7 * .e 0 0 * .e 0 4 + .e 1 4 * .e 1 6 * .e 2 4 * .e 2 5 * .e 0 0 * .e 0 4 + .e 1 1 * .e 1 5 * .e 2 5 * .e 2 7 * .e 0 3 * .e 0 6 + .e 1 1 * .e 1 8 * .e 2 4 * .e 2 5 * .e 0 3 * .e 0 6 + .e 1 2 * .e 1 5 * .e 2 4 * .e 2 7 * .e 0 3 * .e 0 6 + .e 1 3 * .e 1 5 * .e 2 7 * .e 2 8 * .e 0 0 * .e 0 4 + .e 1 3 * .e 1 7 * .e 2 5 * .e 2 7 * .e 0 0 * .e 0 5 + .e 1 3 * .e 1 8 * .e 2 4 * .e 2 7 * .e 0 0 * .e 0 5 + .e 1 4 * .e 1 6 * .e 2 5 * .e 2 8 * .e 0 0 * .e 0 4 + .e 1 5 * .e 1 6 * .e 2 5 * .e 2 7 * .e 0 0 * .e 0 4 + .e 1 6 * .e 1 7 * .e 2 4 * .e 2 5 * .e 0 0 * .e 0 5 + .e 1 1 * .e 1 8 * .e 2 5 * .e 2 8 * .e 0 3 * .e 0 6 + .e 1 2 * .e 1 5 * .e 2 7 * .e 2 8 * .e 0 3 * .e 0 6 + .e 1 2 * .e 1 8 * .e 2 5 * .e 2 7 * .e 0 3 * .e 0 6 + .e 1 3 * .e 1 8 * .e 2 7 * .e 2 8 * .e 0 0 * .e 0 5 + .e 1 6 * .e 1 7 * .e 2 5 * .e 2 8 * .e 0 0 * .e 0 5 + .e 1 6 * .e 1 8 * .e 2 5 * .e 2 7 * .e 0 0 * .e 0 5⟩,
    ⟨3, 7, 0⟩,
    ⟨3, 8, .e 1 0 * .e 1 1 * .e 2 0 * .e 2 0 * .e 0 3 * .e 0 3 + .e 1 0 * .e 1 3 * .e 2 0 * .e 2 0 * .e 0 0 * .e 0 4 + .e 1 0 * .e 1 2 * .e 2 0 * .e 2 0 * .e 0 3 * .e 0 6 + .e 1 0 * .e 1 6 * .e 2 0 * .e 2 0 * .e 0 0 * .e 0 5 + .e 1 1 * .e 1 3 * .e 2 4 * .e 2 4 * .e 0 0 * .e 0 3 + .e 1 2 * .e 1 6 * .e 2 8 * .e 2 8 * .e 0 0 * .e 0 3 + .e 1 1 * .e 1 4 * .e 2 0 * .e 2 3 * .e 0 3 * .e 0 4 + .e 1 3 * .e 1 4 * .e 2 0 * .e 2 1 * .e 0 3 * .e 0 4 + .e 1 1 * .e 1 3 * .e 2 5 * .e 2 7 * .e 0 0 * .e 0 3 + .e 1 1 * .e 1 5 * .e 2 0 * .e 2 6 * .e 0 3 * .e 0 4 + .e 1 1 * .e 1 6 * .e 2 4 * .e 2 5 * .e 0 0 * .e 0 3 + .e 1 1 * .e 1 7 * .e 2 0 * .e 2 3 * .e 0 3 * .e 0 5 + .e 1 2 * .e 1 3 * .e 2 4 * .e 2 7 * .e 0 0 * .e 0 3 + .e 1 2 * .e 1 4 * .e 2 0 * .e 2 3 * .e 0 4 * .e 0 6 + .e 1 3 * .e 1 5 * .e 2 0 * .e 2 1 * .e 0 4 * .e 0 6 + .e 1 3 * .e 1 7 * .e 2 0 * .e 2 2 * .e 0 3 * .e 0 4 + .e 1 4 * .e 1 6 * .e 2 0 * .e 2 1 * .e 0 3 * .e 0 5 + .e 1 1 * .e 1 6 * .e 2 5 * .e 2 8 * .e 0 0 * .e 0 3 + .e 1 1 * .e 1 8 * .e 2 0 * .e 2 6 * .e 0 3 * .e 0 5 + .e 1 2 * .e 1 3 * .e 2 7 * .e 2 8 * .e 0 0 * .e 0 3 + .e 1 2 * .e 1 5 * .e 2 0 * .e 2 6 * .e 0 4 * .e 0 6 + .e 1 2 * .e 1 6 * .e 2 5 * .e 2 7 * .e 0 0 * .e 0 3 + .e 1 2 * .e 1 7 * .e 2 0 * .e 2 3 * .e 0 5 * .e 0 6 + .e 1 3 * .e 1 8 * .e 2 0 * .e 2 2 * .e 0 4 * .e 0 6 + .e 1 5 * .e 1 6 * .e 2 0 * .e 2 1 * .e 0 5 * .e 0 6 + .e 1 6 * .e 1 7 * .e 2 0 * .e 2 2 * .e 0 3 * .e 0 5 + .e 1 2 * .e 1 8 * .e 2 0 * .e 2 6 * .e 0 5 * .e 0 6 + .e 1 6 * .e 1 8 * .e 2 0 * .e 2 2 * .e 0 5 * .e 0 6⟩,
    ⟨3, 9, 0⟩,
    ⟨3, 10, .e 1 1 * .e 1 1 * .e 2 0 * .e 2 3 * .e 0 3 * .e 0 3 + .e 1 0 * .e 1 0 * .e 2 0 * .e 2 0 * .e 0 0 * .e 0 3 + .e 1 0 * .e 1 4 * .e 2 0 * .e 2 1 * .e 0 3 * .e 0 3 + .e 1 0 * .e 1 7 * .e 2 0 * .e 2 2 * .e 0 3 * .e 0 3 + .e 1 1 * .e 1 2 * .e 2 0 * .e 2 6 * .e 0 3 * .e 0 3 + .e 1 3 * .e 1 3 * .e 2 0 * .e 2 1 * .e 0 0 * .e 0 4 + .e 1 6 * .e 1 6 * .e 2 0 * .e 2 2 * .e 0 0 * .e 0 5 + .e 1 4 * .e 1 4 * .e 2 1 * .e 2 3 * .e 0 3 * .e 0 4 + .e 1 2 * .e 1 2 * .e 2 0 * .e 2 6 * .e 0 3 * .e 0 6 + .e 1 7 * .e 1 7 * .e 2 2 * .e 2 3 * .e 0 3 * .e 0 5 + .e 1 5 * .e 1 5 * .e 2 1 * .e 2 6 * .e 0 4 * .e 0 6 + .e 1 8 * .e 1 8 * .e 2 2 * .e 2 6 * .e 0 5 * .e 0 6 + .e 1 0 * .e 1 4 * .e 2 0 * .e 2 3 * .e 0 0 * .e 0 4 + .e 1 0 * .e 1 5 * .e 2 0 * .e 2 1 * .e 0 3 * .e 0 6 + .e 1 0 * .e 1 5 * .e 2 0 * .e 2 6 * .e 0 0 * .e 0 4 + .e 1 0 * .e 1 7 * .e 2 0 * .e 2 3 * .e 0 0 * .e 0 5 + .e 1 1 * .e 1 2 * .e 2 0 * .e 2 3 * .e 0 3 * .e 0 6 + .e 1 3 * .e 1 6 * .e 2 0 * .e 2 1 * .e 0 0 * .e 0 5 + .e 1 3 * .e 1 6 * .e 2 0 * .e 2 2 * .e 0 0 * .e 0 4 + .e 1 0 * .e 1 8 * .e 2 0 * .e 2 2 * .e 0 3 * .e 0 6 + .e 1 0 * .e 1 8 * .e 2 0 * .e 2 6 * .e 0 0 * .e 0 5 + .e 1 4 * .e 1 5 * .e 2 1 * .e 2 3 * .e 0 4 * .e 0 6 + .e 1 4 * .e 1 5 * .e 2 1 * .e 2 6 * .e 0 3 * .e 0 4 + .e 1 4 * .e 1 7 * .e 2 1 * .e 2 3 * .e 0 3 * .e 0 5 + .e 1 4 * .e 1 7 * .e 2 2 * .e 2 3 * .e 0 3 * .e 0 4 + .e 1 4 * .e 1 8 * .e 2 1 * .e 2 6 * .e 0 3 * .e 0 5 + .e 1 4 * .e 1 8 * .e 2 2 * .e 2 3 * .e 0 4 * .e 0 6 + .e 1 5 * .e 1 7 * .e 2 1 * .e 2 3 * .e 0 5 * .e 0 6 + .e 1 5 * .e 1 7 * .e 2 2 * .e 2 6 * .e 0 3 * .e 0 4 + .e 1 5 * .e 1 8 * .e 2 1 * .e 2 6 * .e 0 5 * .e 0 6 + .e 1 5 * .e 1 8 * .e 2 2 * .e 2 6 * .e 0 4 * .e 0 6 + .e 1 7 * .e 1 8 * .e 2 2 * .e 2 3 * .e 0 5 * .e 0 6 + .e 1 7 * .e 1 8 * .e 2 2 * .e 2 6 * .e 0 3 * .e 0 5⟩,
    ⟨3, 11, 0⟩,
    ⟨3, 12, .e 1 1 * .e 1 4 * .e 2 1 * .e 2 3 * .e 0 3 * .e 0 3 + .e 1 1 * .e 1 7 * .e 2 2 * .e 2 3 * .e 0 3 * .e 0 3 + .e 1 2 * .e 1 4 * .e 2 1 * .e 2 6 * .e 0 3 * .e 0 3 + .e 1 2 * .e 1 7 * .e 2 2 * .e 2 6 * .e 0 3 * .e 0 3 + .e 1 0 * .e 1 1 * .e 2 0 * .e 2 3 * .e 0 0 * .e 0 3 + .e 1 0 * .e 1 3 * .e 2 0 * .e 2 1 * .e 0 0 * .e 0 3 + .e 1 0 * .e 1 2 * .e 2 0 * .e 2 6 * .e 0 0 * .e 0 3 + .e 1 0 * .e 1 6 * .e 2 0 * .e 2 2 * .e 0 0 * .e 0 3 + .e 1 3 * .e 1 4 * .e 2 1 * .e 2 3 * .e 0 0 * .e 0 4 + .e 1 1 * .e 1 5 * .e 2 1 * .e 2 3 * .e 0 3 * .e 0 6 + .e 1 3 * .e 1 5 * .e 2 1 * .e 2 6 * .e 0 0 * .e 0 4 + .e 1 3 * .e 1 7 * .e 2 1 * .e 2 3 * .e 0 0 * .e 0 5 + .e 1 4 * .e 1 6 * .e 2 2 * .e 2 3 * .e 0 0 * .e 0 4 + .e 1 1 * .e 1 8 * .e 2 2 * .e 2 3 * .e 0 3 * .e 0 6 + .e 1 2 * .e 1 5 * .e 2 1 * .e 2 6 * .e 0 3 * .e 0 6 + .e 1 3 * .e 1 8 * .e 2 1 * .e 2 6 * .e 0 0 * .e 0 5 + .e 1 5 * .e 1 6 * .e 2 2 * .e 2 6 * .e 0 0 * .e 0 4 + .e 1 6 * .e 1 7 * .e 2 2 * .e 2 3 * .e 0 0 * .e 0 5 + .e 1 2 * .e 1 8 * .e 2 2 * .e 2 6 * .e 0 3 * .e 0 6 + .e 1 6 * .e 1 8 * .e 2 2 * .e 2 6 * .e 0 0 * .e 0 5⟩,
    ⟨3, 13, 0⟩,
    ⟨3, 14, .e 1 1 * .e 1 3 * .e 2 1 * .e 2 3 * .e 0 0 * .e 0 3 + .e 1 1 * .e 1 6 * .e 2 2 * .e 2 3 * .e 0 0 * .e 0 3 + .e 1 2 * .e 1 3 * .e 2 1 * .e 2 6 * .e 0 0 * .e 0 3 + .e 1 2 * .e 1 6 * .e 2 2 * .e 2 6 * .e 0 0 * .e 0 3⟩,
    ⟨4, 0, .e 1 1 * .e 1 3 * .e 2 1 * .e 2 3 * .e 0 4 * .e 0 4 + .e 1 1 * .e 1 3 * .e 2 2 * .e 2 6 * .e 0 4 * .e 0 4 + .e 1 1 * .e 1 6 * .e 2 1 * .e 2 3 * .e 0 4 * .e 0 5 + .e 1 2 * .e 1 3 * .e 2 1 * .e 2 3 * .e 0 4 * .e 0 7 + .e 1 1 * .e 1 6 * .e 2 2 * .e 2 6 * .e 0 4 * .e 0 5 + .e 1 2 * .e 1 3 * .e 2 2 * .e 2 6 * .e 0 4 * .e 0 7 + .e 1 2 * .e 1 6 * .e 2 1 * .e 2 3 * .e 0 5 * .e 0 7 + .e 1 2 * .e 1 6 * .e 2 2 * .e 2 6 * .e 0 5 * .e 0 7⟩,
    ⟨4, 1, 0⟩,
    ⟨4, 2, .e 1 1 * .e 1 4 * .e 2 3 * .e 2 4 * .e 0 4 * .e 0 4 + .e 1 3 * .e 1 4 * .e 2 1 * .e 2 4 * .e 0 4 * .e 0 4 + .e 1 1 * .e 1 4 * .e 2 5 * .e 2 6 * .e 0 4 * .e 0 4 + .e 1 1 * .e 1 5 * .e 2 3 * .e 2 7 * .e 0 4 * .e 0 4 + .e 1 3 * .e 1 4 * .e 2 2 * .e 2 7 * .e 0 4 * .e 0 4 + .e 1 3 * .e 1 7 * .e 2 1 * .e 2 5 * .e 0 4 * .e 0 4 + .e 1 1 * .e 1 5 * .e 2 6 * .e 2 8 * .e 0 4 * .e 0 4 + .e 1 3 * .e 1 7 * .e 2 2 * .e 2 8 * .e 0 4 * .e 0 4 + .e 1 0 * .e 1 1 * .e 2 1 * .e 2 3 * .e 0 3 * .e 0 4 + .e 1 0 * .e 1 3 * .e 2 1 * .e 2 3 * .e 0 1 * .e 0 4 + .e 1 0 * .e 1 1 * .e 2 2 * .e 2 6 * .e 0 3 * .e 0 4 + .e 1 0 * .e 1 2 * .e 2 1 * .e 2 3 * .e 0 3 * .e 0 7 + .e 1 0 * .e 1 3 * .e 2 2 * .e 2 6 * .e 0 1 * .e 0 4 + .e 1 0 * .e 1 6 * .e 2 1 * .e 2 3 * .e 0 1 * .e 0 5 + .e 1 0 * .e 1 2 * .e 2 2 * .e 2 6 * .e 0 3 * .e 0 7 + .e 1 0 * .e 1 6 * .e 2 2 * .e 2 6 * .e 0 1 * .e 0 5 + .e 1 1 * .e 1 7 * .e 2 3 * .e 2 4 * .e 0 4 * .e 0 5 + .e 1 2 * .e 1 4 * .e 2 3 * .e 2 4 * .e 0 4 * .e 0 7 + .e 1 3 * .e 1 5 * .e 2 1 * .e 2 4 * .e 0 4 * .e 0 7 + .e 1 4 * .e 1 6 * .e 2 1 * .e 2 4 * .e 0 4 * .e 0 5 + .e 1 1 * .e 1 7 * .e 2 5 * .e 2 6 * .e 0 4 * .e 0 5 + .e 1 1 * .e 1 8 * .e 2 3 * .e 2 7 * .e 0 4 * .e 0 5 + .e 1 2 * .e 1 4 * .e 2 5 * .e 2 6 * .e 0 4 * .e 0 7 + .e 1 2 * .e 1 5 * .e 2 3 * .e 2 7 * .e 0 4 * .e 0 7 + .e 1 2 * .e 1 7 * .e 2 3 * .e 2 4 * .e 0 5 * .e 0 7 + .e 1 3 * .e 1 5 * .e 2 2 * .e 2 7 * .e 0 4 * .e 0 7 + .e 1 3 * .e 1 8 * .e 2 1 * .e 2 5 * .e 0 4 * .e 0 7 + .e 1 4 * .e 1 6 * .e 2 2 * .e 2 7 * .e 0 4 * .e 0 5 + .e 1 5 * .e 1 6 * .e 2 1 * .e 2 4 * .e 0 5 * .e 0 7 + .e 1 6 * .e 1 7 * .e 2 1 * .e 2 5 * .e 0 4 * .e 0 5 + .e 1 1 * .e 1 8 * .e 2 6 * .e 2 8 * .e 0 4 * .e 0 5 + .e 1 2 * .e 1 5 * .e 2 6 * .e 2 8 * .e 0 4 * .e 0 7 + .e 1 2 * .e 1 7 * .e 2 5 * .e 2 6 * .e 0 5 * .e 0 7 + .e 1 2 * .e 1 8 * .e 2 3 * .e 2 7 * .e 0 5 * .e 0 7 + .e 1 3 * .e 1 8 * .e 2 2 * .e 2 8 * .e 0 4 * .e 0 7 + .e 1 5 * .e 1 6 * .e 2 2 * .e 2 7 * .e 0 5 * .e 0 7 + .e 1 6 * .e 1 7 * .e 2 2 * .e 2 8 * .e 0 4 * .e 0 5 + .e 1 6 * .e 1 8 * .e 2 1 * .e 2 5 * .e 0 5 * .e 0 7 + .e 1 2 * .e 1 8 * .e 2 6 * .e 2 8 * .e 0 5 * .e 0 7 + .e 1 6 * .e 1 8 * .e 2 2 * .e 2 8 * .e 0 5 * .e 0 7⟩,
    ⟨4, 3, 0⟩,
    ⟨4, 4, .e 1 4 * .e 1 4 * .e 2 4 * .e 2 4 * .e 0 4 * .e 0 4 + .e 1 5 * .e 1 7 * .e 2 8 * .e 2 8 * .e 0 4 * .e 0 4 + .e 1 4 * .e 1 4 * .e 2 5 * .e 2 7 * .e 0 4 * .e 0 4 + .e 1 8 * .e 1 8 * .e 2 8 * .e 2 8 * .e 0 5 * .e 0 7 + .e 1 4 * .e 1 5 * .e 2 4 * .e 2 7 * .e 0 4 * .e 0 4 + .e 1 4 * .e 1 7 * .e 2 4 * .e 2 5 * .e 0 4 * .e 0 4 + .e 1 4 * .e 1 5 * .e 2 7 * .e 2 8 * .e 0 4 * .e 0 4 + .e 1 4 * .e 1 7 * .e 2 5 * .e 2 8 * .e 0 4 * .e 0 4 + .e 1 5 * .e 1 7 * .e 2 5 * .e 2 7 * .e 0 4 * .e 0 4 + .e 1 4 * .e 1 5 * .e 2 4 * .e 2 4 * .e 0 4 * .e 0 7 + .e 1 4 * .e 1 7 * .e 2 4 * .e 2 4 * .e 0 4 * .e 0 5 + .e 1 5 * .e 1 7 * .e 2 4 * .e 2 4 * .e 0 5 * .e 0 7 + .e 1 5 * .e 1 8 * .e 2 8 * .e 2 8 * .e 0 4 * .e 0 7 + .e 1 7 * .e 1 8 * .e 2 8 * .e 2 8 * .e 0 4 * .e 0 5 + .e 1 0 * .e 1 0 * .e 2 1 * .e 2 3 * .e 0 1 * .e 0 3 + .e 1 0 * .e 1 0 * .e 2 2 * .e 2 6 * .e 0 1 * .e 0 3 + .e 1 3 * .e 1 3 * .e 2 1 * .e 2 4 * .e 0 1 * .e 0 4 + .e 1 1 * .e 1 1 * .e 2 3 * .e 2 4 * .e 0 3 * .e 0 4 + .e 1 3 * .e 1 3 * .e 2 2 * .e 2 7 * .e 0 1 * .e 0 4 + .e 1 6 * .e 1 6 * .e 2 1 * .e 2 5 * .e 0 1 * .e 0 5 + .e 1 1 * .e 1 1 * .e 2 5 * .e 2 6 * .e 0 3 * .e 0 4 + .e 1 6 * .e 1 6 * .e 2 2 * .e 2 8 * .e 0 1 * .e 0 5 + .e 1 2 * .e 1 2 * .e 2 3 * .e 2 7 * .e 0 3 * .e 0 7 + .e 1 7 * .e 1 7 * .e 2 4 * .e 2 5 * .e 0 4 * .e 0 5 + .e 1 2 * .e 1 2 * .e 2 6 * .e 2 8 * .e 0 3 * .e 0 7 + .e 1 5 * .e 1 5 * .e 2 4 * .e 2 7 * .e 0 4 * .e 0 7 + .e 1 7 * .e 1 7 * .e 2 5 * .e 2 8 * .e 0 4 * .e 0 5 + .e 1 5 * .e 1 5 * .e 2 7 * .e 2 8 * .e 0 4 * .e 0 7 + .e 1 8 * .e 1 8 * .e 2 5 * .e 2 7 * .e 0 5 * .e 0 7 + .e 1 0 * .e 1 4 * .e 2 1 * .e 2 4 * .e 0 3 * .e 0 4 + .e 1 0 * .e 1 4 * .e 2 3 * .e 2 4 * .e 0 1 * .e 0 4 + .e 1 0 * .e 1 4 * .e 2 2 * .e 2 7 * .e 0 3 * .e 0 4 + .e 1 0 * .e 1 4 * .e 2 5 * .e 2 6 * .e 0 1 * .e 0 4 + .e 1 0 * .e 1 5 * .e 2 1 * .e 2 4 * .e 0 3 * .e 0 7 + .e 1 0 * .e 1 5 * .e 2 3 * .e 2 7 * .e 0 1 * .e 0 4 + .e 1 0 * .e 1 7 * .e 2 1 * .e 2 5 * .e 0 3 * .e 0 4 + .e 1 0 * .e 1 7 * .e 2 3 * .e 2 4 * .e 0 1 * .e 0 5 + .e 1 1 * .e 1 2 * .e 2 3 * .e 2 4 * .e 0 3 * .e 0 7 + .e 1 1 * .e 1 2 * .e 2 3 * .e 2 7 * .e 0 3 * .e 0 4 + .e 1 3 * .e 1 6 * .e 2 1 * .e 2 4 * .e 0 1 * .e 0 5 + .e 1 3 * .e 1 6 * .e 2 1 * .e 2 5 * .e 0 1 * .e 0 4 + .e 1 0 * .e 1 5 * .e 2 2 * .e 2 7 * .e 0 3 * .e 0 7 + .e 1 0 * .e 1 5 * .e 2 6 * .e 2 8 * .e 0 1 * .e 0 4 + .e 1 0 * .e 1 7 * .e 2 2 * .e 2 8 * .e 0 3 * .e 0 4 + .e 1 0 * .e 1 7 * .e 2 5 * .e 2 6 * .e 0 1 * .e 0 5 + .e 1 0 * .e 1 8 * .e 2 1 * .e 2 5 * .e 0 3 * .e 0 7 + .e 1 0 * .e 1 8 * .e 2 3 * .e 2 7 * .e 0 1 * .e 0 5 + .e 1 1 * .e 1 2 * .e 2 5 * .e 2 6 * .e 0 3 * .e 0 7 + .e 1 1 * .e 1 2 * .e 2 6 * .e 2 8 * .e 0 3 * .e 0 4 + .e 1 3 * .e 1 6 * .e 2 2 * .e 2 7 * .e 0 1 * .e 0 5 + .e 1 3 * .e 1 6 * .e 2 2 * .e 2 8 * .e 0 1 * .e 0 4 + .e 1 0 * .e 1 8 * .e 2 2 * .e 2 8 * .e 0 3 * .e 0 7 + .e 1 0 * .e 1 8 * .e 2 6 * .e 2 8 * .e 0 1 * .e 0 5 + .e 1 4 * .e 1 5 * .e 2 5 * .e 2 7 * .e 0 4 * .e 0 7 + .e 1 4 * .e 1 7 * .e 2 5 * .e 2 7 * .e 0 4 * .e 0 5 + .e 1 4 * .e 1 8 * .e 2 4 * .e 2 5 * .e 0 4 * .e 0 7 + .e 1 4 * .e 1 8 * .e 2 4 * .e 2 7 * .e 0 4 * .e 0 5 + .e 1 4 * .e 1 8 * .e 2 5 * .e 2 8 * .e 0 4 * .e 0 7 + .e 1 4 * .e 1 8 * .e 2 7 * .e 2 8 * .e 0 4 * .e 0 5 + .e 1 5 * .e 1 7 * .e 2 5 * .e 2 7 * .e 0 5 * .e 0 7 + .e 1 5 * .e 1 8 * .e 2 4 * .e 2 7 * .e 0 5 * .e 0 7 + .e 1 5 * .e 1 8 * .e 2 5 * .e 2 7 * .e 0 4 * .e 0 7 + .e 1 7 * .e 1 8 * .e 2 4 * .e 2 5 * .e 0 5 * .e 0 7 + .e 1 7 * .e 1 8 * .e 2 5 * .e 2 7 * .e 0 4 * .e 0 5 + .e 1 5 * .e 1 8 * .e 2 7 * .e 2 8 * .e 0 5 * .e 0 7 + .e 1 7 * .e 1 8 * .e 2 5 * .e 2 8 * .e 0 5 * .e 0 7⟩,
    ⟨4, 5, 0⟩,
    ⟨4, 6, .e 1 1 * .e 1 3 * .e 2 0 * .e 2 0 * .e 0 4 * .e 0 4 + .e 1 1 * .e 1 4 * .e 2 4 * .e 2 4 * .e 0 3 * .e 0 4 + .e 1 1 * .e 1 6 * .e 2 0 * .e 2 0 * .e 0 4 * .e 0 5 + .e 1 2 * .e 1 3 * .e 2 0 * .e 2 0 * .e 0 4 * .e 0 7 + .e 1 3 * .e 1 4 * .e 2 4 * .e 2 4 * .e 0 1 * .e 0 4 + .e 1 1 * .e 1 5 * .e 2 4 * .e 2 4 * .e 0 3 * .e 0 7 + .e 1 2 * .e 1 6 * .e 2 0 * .e 2 0 * .e 0 5 * .e 0 7 + .e 1 3 * .e 1 7 * .e 2 4 * .e 2 4 * .e 0 1 * .e 0 5 + .e 1 2 * .e 1 7 * .e 2 8 * .e 2 8 * .e 0 3 * .e 0 4 + .e 1 5 * .e 1 6 * .e 2 8 * .e 2 8 * .e 0 1 * .e 0 4 + .e 1 2 * .e 1 8 * .e 2 8 * .e 2 8 * .e 0 3 * .e 0 7 + .e 1 6 * .e 1 8 * .e 2 8 * .e 2 8 * .e 0 1 * .e 0 5 + .e 1 0 * .e 1 1 * .e 2 3 * .e 2 4 * .e 0 1 * .e 0 3 + .e 1 0 * .e 1 3 * .e 2 1 * .e 2 4 * .e 0 1 * .e 0 3 + .e 1 0 * .e 1 1 * .e 2 5 * .e 2 6 * .e 0 1 * .e 0 3 + .e 1 0 * .e 1 2 * .e 2 3 * .e 2 7 * .e 0 1 * .e 0 3 + .e 1 0 * .e 1 3 * .e 2 2 * .e 2 7 * .e 0 1 * .e 0 3 + .e 1 0 * .e 1 6 * .e 2 1 * .e 2 5 * .e 0 1 * .e 0 3 + .e 1 0 * .e 1 2 * .e 2 6 * .e 2 8 * .e 0 1 * .e 0 3 + .e 1 0 * .e 1 6 * .e 2 2 * .e 2 8 * .e 0 1 * .e 0 3 + .e 1 1 * .e 1 4 * .e 2 5 * .e 2 7 * .e 0 3 * .e 0 4 + .e 1 1 * .e 1 7 * .e 2 4 * .e 2 5 * .e 0 3 * .e 0 4 + .e 1 2 * .e 1 4 * .e 2 4 * .e 2 7 * .e 0 3 * .e 0 4 + .e 1 3 * .e 1 4 * .e 2 5 * .e 2 7 * .e 0 1 * .e 0 4 + .e 1 3 * .e 1 5 * .e 2 4 * .e 2 7 * .e 0 1 * .e 0 4 + .e 1 4 * .e 1 6 * .e 2 4 * .e 2 5 * .e 0 1 * .e 0 4 + .e 1 1 * .e 1 5 * .e 2 5 * .e 2 7 * .e 0 3 * .e 0 7 + .e 1 1 * .e 1 7 * .e 2 5 * .e 2 8 * .e 0 3 * .e 0 4 + .e 1 1 * .e 1 8 * .e 2 4 * .e 2 5 * .e 0 3 * .e 0 7 + .e 1 2 * .e 1 4 * .e 2 7 * .e 2 8 * .e 0 3 * .e 0 4 + .e 1 2 * .e 1 5 * .e 2 4 * .e 2 7 * .e 0 3 * .e 0 7 + .e 1 2 * .e 1 7 * .e 2 5 * .e 2 7 * .e 0 3 * .e 0 4 + .e 1 3 * .e 1 5 * .e 2 7 * .e 2 8 * .e 0 1 * .e 0 4 + .e 1 3 * .e 1 7 * .e 2 5 * .e 2 7 * .e 0 1 * .e 0 5 + .e 1 3 * .e 1 8 * .e 2 4 * .e 2 7 * .e 0 1 * .e 0 5 + .e 1 4 * .e 1 6 * .e 2 5 * .e 2 8 * .e 0 1 * .e 0 4 + .e 1 5 * .e 1 6 * .e 2 5 * .e 2 7 * .e 0 1 * .e 0 4 + .e 1 6 * .e 1 7 * .e 2 4 * .e 2 5 * .e 0 1 * .e 0 5 + .e 1 1 * .e 1 8 * .e 2 5 * .e 2 8 * .e 0 3 * .e 0 7 + .e 1 2 * .e 1 5 * .e 2 7 * .e 2 8 * .e 0 3 * .e 0 7 + .e 1 2 * .e 1 8 * .e 2 5 * .e 2 7 * .e 0 3 * .e 0 7 + .e 1 3 * .e 1 8 * .e 2 7 * .e 2 8 * .e 0 1 * .e 0 5 + .e 1 6 * .e 1 7 * .e 2 5 * .e 2 8 * .e 0 1 * .e 0 5 + .e 1 6 * .e 1 8 * .e 2 5 * .e 2 7 * .e 0 1 * .e 0 5⟩,
    ⟨4, 7, 0⟩,
    ⟨4, 8, .e 1 1 * .e 1 4 * .e 2 0 * .e 2 3 * .e 0 4 * .e 0 4 + .e 1 3 * .e 1 4 * .e 2 0 * .e 2 1 * .e 0 4 * .e 0 4 + .e 1 1 * .e 1 5 * .e 2 0 * .e 2 6 * .e 0 4 * .e 0 4 + .e 1 3 * .e 1 7 * .e 2 0 * .e 2 2 * .e 0 4 * .e 0 4 + .e 1 0 * .e 1 1 * .e 2 0 * .e 2 0 * .e 0 3 * .e 0 4 + .e 1 0 * .e 1 3 * .e 2 0 * .e 2 0 * .e 0 1 * .e 0 4 + .e 1 0 * .e 1 2 * .e 2 0 * .e 2 0 * .e 0 3 * .e 0 7 + .e 1 0 * .e 1 6 * .e 2 0 * .e 2 0 * .e 0 1 * .e 0 5 + .e 1 1 * .e 1 3 * .e 2 4 * .e 2 4 * .e 0 1 * .e 0 3 + .e 1 2 * .e 1 6 * .e 2 8 * .e 2 8 * .e 0 1 * .e 0 3 + .e 1 1 * .e 1 3 * .e 2 5 * .e 2 7 * .e 0 1 * .e 0 3 + .e 1 1 * .e 1 6 * .e 2 4 * .e 2 5 * .e 0 1 * .e 0 3 + .e 1 1 * .e 1 7 * .e 2 0 * .e 2 3 * .e 0 4 * .e 0 5 + .e 1 2 * .e 1 3 * .e 2 4 * .e 2 7 * .e 0 1 * .e 0 3 + .e 1 2 * .e 1 4 * .e 2 0 * .e 2 3 * .e 0 4 * .e 0 7 + .e 1 3 * .e 1 5 * .e 2 0 * .e 2 1 * .e 0 4 * .e 0 7 + .e 1 4 * .e 1 6 * .e 2 0 * .e 2 1 * .e 0 4 * .e 0 5 + .e 1 1 * .e 1 6 * .e 2 5 * .e 2 8 * .e 0 1 * .e 0 3 + .e 1 1 * .e 1 8 * .e 2 0 * .e 2 6 * .e 0 4 * .e 0 5 + .e 1 2 * .e 1 3 * .e 2 7 * .e 2 8 * .e 0 1 * .e 0 3 + .e 1 2 * .e 1 5 * .e 2 0 * .e 2 6 * .e 0 4 * .e 0 7 + .e 1 2 * .e 1 6 * .e 2 5 * .e 2 7 * .e 0 1 * .e 0 3 + .e 1 2 * .e 1 7 * .e 2 0 * .e 2 3 * .e 0 5 * .e 0 7 + .e 1 3 * .e 1 8 * .e 2 0 * .e 2 2 * .e 0 4 * .e 0 7 + .e 1 5 * .e 1 6 * .e 2 0 * .e 2 1 * .e 0 5 * .e 0 7 + .e 1 6 * .e 1 7 * .e 2 0 * .e 2 2 * .e 0 4 * .e 0 5 + .e 1 2 * .e 1 8 * .e 2 0 * .e 2 6 * .e 0 5 * .e 0 7 + .e 1 6 * .e 1 8 * .e 2 0 * .e 2 2 * .e 0 5 * .e 0 7⟩,
    ⟨4, 9, 0⟩,
    ⟨4, 10, .e 1 4 * .e 1 4 * .e 2 1 * .e 2 3 * .e 0 4 * .e 0 4 + .e 1 0 * .e 1 0 * .e 2 0 * .e 2 0 * .e 0 1 * .e 0 3 + .e 1 4 * .e 1 5 * .e 2 1 * .e 2 6 * .e 0 4 * .e 0 4 + .e 1 4 * .e 1 7 * .e 2 2 * .e 2 3 * .e 0 4 * .e 0 4 + .e 1 5 * .e 1 7 * .e 2 2 * .e 2 6 * .e 0 4 * .e 0 4 + .e 1 3 * .e 1 3 * .e 2 0 * .e 2 1 * .e 0 1 * .e 0 4 + .e 1 1 * .e 1 1 * .e 2 0 * .e 2 3 * .e 0 3 * .e 0 4 + .e 1 6 * .e 1 6 * .e 2 0 * .e 2 2 * .e 0 1 * .e 0 5 + .e 1 2 * .e 1 2 * .e 2 0 * .e 2 6 * .e 0 3 * .e 0 7 + .e 1 7 * .e 1 7 * .e 2 2 * .e 2 3 * .e 0 4 * .e 0 5 + .e 1 5 * .e 1 5 * .e 2 1 * .e 2 6 * .e 0 4 * .e 0 7 + .e 1 8 * .e 1 8 * .e 2 2 * .e 2 6 * .e 0 5 * .e 0 7 + .e 1 0 * .e 1 4 * .e 2 0 * .e 2 1 * .e 0 3 * .e 0 4 + .e 1 0 * .e 1 4 * .e 2 0 * .e 2 3 * .e 0 1 * .e 0 4 + .e 1 0 * .e 1 5 * .e 2 0 * .e 2 1 * .e 0 3 * .e 0 7 + .e 1 0 * .e 1 5 * .e 2 0 * .e 2 6 * .e 0 1 * .e 0 4 + .e 1 0 * .e 1 7 * .e 2 0 * .e 2 2 * .e 0 3 * .e 0 4 + .e 1 0 * .e 1 7 * .e 2 0 * .e 2 3 * .e 0 1 * .e 0 5 + .e 1 1 * .e 1 2 * .e 2 0 * .e 2 3 * .e 0 3 * .e 0 7 + .e 1 1 * .e 1 2 * .e 2 0 * .e 2 6 * .e 0 3 * .e 0 4 + .e 1 3 * .e 1 6 * .e 2 0 * .e 2 1 * .e 0 1 * .e 0 5 + .e 1 3 * .e 1 6 * .e 2 0 * .e 2 2 * .e 0 1 * .e 0 4 + .e 1 0 * .e 1 8 * .e 2 0 * .e 2 2 * .e 0 3 * .e 0 7 + .e 1 0 * .e 1 8 * .e 2 0 * .e 2 6 * .e 0 1 * .e 0 5 + .e 1 4 * .e 1 5 * .e 2 1 * .e 2 3 * .e 0 4 * .e 0 7 + .e 1 4 * .e 1 7 * .e 2 1 * .e 2 3 * .e 0 4 * .e 0 5 + .e 1 4 * .e 1 8 * .e 2 1 * .e 2 6 * .e 0 4 * .e 0 5 + .e 1 4 * .e 1 8 * .e 2 2 * .e 2 3 * .e 0 4 * .e 0 7 + .e 1 5 * .e 1 7 * .e 2 1 * .e 2 3 * .e 0 5 * .e 0 7 + .e 1 5 * .e 1 8 * .e 2 1 * .e 2 6 * .e 0 5 * .e 0 7 + .e 1 5 * .e 1 8 * .e 2 2 * .e 2 6 * .e 0 4 * .e 0 7 + .e 1 7 * .e 1 8 * .e 2 2 * .e 2 3 * .e 0 5 * .e 0 7 + .e 1 7 * .e 1 8 * .e 2 2 * .e 2 6 * .e 0 4 * .e 0 5⟩,
    ⟨4, 11, 0⟩,
    ⟨4, 12, .e 1 0 * .e 1 1 * .e 2 0 * .e 2 3 * .e 0 1 * .e 0 3 + .e 1 0 * .e 1 3 * .e 2 0 * .e 2 1 * .e 0 1 * .e 0 3 + .e 1 0 * .e 1 2 * .e 2 0 * .e 2 6 * .e 0 1 * .e 0 3 + .e 1 0 * .e 1 6 * .e 2 0 * .e 2 2 * .e 0 1 * .e 0 3 + .e 1 1 * .e 1 4 * .e 2 1 * .e 2 3 * .e 0 3 * .e 0 4 + .e 1 3 * .e 1 4 * .e 2 1 * .e 2 3 * .e 0 1 * .e 0 4 + .e 1 1 * .e 1 5 * .e 2 1 * .e 2 3 * .e 0 3 * .e 0 7 + .e 1 1 * .e 1 7 * .e 2 2 * .e 2 3 * .e 0 3 * .e 0 4 + .e 1 2 * .e 1 4 * .e 2 1 * .e 2 6 * .e 0 3 * .e 0 4 + .e 1 3 * .e 1 5 * .e 2 1 * .e 2 6 * .e 0 1 * .e 0 4 + .e 1 3 * .e 1 7 * .e 2 1 * .e 2 3 * .e 0 1 * .e 0 5 + .e 1 4 * .e 1 6 * .e 2 2 * .e 2 3 * .e 0 1 * .e 0 4 + .e 1 1 * .e 1 8 * .e 2 2 * .e 2 3 * .e 0 3 * .e 0 7 + .e 1 2 * .e 1 5 * .e 2 1 * .e 2 6 * .e 0 3 * .e 0 7 + .e 1 2 * .e 1 7 * .e 2 2 * .e 2 6 * .e 0 3 * .e 0 4 + .e 1 3 * .e 1 8 * .e 2 1 * .e 2 6 * .e 0 1 * .e 0 5 + .e 1 5 * .e 1 6 * .e 2 2 * .e 2 6 * .e 0 1 * .e 0 4 + .e 1 6 * .e 1 7 * .e 2 2 * .e 2 3 * .e 0 1 * .e 0 5 + .e 1 2 * .e 1 8 * .e 2 2 * .e 2 6 * .e 0 3 * .e 0 7 + .e 1 6 * .e 1 8 * .e 2 2 * .e 2 6 * .e 0 1 * .e 0 5⟩,
    ⟨4, 13, 0⟩,
    ⟨4, 14, .e 1 1 * .e 1 3 * .e 2 1 * .e 2 3 * .e 0 1 * .e 0 3 + .e 1 1 * .e 1 6 * .e 2 2 * .e 2 3 * .e 0 1 * .e 0 3 + .e 1 2 * .e 1 3 * .e 2 1 * .e 2 6 * .e 0 1 * .e 0 3 + .e 1 2 * .e 1 6 * .e 2 2 * .e 2 6 * .e 0 1 * .e 0 3⟩,
    ⟨5, 0, .e 1 1 * .e 1 6 * .e 2 1 * .e 2 3 * .e 0 5 * .e 0 5 + .e 1 1 * .e 1 6 * .e 2 2 * .e 2 6 * .e 0 5 * .e 0 5 + .e 1 1 * .e 1 3 * .e 2 1 * .e 2 3 * .e 0 4 * .e 0 5 + .e 1 1 * .e 1 3 * .e 2 2 * .e 2 6 * .e 0 4 * .e 0 5 + .e 1 2 * .e 1 3 * .e 2 1 * .e 2 3 * .e 0 4 * .e 0 8 + .e 1 2 * .e 1 3 * .e 2 2 * .e 2 6 * .e 0 4 * .e 0 8 + .e 1 2 * .e 1 6 * .e 2 1 * .e 2 3 * .e 0 5 * .e 0 8 + .e 1 2 * .e 1 6 * .e 2 2 * .e 2 6 * .e 0 5 * .e 0 8⟩,
    ⟨5, 1, 0⟩,
    ⟨5, 2, .e 1 1 * .e 1 7 * .e 2 3 * .e 2 4 * .e 0 5 * .e 0 5 + .e 1 4 * .e 1 6 * .e 2 1 * .e 2 4 * .e 0 5 * .e 0 5 + .e 1 1 * .e 1 7 * .e 2 5 * .e 2 6 * .e 0 5 * .e 0 5 + .e 1 1 * .e 1 8 * .e 2 3 * .e 2 7 * .e 0 5 * .e 0 5 + .e 1 4 * .e 1 6 * .e 2 2 * .e 2 7 * .e 0 5 * .e 0 5 + .e 1 6 * .e 1 7 * .e 2 1 * .e 2 5 * .e 0 5 * .e 0 5 + .e 1 1 * .e 1 8 * .e 2 6 * .e 2 8 * .e 0 5 * .e 0 5 + .e 1 6 * .e 1 7 * .e 2 2 * .e 2 8 * .e 0 5 * .e 0 5 + .e 1 0 * .e 1 1 * .e 2 1 * .e 2 3 * .e 0 3 * .e 0 5 + .e 1 0 * .e 1 3 * .e 2 1 * .e 2 3 * .e 0 2 * .e 0 4 + .e 1 0 * .e 1 1 * .e 2 2 * .e 2 6 * .e 0 3 * .e 0 5 + .e 1 0 * .e 1 2 * .e 2 1 * .e 2 3 * .e 0 3 * .e 0 8 + .e 1 0 * .e 1 3 * .e 2 2 * .e 2 6 * .e 0 2 * .e 0 4 + .e 1 0 * .e 1 6 * .e 2 1 * .e 2 3 * .e 0 2 * .e 0 5 + .e 1 0 * .e 1 2 * .e 2 2 * .e 2 6 * .e 0 3 * .e 0 8 + .e 1 0 * .e 1 6 * .e 2 2 * .e 2 6 * .e 0 2 * .e 0 5 + .e 1 1 * .e 1 4 * .e 2 3 * .e 2 4 * .e 0 4 * .e 0 5 + .e 1 3 * .e 1 4 * .e 2 1 * .e 2 4 * .e 0 4 * .e 0 5 + .e 1 1 * .e 1 4 * .e 2 5 * .e 2 6 * .e 0 4 * .e 0 5 + .e 1 1 * .e 1 5 * .e 2 3 * .e 2 7 * .e 0 4 * .e 0 5 + .e 1 2 * .e 1 4 * .e 2 3 * .e 2 4 * .e 0 4 * .e 0 8 + .e 1 3 * .e 1 4 * .e 2 2 * .e 2 7 * .e 0 4 * .e 0 5 + .e 1 3 * .e 1 5 * .e 2 1 * .e 2 4 * .e 0 4 * .e 0 8 + .e 1 3 * .e 1 7 * .e 2 1 * .e 2 5 * .e 0 4 * .e 0 5 + .e 1 1 * .e 1 5 * .e 2 6 * .e 2 8 * .e 0 4 * .e 0 5 + .e 1 2 * .e 1 4 * .e 2 5 * .e 2 6 * .e 0 4 * .e 0 8 + .e 1 2 * .e 1 5 * .e 2 3 * .e 2 7 * .e 0 4 * .e 0 8 + .e 1 2 * .e 1 7 * .e 2 3 * .e 2 4 * .e 0 5 * .e 0 8 + .e 1 3 * .e 1 5 * .e 2 2 * .e 2 7 * .e 0 4 * .e 0 8 + .e 1 3 * .e 1 7 * .e 2 2 * .e 2 8 * .e 0 4 * .e 0 5 + .e 1 3 * .e 1 8 * .e 2 1 * .e 2 5 * .e 0 4 * .e 0 8 + .e 1 5 * .e 1 6 * .e 2 1 * .e 2 4 * .e 0 5 * .e 0 8 + .e 1 2 * .e 1 5 * .e 2 6 * .e 2 8 * .e 0 4 * .e 0 8 + .e 1 2 * .e 1 7 * .e 2 5 * .e 2 6 * .e 0 5 * .e 0 8 + .e 1 2 * .e 1 8 * .e 2 3 * .e 2 7 * .e 0 5 * .e 0 8 + .e 1 3 * .e 1 8 * .e 2 2 * .e 2 8 * .e 0 4 * .e 0 8 + .e 1 5 * .e 1 6 * .e 2 2 * .e 2 7 * .e 0 5 * .e 0 8 + .e 1 6 * .e 1 8 * .e 2 1 * .e 2 5 * .e 0 5 * .e 0 8 + .e 1 2 * .e 1 8 * .e 2 6 * .e 2 8 * .e 0 5 * .e 0 8 + .e 1 6 * .e 1 8 * .e 2 2 * .e 2 8 * .e 0 5 * .e 0 8⟩,
    ⟨5, 3, 0⟩,
    ⟨5, 4, .e 1 4 * .e 1 7 * .e 2 4 * .e 2 4 * .e 0 5 * .e 0 5 + .e 1 7 * .e 1 8 * .e 2 8 * .e 2 8 * .e 0 5 * .e 0 5 + .e 1 7 * .e 1 7 * .e 2 4 * .e 2 5 * .e 0 5 * .e 0 5 + .e 1 7 * .e 1 7 * .e 2 5 * .e 2 8 * .e 0 5 * .e 0 5 + .e 1 4 * .e 1 4 * .e 2 4 * .e 2 4 * .e 0 4 * .e 0 5 + .e 1 8 * .e 1 8 * .e 2 8 * .e 2 8 * .e 0 5 * .e 0 8 + .e 1 4 * .e 1 7 * .e 2 5 * .e 2 7 * .e 0 5 * .e 0 5 + .e 1 4 * .e 1 8 * .e 2 4 * .e 2 7 * .e 0 5 * .e 0 5 + .e 1 4 * .e 1 8 * .e 2 7 * .e 2 8 * .e 0 5 * .e 0 5 + .e 1 7 * .e 1 8 * .e 2 5 * .e 2 7 * .e 0 5 * .e 0 5 + .e 1 4 * .e 1 5 * .e 2 4 * .e 2 4 * .e 0 4 * .e 0 8 + .e 1 5 * .e 1 7 * .e 2 4 * .e 2 4 * .e 0 5 * .e 0 8 + .e 1 5 * .e 1 7 * .e 2 8 * .e 2 8 * .e 0 4 * .e 0 5 + .e 1 5 * .e 1 8 * .e 2 8 * .e 2 8 * .e 0 4 * .e 0 8 + .e 1 0 * .e 1 0 * .e 2 1 * .e 2 3 * .e 0 2 * .e 0 3 + .e 1 0 * .e 1 0 * .e 2 2 * .e 2 6 * .e 0 2 * .e 0 3 + .e 1 3 * .e 1 3 * .e 2 1 * .e 2 4 * .e 0 2 * .e 0 4 + .e 1 1 * .e 1 1 * .e 2 3 * .e 2 4 * .e 0 3 * .e 0 5 + .e 1 3 * .e 1 3 * .e 2 2 * .e 2 7 * .e 0 2 * .e 0 4 + .e 1 6 * .e 1 6 * .e 2 1 * .e 2 5 * .e 0 2 * .e 0 5 + .e 1 1 * .e 1 1 * .e 2 5 * .e 2 6 * .e 0 3 * .e 0 5 + .e 1 6 * .e 1 6 * .e 2 2 * .e 2 8 * .e 0 2 * .e 0 5 + .e 1 2 * .e 1 2 * .e 2 3 * .e 2 7 * .e 0 3 * .e 0 8 + .e 1 4 * .e 1 4 * .e 2 5 * .e 2 7 * .e 0 4 * .e 0 5 + .e 1 2 * .e 1 2 * .e 2 6 * .e 2 8 * .e 0 3 * .e 0 8 + .e 1 5 * .e 1 5 * .e 2 4 * .e 2 7 * .e 0 4 * .e 0 8 + .e 1 5 * .e 1 5 * .e 2 7 * .e 2 8 * .e 0 4 * .e 0 8 + .e 1 8 * .e 1 8 * .e 2 5 * .e 2 7 * .e 0 5 * .e 0 8 + .e 1 0 * .e 1 4 * .e 2 1 * .e 2 4 * .e 0 3 * .e 0 5 + .e 1 0 * .e 1 4 * .e 2 3 * .e 2 4 * .e 0 2 * .e 0 4 + .e 1 0 * .e 1 4 * .e 2 2 * .e 2 7 * .e 0 3 * .e 0 5 + .e 1 0 * .e 1 4 * .e 2 5 * .e 2 6 * .e 0 2 * .e 0 4 + .e 1 0 * .e 1 5 * .e 2 1 * .e 2 4 * .e 0 3 * .e 0 8 + .e 1 0 * .e 1 5 * .e 2 3 * .e 2 7 * .e 0 2 * .e 0 4 + .e 1 0 * .e 1 7 * .e 2 1 * .e 2 5 * .e 0 3 * .e 0 5 + .e 1 0 * .e 1 7 * .e 2 3 * .e 2 4 * .e 0 2 * .e 0 5 + .e 1 1 * .e 1 2 * .e 2 3 * .e 2 4 * .e 0 3 * .e 0 8 + .e 1 1 * .e 1 2 * .e 2 3 * .e 2 7 * .e 0 3 * .e 0 5 + .e 1 3 * .e 1 6 * .e 2 1 * .e 2 4 * .e 0 2 * .e 0 5 + .e 1 3 * .e 1 6 * .e 2 1 * .e 2 5 * .e 0 2 * .e 0 4 + .e 1 0 * .e 1 5 * .e 2 2 * .e 2 7 * .e 0 3 * .e 0 8 + .e 1 0 * .e 1 5 * .e 2 6 * .e 2 8 * .e 0 2 * .e 0 4 + .e 1 0 * .e 1 7 * .e 2 2 * .e 2 8 * .e 0 3 * .e 0 5 + .e 1 0 * .e 1 7 * .e 2 5 * .e 2 6 * .e 0 2 * .e 0 5 + .e 1 0 * .e 1 8 * .e 2 1 * .e 2 5 * .e 0 3 * .e 0 8 + .e 1 0 * .e 1 8 * .e 2 3 * .e 2 7 * .e 0 2 * .e 0 5 + .e 1 1 * .e 1 2 * .e 2 5 * .e 2 6 * .e 0 3 * .e 0 8 + .e 1 1 * .e 1 2 * .e 2 6 * .e 2 8 * .e 0 3 * .e 0 5 + .e 1 3 * .e 1 6 * .e 2 2 * .e 2 7 * .e 0 2 * .e 0 5 + .e 1 3 * .e 1 6 * .e 2 2 * .e 2 8 * .e 0 2 * .e 0 4 + .e 1 0 * .e 1 8 * .e 2 2 * .e 2 8 * .e 0 3 * .e 0 8 + .e 1 0 * .e 1 8 * .e 2 6 * .e 2 8 * .e 0 2 * .e 0 5 + .e 1 4 * .e 1 5 * .e 2 4 * .e 2 7 * .e 0 4 * .e 0 5 + .e 1 4 * .e 1 7 * .e 2 4 * .e 2 5 * .e 0 4 * .e 0 5 + .e 1 4 * .e 1 5 * .e 2 5 * .e 2 7 * .e 0 4 * .e 0 8 + .e 1 4 * .e 1 5 * .e 2 7 * .e 2 8 * .e 0 4 * .e 0 5 + .e 1 4 * .e 1 7 * .e 2 5 * .e 2 8 * .e 0 4 * .e 0 5 + .e 1 4 * .e 1 8 * .e 2 4 * .e 2 5 * .e 0 4 * .e 0 8 + .e 1 5 * .e 1 7 * .e 2 5 * .e 2 7 * .e 0 4 * .e 0 5 + .e 1 4 * .e 1 8 * .e 2 5 * .e 2 8 * .e 0 4 * .e 0 8 + .e 1 5 * .e 1 7 * .e 2 5 * .e 2 7 * .e 0 5 * .e 0 8 + .e 1 5 * .e 1 8 * .e 2 4 * .e 2 7 * .e 0 5 * .e 0 8 + .e 1 5 * .e 1 8 * .e 2 5 * .e 2 7 * .e 0 4 * .e 0 8 + .e 1 7 * .e 1 8 * .e 2 4 * .e 2 5 * .e 0 5 * .e 0 8 + .e 1 5 * .e 1 8 * .e 2 7 * .e 2 8 * .e 0 5 * .e 0 8 + .e 1 7 * .e 1 8 * .e 2 5 * .e 2 8 * .e 0 5 * .e 0 8⟩,
    ⟨5, 5, 0⟩,
    ⟨5, 6, .e 1 1 * .e 1 6 * .e 2 0 * .e 2 0 * .e 0 5 * .e 0 5 + .e 1 1 * .e 1 3 * .e 2 0 * .e 2 0 * .e 0 4 * .e 0 5 + .e 1 1 * .e 1 4 * .e 2 4 * .e 2 4 * .e 0 3 * .e 0 5 + .e 1 2 * .e 1 3 * .e 2 0 * .e 2 0 * .e 0 4 * .e 0 8 + .e 1 3 * .e 1 4 * .e 2 4 * .e 2 4 * .e 0 2 * .e 0 4 + .e 1 1 * .e 1 5 * .e 2 4 * .e 2 4 * .e 0 3 * .e 0 8 + .e 1 2 * .e 1 6 * .e 2 0 * .e 2 0 * .e 0 5 * .e 0 8 + .e 1 3 * .e 1 7 * .e 2 4 * .e 2 4 * .e 0 2 * .e 0 5 + .e 1 2 * .e 1 7 * .e 2 8 * .e 2 8 * .e 0 3 * .e 0 5 + .e 1 5 * .e 1 6 * .e 2 8 * .e 2 8 * .e 0 2 * .e 0 4 + .e 1 2 * .e 1 8 * .e 2 8 * .e 2 8 * .e 0 3 * .e 0 8 + .e 1 6 * .e 1 8 * .e 2 8 * .e 2 8 * .e 0 2 * .e 0 5 + .e 1 0 * .e 1 1 * .e 2 3 * .e 2 4 * .e 0 2 * .e 0 3 + .e 1 0 * .e 1 3 * .e 2 1 * .e 2 4 * .e 0 2 * .e 0 3 + .e 1 0 * .e 1 1 * .e 2 5 * .e 2 6 * .e 0 2 * .e 0 3 + .e 1 0 * .e 1 2 * .e 2 3 * .e 2 7 * .e 0 2 * .e 0 3 + .e 1 0 * .e 1 3 * .e 2 2 * .e 2 7 * .e 0 2 * .e 0 3 + .e 1 0 * .e 1 6 * .e 2 1 * .e 2 5 * .e 0 2 * .e 0 3 + .e 1 0 * .e 1 2 * .e 2 6 * .e 2 8 * .e 0 2 * .e 0 3 + .e 1 0 * .e 1 6 * .e 2 2 * .e 2 8 * .e 0 2 * .e 0 3 + .e 1 1 * .e 1 4 * .e 2 5 * .e 2 7 * .e 0 3 * .e 0 5 + .e 1 1 * .e 1 7 * .e 2 4 * .e 2 5 * .e 0 3 * .e 0 5 + .e 1 2 * .e 1 4 * .e 2 4 * .e 2 7 * .e 0 3 * .e 0 5 + .e 1 3 * .e 1 4 * .e 2 5 * .e 2 7 * .e 0 2 * .e 0 4 + .e 1 3 * .e 1 5 * .e 2 4 * .e 2 7 * .e 0 2 * .e 0 4 + .e 1 4 * .e 1 6 * .e 2 4 * .e 2 5 * .e 0 2 * .e 0 4 + .e 1 1 * .e 1 5 * .e 2 5 * .e 2 7 * .e 0 3 * .e 0 8 + .e 1 1 * .e 1 7 * .e 2 5 * .e 2 8 * .e 0 3 * .e 0 5 + .e 1 1 * .e 1 8 * .e 2 4 * .e 2 5 * .e 0 3 * .e 0 8 + .e 1 2 * .e 1 4 * .e 2 7 * .e 2 8 * .e 0 3 * .e 0 5 + .e 1 2 * .e 1 5 * .e 2 4 * .e 2 7 * .e 0 3 * .e 0 8 + .e 1 2 * .e 1 7 * .e 2 5 * .e 2 7 * .e 0 3 * .e 0 5 + .e 1 3 * .e 1 5 * .e 2 7 * .e 2 8 * .e 0 2 * .e 0 4 + .e 1 3 * .e 1 7 * .e 2 5 * .e 2 7 * .e 0 2 * .e 0 5 + .e 1 3 * .e 1 8 * .e 2 4 * .e 2 7 * .e 0 2 * .e 0 5 + .e 1 4 * .e 1 6 * .e 2 5 * .e 2 8 * .e 0 2 * .e 0 4 + .e 1 5 * .e 1 6 * .e 2 5 * .e 2 7 * .e 0 2 * .e 0 4 + .e 1 6 * .e 1 7 * .e 2 4 * .e 2 5 * .e 0 2 * .e 0 5 + .e 1 1 * .e 1 8 * .e 2 5 * .e 2 8 * .e 0 3 * .e 0 8 + .e 1 2 * .e 1 5 * .e 2 7 * .e 2 8 * .e 0 3 * .e 0 8 + .e 1 2 * .e 1 8 * .e 2 5 * .e 2 7 * .e 0 3 * .e 0 8 + .e 1 3 * .e 1 8 * .e 2 7 * .e 2 8 * .e 0 2 * .e 0 5 + .e 1 6 * .e 1 7 * .e 2 5 * .e 2 8 * .e 0 2 * .e 0 5 + .e 1 6 * .e 1 8 * .e 2 5 * .e 2 7 * .e 0 2 * .e 0 5⟩,
    ⟨5, 7, 0⟩,
    ⟨5, 8, .e 1 1 * .e 1 7 * .e 2 0 * .e 2 3 * .e 0 5 * .e 0 5 + .e 1 4 * .e 1 6 * .e 2 0 * .e 2 1 * .e 0 5 * .e 0 5 + .e 1 1 * .e 1 8 * .e 2 0 * .e 2 6 * .e 0 5 * .e 0 5 + .e 1 6 * .e 1 7 * .e 2 0 * .e 2 2 * .e 0 5 * .e 0 5 + .e 1 0 * .e 1 1 * .e 2 0 * .e 2 0 * .e 0 3 * .e 0 5 + .e 1 0 * .e 1 3 * .e 2 0 * .e 2 0 * .e 0 2 * .e 0 4 + .e 1 0 * .e 1 2 * .e 2 0 * .e 2 0 * .e 0 3 * .e 0 8 + .e 1 0 * .e 1 6 * .e 2 0 * .e 2 0 * .e 0 2 * .e 0 5 + .e 1 1 * .e 1 3 * .e 2 4 * .e 2 4 * .e 0 2 * .e 0 3 + .e 1 2 * .e 1 6 * .e 2 8 * .e 2 8 * .e 0 2 * .e 0 3 + .e 1 1 * .e 1 4 * .e 2 0 * .e 2 3 * .e 0 4 * .e 0 5 + .e 1 3 * .e 1 4 * .e 2 0 * .e 2 1 * .e 0 4 * .e 0 5 + .e 1 1 * .e 1 3 * .e 2 5 * .e 2 7 * .e 0 2 * .e 0 3 + .e 1 1 * .e 1 5 * .e 2 0 * .e 2 6 * .e 0 4 * .e 0 5 + .e 1 1 * .e 1 6 * .e 2 4 * .e 2 5 * .e 0 2 * .e 0 3 + .e 1 2 * .e 1 3 * .e 2 4 * .e 2 7 * .e 0 2 * .e 0 3 + .e 1 2 * .e 1 4 * .e 2 0 * .e 2 3 * .e 0 4 * .e 0 8 + .e 1 3 * .e 1 5 * .e 2 0 * .e 2 1 * .e 0 4 * .e 0 8 + .e 1 3 * .e 1 7 * .e 2 0 * .e 2 2 * .e 0 4 * .e 0 5 + .e 1 1 * .e 1 6 * .e 2 5 * .e 2 8 * .e 0 2 * .e 0 3 + .e 1 2 * .e 1 3 * .e 2 7 * .e 2 8 * .e 0 2 * .e 0 3 + .e 1 2 * .e 1 5 * .e 2 0 * .e 2 6 * .e 0 4 * .e 0 8 + .e 1 2 * .e 1 6 * .e 2 5 * .e 2 7 * .e 0 2 * .e 0 3 + .e 1 2 * .e 1 7 * .e 2 0 * .e 2 3 * .e 0 5 * .e 0 8 + .e 1 3 * .e 1 8 * .e 2 0 * .e 2 2 * .e 0 4 * .e 0 8 + .e 1 5 * .e 1 6 * .e 2 0 * .e 2 1 * .e 0 5 * .e 0 8 + .e 1 2 * .e 1 8 * .e 2 0 * .e 2 6 * .e 0 5 * .e 0 8 + .e 1 6 * .e 1 8 * .e 2 0 * .e 2 2 * .e 0 5 * .e 0 8⟩,
    ⟨5, 9, 0⟩,
    ⟨5, 10, .e 1 7 * .e 1 7 * .e 2 2 * .e 2 3 * .e 0 5 * .e 0 5 + .e 1 0 * .e 1 0 * .e 2 0 * .e 2 0 * .e 0 2 * .e 0 3 + .e 1 4 * .e 1 7 * .e 2 1 * .e 2 3 * .e 0 5 * .e 0 5 + .e 1 4 * .e 1 8 * .e 2 1 * .e 2 6 * .e 0 5 * .e 0 5 + .e 1 7 * .e 1 8 * .e 2 2 * .e 2 6 * .e 0 5 * .e 0 5 + .e 1 3 * .e 1 3 * .e 2 0 * .e 2 1 * .e 0 2 * .e 0 4 + .e 1 1 * .e 1 1 * .e 2 0 * .e 2 3 * .e 0 3 * .e 0 5 + .e 1 6 * .e 1 6 * .e 2 0 * .e 2 2 * .e 0 2 * .e 0 5 + .e 1 4 * .e 1 4 * .e 2 1 * .e 2 3 * .e 0 4 * .e 0 5 + .e 1 2 * .e 1 2 * .e 2 0 * .e 2 6 * .e 0 3 * .e 0 8 + .e 1 5 * .e 1 5 * .e 2 1 * .e 2 6 * .e 0 4 * .e 0 8 + .e 1 8 * .e 1 8 * .e 2 2 * .e 2 6 * .e 0 5 * .e 0 8 + .e 1 0 * .e 1 4 * .e 2 0 * .e 2 1 * .e 0 3 * .e 0 5 + .e 1 0 * .e 1 4 * .e 2 0 * .e 2 3 * .e 0 2 * .e 0 4 + .e 1 0 * .e 1 5 * .e 2 0 * .e 2 1 * .e 0 3 * .e 0 8 + .e 1 0 * .e 1 5 * .e 2 0 * .e 2 6 * .e 0 2 * .e 0 4 + .e 1 0 * .e 1 7 * .e 2 0 * .e 2 2 * .e 0 3 * .e 0 5 + .e 1 0 * .e 1 7 * .e 2 0 * .e 2 3 * .e 0 2 * .e 0 5 + .e 1 1 * .e 1 2 * .e 2 0 * .e 2 3 * .e 0 3 * .e 0 8 + .e 1 1 * .e 1 2 * .e 2 0 * .e 2 6 * .e 0 3 * .e 0 5 + .e 1 3 * .e 1 6 * .e 2 0 * .e 2 1 * .e 0 2 * .e 0 5 + .e 1 3 * .e 1 6 * .e 2 0 * .e 2 2 * .e 0 2 * .e 0 4 + .e 1 0 * .e 1 8 * .e 2 0 * .e 2 2 * .e 0 3 * .e 0 8 + .e 1 0 * .e 1 8 * .e 2 0 * .e 2 6 * .e 0 2 * .e 0 5 + .e 1 4 * .e 1 5 * .e 2 1 * .e 2 3 * .e 0 4 * .e 0 8 + .e 1 4 * .e 1 5 * .e 2 1 * .e 2 6 * .e 0 4 * .e 0 5 + .e 1 4 * .e 1 7 * .e 2 2 * .e 2 3 * .e 0 4 * .e 0 5 + .e 1 4 * .e 1 8 * .e 2 2 * .e 2 3 * .e 0 4 * .e 0 8 + .e 1 5 * .e 1 7 * .e 2 1 * .e 2 3 * .e 0 5 * .e 0 8 + .e 1 5 * .e 1 7 * .e 2 2 * .e 2 6 * .e 0 4 * .e 0 5 + .e 1 5 * .e 1 8 * .e 2 1 * .e 2 6 * .e 0 5 * .e 0 8 + .e 1 5 * .e 1 8 * .e 2 2 * .e 2 6 * .e 0 4 * .e 0 8 + .e 1 7 * .e 1 8 * .e 2 2 * .e 2 3 * .e 0 5 * .e 0 8⟩,
    ⟨5, 11, 0⟩,
    ⟨5, 12, .e 1 0 * .e 1 1 * .e 2 0 * .e 2 3 * .e 0 2 * .e 0 3 + .e 1 0 * .e 1 3 * .e 2 0 * .e 2 1 * .e 0 2 * .e 0 3 + .e 1 0 * .e 1 2 * .e 2 0 * .e 2 6 * .e 0 2 * .e 0 3 + .e 1 0 * .e 1 6 * .e 2 0 * .e 2 2 * .e 0 2 * .e 0 3 + .e 1 1 * .e 1 4 * .e 2 1 * .e 2 3 * .e 0 3 * .e 0 5 + .e 1 3 * .e 1 4 * .e 2 1 * .e 2 3 * .e 0 2 * .e 0 4 + .e 1 1 * .e 1 5 * .e 2 1 * .e 2 3 * .e 0 3 * .e 0 8 + .e 1 1 * .e 1 7 * .e 2 2 * .e 2 3 * .e 0 3 * .e 0 5 + .e 1 2 * .e 1 4 * .e 2 1 * .e 2 6 * .e 0 3 * .e 0 5 + .e 1 3 * .e 1 5 * .e 2 1 * .e 2 6 * .e 0 2 * .e 0 4 + .e 1 3 * .e 1 7 * .e 2 1 * .e 2 3 * .e 0 2 * .e 0 5 + .e 1 4 * .e 1 6 * .e 2 2 * .e 2 3 * .e 0 2 * .e 0 4 + .e 1 1 * .e 1 8 * .e 2 2 * .e 2 3 * .e 0 3 * .e 0 8 + .e 1 2 * .e 1 5 * .e 2 1 * .e 2 6 * .e 0 3 * .e 0 8 + .e 1 2 * .e 1 7 * .e 2 2 * .e 2 6 * .e 0 3 * .e 0 5 + .e 1 3 * .e 1 8 * .e 2 1 * .e 2 6 * .e 0 2 * .e 0 5 + .e 1 5 * .e 1 6 * .e 2 2 * .e 2 6 * .e 0 2 * .e 0 4 + .e 1 6 * .e 1 7 * .e 2 2 * .e 2 3 * .e 0 2 * .e 0 5 + .e 1 2 * .e 1 8 * .e 2 2 * .e 2 6 * .e 0 3 * .e 0 8 + .e 1 6 * .e 1 8 * .e 2 2 * .e 2 6 * .e 0 2 * .e 0 5⟩,
    ⟨5, 13, 0⟩,
    ⟨5, 14, .e 1 1 * .e 1 3 * .e 2 1 * .e 2 3 * .e 0 2 * .e 0 3 + .e 1 1 * .e 1 6 * .e 2 2 * .e 2 3 * .e 0 2 * .e 0 3 + .e 1 2 * .e 1 3 * .e 2 1 * .e 2 6 * .e 0 2 * .e 0 3 + .e 1 2 * .e 1 6 * .e 2 2 * .e 2 6 * .e 0 2 * .e 0 3⟩,
    ⟨6, 0, .e 1 1 * .e 1 3 * .e 2 1 * .e 2 3 * .e 0 3 * .e 0 7 + .e 1 1 * .e 1 3 * .e 2 2 * .e 2 6 * .e 0 3 * .e 0 7 + .e 1 1 * .e 1 6 * .e 2 1 * .e 2 3 * .e 0 3 * .e 0 8 + .e 1 2 * .e 1 3 * .e 2 1 * .e 2 3 * .e 0 6 * .e 0 7 + .e 1 1 * .e 1 6 * .e 2 2 * .e 2 6 * .e 0 3 * .e 0 8 + .e 1 2 * .e 1 3 * .e 2 2 * .e 2 6 * .e 0 6 * .e 0 7 + .e 1 2 * .e 1 6 * .e 2 1 * .e 2 3 * .e 0 6 * .e 0 8 + .e 1 2 * .e 1 6 * .e 2 2 * .e 2 6 * .e 0 6 * .e 0 8⟩,
    ⟨6, 1, 0⟩,
    ⟨6, 2, .e 1 0 * .e 1 2 * .e 2 1 * .e 2 3 * .e 0 6 * .e 0 6 + .e 1 0 * .e 1 2 * .e 2 2 * .e 2 6 * .e 0 6 * .e 0 6 + .e 1 0 * .e 1 1 * .e 2 1 * .e 2 3 * .e 0 3 * .e 0 6 + .e 1 0 * .e 1 3 * .e 2 1 * .e 2 3 * .e 0 0 * .e 0 7 + .e 1 0 * .e 1 1 * .e 2 2 * .e 2 6 * .e 0 3 * .e 0 6 + .e 1 0 * .e 1 3 * .e 2 2 * .e 2 6 * .e 0 0 * .e 0 7 + .e 1 0 * .e 1 6 * .e 2 1 * .e 2 3 * .e 0 0 * .e 0 8 + .e 1 0 * .e 1 6 * .e 2 2 * .e 2 6 * .e 0 0 * .e 0 8 + .e 1 1 * .e 1 4 * .e 2 3 * .e 2 4 * .e 0 3 * .e 0 7 + .e 1 3 * .e 1 4 * .e 2 1 * .e 2 4 * .e 0 3 * .e 0 7 + .e 1 1 * .e 1 4 * .e 2 5 * .e 2 6 * .e 0 3 * .e 0 7 + .e 1 1 * .e 1 5 * .e 2 3 * .e 2 7 * .e 0 3 * .e 0 7 + .e 1 1 * .e 1 7 * .e 2 3 * .e 2 4 * .e 0 3 * .e 0 8 + .e 1 2 * .e 1 4 * .e 2 3 * .e 2 4 * .e 0 6 * .e 0 7 + .e 1 3 * .e 1 4 * .e 2 2 * .e 2 7 * .e 0 3 * .e 0 7 + .e 1 3 * .e 1 5 * .e 2 1 * .e 2 4 * .e 0 6 * .e 0 7 + .e 1 3 * .e 1 7 * .e 2 1 * .e 2 5 * .e 0 3 * .e 0 7 + .e 1 4 * .e 1 6 * .e 2 1 * .e 2 4 * .e 0 3 * .e 0 8 + .e 1 1 * .e 1 5 * .e 2 6 * .e 2 8 * .e 0 3 * .e 0 7 + .e 1 1 * .e 1 7 * .e 2 5 * .e 2 6 * .e 0 3 * .e 0 8 + .e 1 1 * .e 1 8 * .e 2 3 * .e 2 7 * .e 0 3 * .e 0 8 + .e 1 2 * .e 1 4 * .e 2 5 * .e 2 6 * .e 0 6 * .e 0 7 + .e 1 2 * .e 1 5 * .e 2 3 * .e 2 7 * .e 0 6 * .e 0 7 + .e 1 2 * .e 1 7 * .e 2 3 * .e 2 4 * .e 0 6 * .e 0 8 + .e 1 3 * .e 1 5 * .e 2 2 * .e 2 7 * .e 0 6 * .e 0 7 + .e 1 3 * .e 1 7 * .e 2 2 * .e 2 8 * .e 0 3 * .e 0 7 + .e 1 3 * .e 1 8 * .e 2 1 * .e 2 5 * .e 0 6 * .e 0 7 + .e 1 4 * .e 1 6 * .e 2 2 * .e 2 7 * .e 0 3 * .e 0 8 + .e 1 5 * .e 1 6 * .e 2 1 * .e 2 4 * .e 0 6 * .e 0 8 + .e 1 6 * .e 1 7 * .e 2 1 * .e 2 5 * .e 0 3 * .e 0 8 + .e 1 1 * .e 1 8 * .e 2 6 * .e 2 8 * .e 0 3 * .e 0 8 + .e 1 2 * .e 1 5 * .e 2 6 * .e 2 8 * .e 0 6 * .e 0 7 + .e 1 2 * .e 1 7 * .e 2 5 * .e 2 6 * .e 0 6 * .e 0 8 + .e 1 2 * .e 1 8 * .e 2 3 * .e 2 7 * .e 0 6 * .e 0 8 + .e 1 3 * .e 1 8 * .e 2 2 * .e 2 8 * .e 0 6 * .e 0 7 + .e 1 5 * .e 1 6 * .e 2 2 * .e 2 7 * .e 0 6 * .e 0 8 + .e 1 6 * .e 1 7 * .e 2 2 * .e 2 8 * .e 0 3 * .e 0 8 + .e 1 6 * .e 1 8 * .e 2 1 * .e 2 5 * .e 0 6 * .e 0 8 + .e 1 2 * .e 1 8 * .e 2 6 * .e 2 8 * .e 0 6 * .e 0 8 + .e 1 6 * .e 1 8 * .e 2 2 * .e 2 8 * .e 0 6 * .e 0 8⟩,
    ⟨6, 3, 0⟩,
    ⟨6, 4, .e 1 2 * .e 1 2 * .e 2 3 * .e 2 7 * .e 0 6 * .e 0 6 + .e 1 2 * .e 1 2 * .e 2 6 * .e 2 8 * .e 0 6 * .e 0 6 + .e 1 4 * .e 1 4 * .e 2 4 * .e 2 4 * .e 0 3 * .e 0 7 + .e 1 8 * .e 1 8 * .e 2 8 * .e 2 8 * .e 0 6 * .e 0 8 + .e 1 0 * .e 1 5 * .e 2 1 * .e 2 4 * .e 0 6 * .e 0 6 + .e 1 1 * .e 1 2 * .e 2 3 * .e 2 4 * .e 0 6 * .e 0 6 + .e 1 0 * .e 1 5 * .e 2 2 * .e 2 7 * .e 0 6 * .e 0 6 + .e 1 0 * .e 1 8 * .e 2 1 * .e 2 5 * .e 0 6 * .e 0 6 + .e 1 1 * .e 1 2 * .e 2 5 * .e 2 6 * .e 0 6 * .e 0 6 + .e 1 0 * .e 1 8 * .e 2 2 * .e 2 8 * .e 0 6 * .e 0 6 + .e 1 4 * .e 1 5 * .e 2 4 * .e 2 4 * .e 0 6 * .e 0 7 + .e 1 4 * .e 1 7 * .e 2 4 * .e 2 4 * .e 0 3 * .e 0 8 + .e 1 5 * .e 1 7 * .e 2 4 * .e 2 4 * .e 0 6 * .e 0 8 + .e 1 5 * .e 1 7 * .e 2 8 * .e 2 8 * .e 0 3 * .e 0 7 + .e 1 5 * .e 1 8 * .e 2 8 * .e 2 8 * .e 0 6 * .e 0 7 + .e 1 7 * .e 1 8 * .e 2 8 * .e 2 8 * .e 0 3 * .e 0 8 + .e 1 0 * .e 1 0 * .e 2 1 * .e 2 3 * .e 0 0 * .e 0 6 + .e 1 0 * .e 1 0 * .e 2 2 * .e 2 6 * .e 0 0 * .e 0 6 + .e 1 3 * .e 1 3 * .e 2 1 * .e 2 4 * .e 0 0 * .e 0 7 + .e 1 1 * .e 1 1 * .e 2 3 * .e 2 4 * .e 0 3 * .e 0 6 + .e 1 3 * .e 1 3 * .e 2 2 * .e 2 7 * .e 0 0 * .e 0 7 + .e 1 6 * .e 1 6 * .e 2 1 * .e 2 5 * .e 0 0 * .e 0 8 + .e 1 1 * .e 1 1 * .e 2 5 * .e 2 6 * .e 0 3 * .e 0 6 + .e 1 6 * .e 1 6 * .e 2 2 * .e 2 8 * .e 0 0 * .e 0 8 + .e 1 4 * .e 1 4 * .e 2 5 * .e 2 7 * .e 0 3 * .e 0 7 + .e 1 7 * .e 1 7 * .e 2 4 * .e 2 5 * .e 0 3 * .e 0 8 + .e 1 5 * .e 1 5 * .e 2 4 * .e 2 7 * .e 0 6 * .e 0 7 + .e 1 7 * .e 1 7 * .e 2 5 * .e 2 8 * .e 0 3 * .e 0 8 + .e 1 5 * .e 1 5 * .e 2 7 * .e 2 8 * .e 0 6 * .e 0 7 + .e 1 8 * .e 1 8 * .e 2 5 * .e 2 7 * .e 0 6 * .e 0 8 + .e 1 0 * .e 1 4 * .e 2 1 * .e 2 4 * .e 0 3 * .e 0 6 + .e 1 0 * .e 1 4 * .e 2 3 * .e 2 4 * .e 0 0 * .e 0 7 + .e 1 0 * .e 1 4 * .e 2 2 * .e 2 7 * .e 0 3 * .e 0 6 + .e 1 0 * .e 1 4 * .e 2 5 * .e 2 6 * .e 0 0 * .e 0 7 + .e 1 0 * .e 1 5 * .e 2 3 * .e 2 7 * .e 0 0 * .e 0 7 + .e 1 0 * .e 1 7 * .e 2 1 * .e 2 5 * .e 0 3 * .e 0 6 + .e 1 0 * .e 1 7 * .e 2 3 * .e 2 4 * .e 0 0 * .e 0 8 + .e 1 1 * .e 1 2 * .e 2 3 * .e 2 7 * .e 0 3 * .e 0 6 + .e 1 3 * .e 1 6 * .e 2 1 * .e 2 4 * .e 0 0 * .e 0 8 + .e 1 3 * .e 1 6 * .e 2 1 * .e 2 5 * .e 0 0 * .e 0 7 + .e 1 0 * .e 1 5 * .e 2 6 * .e 2 8 * .e 0 0 * .e 0 7 + .e 1 0 * .e 1 7 * .e 2 2 * .e 2 8 * .e 0 3 * .e 0 6 + .e 1 0 * .e 1 7 * .e 2 5 * .e 2 6 * .e 0 0 * .e 0 8 + .e 1 0 * .e 1 8 * .e 2 3 * .e 2 7 * .e 0 0 * .e 0 8 + .e 1 1 * .e 1 2 * .e 2 6 * .e 2 8 * .e 0 3 * .e 0 6 + .e 1 3 * .e 1 6 * .e 2 2 * .e 2 7 * .e 0 0 * .e 0 8 + .e 1 3 * .e 1 6 * .e 2 2 * .e 2 8 * .e 0 0 * .e 0 7 + .e 1 0 * .e 1 8 * .e 2 6 * .e 2 8 * .e 0 0 * .e 0 8 + .e 1 4 * .e 1 5 * .e 2 4 * .e 2 7 * .e 0 3 * .e 0 7 + .e 1 4 * .e 1 7 * .e 2 4 * .e 2 5 * .e 0 3 * .e 0 7 + .e 1 4 * .e 1 5 * .e 2 5 * .e 2 7 * .e 0 6 * .e 0 7 + .e 1 4 * .e 1 5 * .e 2 7 * .e 2 8 * .e 0 3 * .e 0 7 + .e 1 4 * .e 1 7 * .e 2 5 * .e 2 7 * .e 0 3 * .e 0 8 + .e 1 4 * .e 1 7 * .e 2 5 * .e 2 8 * .e 0 3 * .e 0 7 + .e 1 4 * .e 1 8 * .e 2 4 * .e 2 5 * .e 0 6 * .e 0 7 + .e 1 4 * .e 1 8 * .e 2 4 * .e 2 7 * .e 0 3 * .e 0 8 + .e 1 5 * .e 1 7 * .e 2 5 * .e 2 7 * .e 0 3 * .e 0 7 + .e 1 4 * .e 1 8 * .e 2 5 * .e 2 8 * .e 0 6 * .e 0 7 + .e 1 4 * .e 1 8 * .e 2 7 * .e 2 8 * .e 0 3 * .e 0 8 + .e 1 5 * .e 1 7 * .e 2 5 * .e 2 7 * .e 0 6 * .e 0 8 + .e 1 5 * .e 1 8 * .e 2 4 * .e 2 7 * .e 0 6 * .e 0 8 + .e 1 5 * .e 1 8 * .e 2 5 * .e 2 7 * .e 0 6 * .e 0 7 + .e 1 7 * .e 1 8 * .e 2 4 * .e 2 5 * .e 0 6 * .e 0 8 + .e 1 7 * .e 1 8 * .e 2 5 * .e 2 7 * .e 0 3 * .e 0 8 + .e 1 5 * .e 1 8 * .e 2 7 * .e 2 8 * .e 0 6 * .e 0 8 + .e 1 7 * .e 1 8 * .e 2 5 * .e 2 8 * .e 0 6 * .e 0 8⟩,
    ⟨6, 5, 0⟩,
    ⟨6, 6, .e 1 1 * .e 1 5 * .e 2 4 * .e 2 4 * .e 0 6 * .e 0 6 + .e 1 2 * .e 1 8 * .e 2 8 * .e 2 8 * .e 0 6 * .e 0 6 + .e 1 1 * .e 1 5 * .e 2 5 * .e 2 7 * .e 0 6 * .e 0 6 + .e 1 1 * .e 1 8 * .e 2 4 * .e 2 5 * .e 0 6 * .e 0 6 + .e 1 2 * .e 1 5 * .e 2 4 * .e 2 7 * .e 0 6 * .e 0 6 + .e 1 1 * .e 1 8 * .e 2 5 * .e 2 8 * .e 0 6 * .e 0 6 + .e 1 2 * .e 1 5 * .e 2 7 * .e 2 8 * .e 0 6 * .e 0 6 + .e 1 2 * .e 1 8 * .e 2 5 * .e 2 7 * .e 0 6 * .e 0 6 + .e 1 1 * .e 1 3 * .e 2 0 * .e 2 0 * .e 0 3 * .e 0 7 + .e 1 1 * .e 1 4 * .e 2 4 * .e 2 4 * .e 0 3 * .e 0 6 + .e 1 1 * .e 1 6 * .e 2 0 * .e 2 0 * .e 0 3 * .e 0 8 + .e 1 2 * .e 1 3 * .e 2 0 * .e 2 0 * .e 0 6 * .e 0 7 + .e 1 3 * .e 1 4 * .e 2 4 * .e 2 4 * .e 0 0 * .e 0 7 + .e 1 2 * .e 1 6 * .e 2 0 * .e 2 0 * .e 0 6 * .e 0 8 + .e 1 3 * .e 1 7 * .e 2 4 * .e 2 4 * .e 0 0 * .e 0 8 + .e 1 2 * .e 1 7 * .e 2 8 * .e 2 8 * .e 0 3 * .e 0 6 + .e 1 5 * .e 1 6 * .e 2 8 * .e 2 8 * .e 0 0 * .e 0 7 + .e 1 6 * .e 1 8 * .e 2 8 * .e 2 8 * .e 0 0 * .e 0 8 + .e 1 0 * .e 1 1 * .e 2 3 * .e 2 4 * .e 0 0 * .e 0 6 + .e 1 0 * .e 1 3 * .e 2 1 * .e 2 4 * .e 0 0 * .e 0 6 + .e 1 0 * .e 1 1 * .e 2 5 * .e 2 6 * .e 0 0 * .e 0 6 + .e 1 0 * .e 1 2 * .e 2 3 * .e 2 7 * .e 0 0 * .e 0 6 + .e 1 0 * .e 1 3 * .e 2 2 * .e 2 7 * .e 0 0 * .e 0 6 + .e 1 0 * .e 1 6 * .e 2 1 * .e 2 5 * .e 0 0 * .e 0 6 + .e 1 0 * .e 1 2 * .e 2 6 * .e 2 8 * .e 0 0 * .e 0 6 + .e 1 0 * .e 1 6 * .e 2 2 * .e 2 8 * .e 0 0 * .e 0 6 + .e 1 1 * .e 1 4 * .e 2 5 * .e 2 7 * .e 0 3 * .e 0 6 + .e 1 1 * .e 1 7 * .e 2 4 * .e 2 5 * .e 0 3 * .e 0 6 + .e 1 2 * .e 1 4 * .e 2 4 * .e 2 7 * .e 0 3 * .e 0 6 + .e 1 3 * .e 1 4 * .e 2 5 * .e 2 7 * .e 0 0 * .e 0 7 + .e 1 3 * .e 1 5 * .e 2 4 * .e 2 7 * .e 0 0 * .e 0 7 + .e 1 4 * .e 1 6 * .e 2 4 * .e 2 5 * .e 0 0 * .e 0 7 + .e 1 1 * .e 1 7 * .e 2 5 * .e 2 8 * .e 0 3 * .e 0 6 + .e 1 2 * .e 1 4 * .e 2 7 * .e 2 8 * .e 0 3 * .e 0 6 + .e 1 2 * .e 1 7 * .e 2 5 * .e 2 7 * .e 0 3 * .e 0 6 + .e 1 3 * .e 1 5 * .e 2 7 * .e 2 8 * .e 0 0 * .e 0 7 + .e 1 3 * .e 1 7 * .e 2 5 * .e 2 7 * .e 0 0 * .e 0 8 + .e 1 3 * .e 1 8 * .e 2 4 * .e 2 7 * .e 0 0 * .e 0 8 + .e 1 4 * .e 1 6 * .e 2 5 * .e 2 8 * .e 0 0 * .e 0 7 + .e 1 5 * .e 1 6 * .e 2 5 * .e 2 7 * .e 0 0 * .e 0 7 + .e 1 6 * .e 1 7 * .e 2 4 * .e 2 5 * .e 0 0 * .e 0 8 + .e 1 3 * .e 1 8 * .e 2 7 * .e 2 8 * .e 0 0 * .e 0 8 + .e 1 6 * .e 1 7 * .e 2 5 * .e 2 8 * .e 0 0 * .e 0 8 + .e 1 6 * .e 1 8 * .e 2 5 * .e 2 7 * .e 0 0 * .e 0 8⟩,
    ⟨6, 7, 0⟩,
    ⟨6, 8, .e 1 0 * .e 1 2 * .e 2 0 * .e 2 0 * .e 0 6 * .e 0 6 + .e 1 0 * .e 1 1 * .e 2 0 * .e 2 0 * .e 0 3 * .e 0 6 + .e 1 0 * .e 1 3 * .e 2 0 * .e 2 0 * .e 0 0 * .e 0 7 + .e 1 0 * .e 1 6 * .e 2 0 * .e 2 0 * .e 0 0 * .e 0 8 + .e 1 1 * .e 1 3 * .e 2 4 * .e 2 4 * .e 0 0 * .e 0 6 + .e 1 2 * .e 1 6 * .e 2 8 * .e 2 8 * .e 0 0 * .e 0 6 + .e 1 1 * .e 1 4 * .e 2 0 * .e 2 3 * .e 0 3 * .e 0 7 + .e 1 3 * .e 1 4 * .e 2 0 * .e 2 1 * .e 0 3 * .e 0 7 + .e 1 1 * .e 1 3 * .e 2 5 * .e 2 7 * .e 0 0 * .e 0 6 + .e 1 1 * .e 1 5 * .e 2 0 * .e 2 6 * .e 0 3 * .e 0 7 + .e 1 1 * .e 1 6 * .e 2 4 * .e 2 5 * .e 0 0 * .e 0 6 + .e 1 1 * .e 1 7 * .e 2 0 * .e 2 3 * .e 0 3 * .e 0 8 + .e 1 2 * .e 1 3 * .e 2 4 * .e 2 7 * .e 0 0 * .e 0 6 + .e 1 2 * .e 1 4 * .e 2 0 * .e 2 3 * .e 0 6 * .e 0 7 + .e 1 3 * .e 1 5 * .e 2 0 * .e 2 1 * .e 0 6 * .e 0 7 + .e 1 3 * .e 1 7 * .e 2 0 * .e 2 2 * .e 0 3 * .e 0 7 + .e 1 4 * .e 1 6 * .e 2 0 * .e 2 1 * .e 0 3 * .e 0 8 + .e 1 1 * .e 1 6 * .e 2 5 * .e 2 8 * .e 0 0 * .e 0 6 + .e 1 1 * .e 1 8 * .e 2 0 * .e 2 6 * .e 0 3 * .e 0 8 + .e 1 2 * .e 1 3 * .e 2 7 * .e 2 8 * .e 0 0 * .e 0 6 + .e 1 2 * .e 1 5 * .e 2 0 * .e 2 6 * .e 0 6 * .e 0 7 + .e 1 2 * .e 1 6 * .e 2 5 * .e 2 7 * .e 0 0 * .e 0 6 + .e 1 2 * .e 1 7 * .e 2 0 * .e 2 3 * .e 0 6 * .e 0 8 + .e 1 3 * .e 1 8 * .e 2 0 * .e 2 2 * .e 0 6 * .e 0 7 + .e 1 5 * .e 1 6 * .e 2 0 * .e 2 1 * .e 0 6 * .e 0 8 + .e 1 6 * .e 1 7 * .e 2 0 * .e 2 2 * .e 0 3 * .e 0 8 + .e 1 2 * .e 1 8 * .e 2 0 * .e 2 6 * .e 0 6 * .e 0 8 + .e 1 6 * .e 1 8 * .e 2 0 * .e 2 2 * .e 0 6 * .e 0 8⟩,
    ⟨6, 9, 0⟩,
    ⟨6, 10, .e 1 2 * .e 1 2 * .e 2 0 * .e 2 6 * .e 0 6 * .e 0 6 + .e 1 0 * .e 1 0 * .e 2 0 * .e 2 0 * .e 0 0 * .e 0 6 + .e 1 0 * .e 1 5 * .e 2 0 * .e 2 1 * .e 0 6 * .e 0 6 + .e 1 1 * .e 1 2 * .e 2 0 * .e 2 3 * .e 0 6 * .e 0 6 + .e 1 0 * .e 1 8 * .e 2 0 * .e 2 2 * .e 0 6 * .e 0 6 + .e 1 3 * .e 1 3 * .e 2 0 * .e 2 1 * .e 0 0 * .e 0 7 + .e 1 1 * .e 1 1 * .e 2 0 * .e 2 3 * .e 0 3 * .e 0 6 + .e 1 6 * .e 1 6 * .e 2 0 * .e 2 2 * .e 0 0 * .e 0 8 + .e 1 4 * .e 1 4 * .e 2 1 * .e 2 3 * .e 0 3 * .e 0 7 + .e 1 7 * .e 1 7 * .e 2 2 * .e 2 3 * .e 0 3 * .e 0 8 + .e 1 5 * .e 1 5 * .e 2 1 * .e 2 6 * .e 0 6 * .e 0 7 + .e 1 8 * .e 1 8 * .e 2 2 * .e 2 6 * .e 0 6 * .e 0 8 + .e 1 0 * .e 1 4 * .e 2 0 * .e 2 1 * .e 0 3 * .e 0 6 + .e 1 0 * .e 1 4 * .e 2 0 * .e 2 3 * .e 0 0 * .e 0 7 + .e 1 0 * .e 1 5 * .e 2 0 * .e 2 6 * .e 0 0 * .e 0 7 + .e 1 0 * .e 1 7 * .e 2 0 * .e 2 2 * .e 0 3 * .e 0 6 + .e 1 0 * .e 1 7 * .e 2 0 * .e 2 3 * .e 0 0 * .e 0 8 + .e 1 1 * .e 1 2 * .e 2 0 * .e 2 6 * .e 0 3 * .e 0 6 + .e 1 3 * .e 1 6 * .e 2 0 * .e 2 1 * .e 0 0 * .e 0 8 + .e 1 3 * .e 1 6 * .e 2 0 * .e 2 2 * .e 0 0 * .e 0 7 + .e 1 0 * .e 1 8 * .e 2 0 * .e 2 6 * .e 0 0 * .e 0 8 + .e 1 4 * .e 1 5 * .e 2 1 * .e 2 3 * .e 0 6 * .e 0 7 + .e 1 4 * .e 1 5 * .e 2 1 * .e 2 6 * .e 0 3 * .e 0 7 + .e 1 4 * .e 1 7 * .e 2 1 * .e 2 3 * .e 0 3 * .e 0 8 + .e 1 4 * .e 1 7 * .e 2 2 * .e 2 3 * .e 0 3 * .e 0 7 + .e 1 4 * .e 1 8 * .e 2 1 * .e 2 6 * .e 0 3 * .e 0 8 + .e 1 4 * .e 1 8 * .e 2 2 * .e 2 3 * .e 0 6 * .e 0 7 + .e 1 5 * .e 1 7 * .e 2 1 * .e 2 3 * .e 0 6 * .e 0 8 + .e 1 5 * .e 1 7 * .e 2 2 * .e 2 6 * .e 0 3 * .e 0 7 + .e 1 5 * .e 1 8 * .e 2 1 * .e 2 6 * .e 0 6 * .e 0 8 + .e 1 5 * .e 1 8 * .e 2 2 * .e 2 6 * .e 0 6 * .e 0 7 + .e 1 7 * .e 1 8 * .e 2 2 * .e 2 3 * .e 0 6 * .e 0 8 + .e 1 7 * .e 1 8 * .e 2 2 * .e 2 6 * .e 0 3 * .e 0 8⟩,
    ⟨6, 11, 0⟩,
    ⟨6, 12, .e 1 1 * .e 1 5 * .e 2 1 * .e 2 3 * .e 0 6 * .e 0 6 + .e 1 1 * .e 1 8 * .e 2 2 * .e 2 3 * .e 0 6 * .e 0 6 + .e 1 2 * .e 1 5 * .e 2 1 * .e 2 6 * .e 0 6 * .e 0 6 + .e 1 2 * .e 1 8 * .e 2 2 * .e 2 6 * .e 0 6 * .e 0 6 + .e 1 0 * .e 1 1 * .e 2 0 * .e 2 3 * .e 0 0 * .e 0 6 + .e 1 0 * .e 1 3 * .e 2 0 * .e 2 1 * .e 0 0 * .e 0 6 + .e 1 0 * .e 1 2 * .e 2 0 * .e 2 6 * .e 0 0 * .e 0 6 + .e 1 0 * .e 1 6 * .e 2 0 * .e 2 2 * .e 0 0 * .e 0 6 + .e 1 1 * .e 1 4 * .e 2 1 * .e 2 3 * .e 0 3 * .e 0 6 + .e 1 3 * .e 1 4 * .e 2 1 * .e 2 3 * .e 0 0 * .e 0 7 + .e 1 1 * .e 1 7 * .e 2 2 * .e 2 3 * .e 0 3 * .e 0 6 + .e 1 2 * .e 1 4 * .e 2 1 * .e 2 6 * .e 0 3 * .e 0 6 + .e 1 3 * .e 1 5 * .e 2 1 * .e 2 6 * .e 0 0 * .e 0 7 + .e 1 3 * .e 1 7 * .e 2 1 * .e 2 3 * .e 0 0 * .e 0 8 + .e 1 4 * .e 1 6 * .e 2 2 * .e 2 3 * .e 0 0 * .e 0 7 + .e 1 2 * .e 1 7 * .e 2 2 * .e 2 6 * .e 0 3 * .e 0 6 + .e 1 3 * .e 1 8 * .e 2 1 * .e 2 6 * .e 0 0 * .e 0 8 + .e 1 5 * .e 1 6 * .e 2 2 * .e 2 6 * .e 0 0 * .e 0 7 + .e 1 6 * .e 1 7 * .e 2 2 * .e 2 3 * .e 0 0 * .e 0 8 + .e 1 6 * .e 1 8 * .e 2 2 * .e 2 6 * .e 0 0 * .e 0 8⟩,
    ⟨6, 13, 0⟩,
    ⟨6, 14, .e 1 1 * .e 1 3 * .e 2 1 * .e 2 3 * .e 0 0 * .e 0 6 + .e 1 1 * .e 1 6 * .e 2 2 * .e 2 3 * .e 0 0 * .e 0 6 + .e 1 2 * .e 1 3 * .e 2 1 * .e 2 6 * .e 0 0 * .e 0 6 + .e 1 2 * .e 1 6 * .e 2 2 * .e 2 6 * .e 0 0 * .e 0 6⟩,
    ⟨7, 0, .e 1 2 * .e 1 3 * .e 2 1 * .e 2 3 * .e 0 7 * .e 0 7 + .e 1 2 * .e 1 3 * .e 2 2 * .e 2 6 * .e 0 7 * .e 0 7 + .e 1 1 * .e 1 3 * .e 2 1 * .e 2 3 * .e 0 4 * .e 0 7 + .e 1 1 * .e 1 3 * .e 2 2 * .e 2 6 * .e 0 4 * .e 0 7 + .e 1 1 * .e 1 6 * .e 2 1 * .e 2 3 * .e 0 4 * .e 0 8 + .e 1 1 * .e 1 6 * .e 2 2 * .e 2 6 * .e 0 4 * .e 0 8 + .e 1 2 * .e 1 6 * .e 2 1 * .e 2 3 * .e 0 7 * .e 0 8 + .e 1 2 * .e 1 6 * .e 2 2 * .e 2 6 * .e 0 7 * .e 0 8⟩,
    ⟨7, 1, 0⟩,
    ⟨7, 2, .e 1 2 * .e 1 4 * .e 2 3 * .e 2 4 * .e 0 7 * .e 0 7 + .e 1 3 * .e 1 5 * .e 2 1 * .e 2 4 * .e 0 7 * .e 0 7 + .e 1 2 * .e 1 4 * .e 2 5 * .e 2 6 * .e 0 7 * .e 0 7 + .e 1 2 * .e 1 5 * .e 2 3 * .e 2 7 * .e 0 7 * .e 0 7 + .e 1 3 * .e 1 5 * .e 2 2 * .e 2 7 * .e 0 7 * .e 0 7 + .e 1 3 * .e 1 8 * .e 2 1 * .e 2 5 * .e 0 7 * .e 0 7 + .e 1 2 * .e 1 5 * .e 2 6 * .e 2 8 * .e 0 7 * .e 0 7 + .e 1 3 * .e 1 8 * .e 2 2 * .e 2 8 * .e 0 7 * .e 0 7 + .e 1 0 * .e 1 1 * .e 2 1 * .e 2 3 * .e 0 4 * .e 0 6 + .e 1 0 * .e 1 3 * .e 2 1 * .e 2 3 * .e 0 1 * .e 0 7 + .e 1 0 * .e 1 1 * .e 2 2 * .e 2 6 * .e 0 4 * .e 0 6 + .e 1 0 * .e 1 2 * .e 2 1 * .e 2 3 * .e 0 6 * .e 0 7 + .e 1 0 * .e 1 3 * .e 2 2 * .e 2 6 * .e 0 1 * .e 0 7 + .e 1 0 * .e 1 6 * .e 2 1 * .e 2 3 * .e 0 1 * .e 0 8 + .e 1 0 * .e 1 2 * .e 2 2 * .e 2 6 * .e 0 6 * .e 0 7 + .e 1 0 * .e 1 6 * .e 2 2 * .e 2 6 * .e 0 1 * .e 0 8 + .e 1 1 * .e 1 4 * .e 2 3 * .e 2 4 * .e 0 4 * .e 0 7 + .e 1 3 * .e 1 4 * .e 2 1 * .e 2 4 * .e 0 4 * .e 0 7 + .e 1 1 * .e 1 4 * .e 2 5 * .e 2 6 * .e 0 4 * .e 0 7 + .e 1 1 * .e 1 5 * .e 2 3 * .e 2 7 * .e 0 4 * .e 0 7 + .e 1 1 * .e 1 7 * .e 2 3 * .e 2 4 * .e 0 4 * .e 0 8 + .e 1 3 * .e 1 4 * .e 2 2 * .e 2 7 * .e 0 4 * .e 0 7 + .e 1 3 * .e 1 7 * .e 2 1 * .e 2 5 * .e 0 4 * .e 0 7 + .e 1 4 * .e 1 6 * .e 2 1 * .e 2 4 * .e 0 4 * .e 0 8 + .e 1 1 * .e 1 5 * .e 2 6 * .e 2 8 * .e 0 4 * .e 0 7 + .e 1 1 * .e 1 7 * .e 2 5 * .e 2 6 * .e 0 4 * .e 0 8 + .e 1 1 * .e 1 8 * .e 2 3 * .e 2 7 * .e 0 4 * .e 0 8 + .e 1 2 * .e 1 7 * .e 2 3 * .e 2 4 * .e 0 7 * .e 0 8 + .e 1 3 * .e 1 7 * .e 2 2 * .e 2 8 * .e 0 4 * .e 0 7 + .e 1 4 * .e 1 6 * .e 2 2 * .e 2 7 * .e 0 4 * .e 0 8 + .e 1 5 * .e 1 6 * .e 2 1 * .e 2 4 * .e 0 7 * .e 0 8 + .e 1 6 * .e 1 7 * .e 2 1 * .e 2 5 * .e 0 4 * .e 0 8 + .e 1 1 * .e 1 8 * .e 2 6 * .e 2 8 * .e 0 4 * .e 0 8 + .e 1 2 * .e 1 7 * .e 2 5 * .e 2 6 * .e 0 7 * .e 0 8 + .e 1 2 * .e 1 8 * .e 2 3 * .e 2 7 * .e 0 7 * .e 0 8 + .e 1 5 * .e 1 6 * .e 2 2 * .e 2 7 * .e 0 7 * .e 0 8 + .e 1 6 * .e 1 7 * .e 2 2 * .e 2 8 * .e 0 4 * .e 0 8 + .e 1 6 * .e 1 8 * .e 2 1 * .e 2 5 * .e 0 7 * .e 0 8 + .e 1 2 * .e 1 8 * .e 2 6 * .e 2 8 * .e 0 7 * .e 0 8 + .e 1 6 * .e 1 8 * .e 2 2 * .e 2 8 * .e 0 7 * .e 0 8⟩,
    ⟨7, 3, 0⟩,
    ⟨7, 4, .e 1 4 * .e 1 5 * .e 2 4 * .e 2 4 * .e 0 7 * .e 0 7 + .e 1 5 * .e 1 8 * .e 2 8 * .e 2 8 * .e 0 7 * .e 0 7 + .e 1 5 * .e 1 5 * .e 2 4 * .e 2 7 * .e 0 7 * .e 0 7 + .e 1 5 * .e 1 5 * .e 2 7 * .e 2 8 * .e 0 7 * .e 0 7 + .e 1 4 * .e 1 4 * .e 2 4 * .e 2 4 * .e 0 4 * .e 0 7 + .e 1 8 * .e 1 8 * .e 2 8 * .e 2 8 * .e 0 7 * .e 0 8 + .e 1 4 * .e 1 5 * .e 2 5 * .e 2 7 * .e 0 7 * .e 0 7 + .e 1 4 * .e 1 8 * .e 2 4 * .e 2 5 * .e 0 7 * .e 0 7 + .e 1 4 * .e 1 8 * .e 2 5 * .e 2 8 * .e 0 7 * .e 0 7 + .e 1 5 * .e 1 8 * .e 2 5 * .e 2 7 * .e 0 7 * .e 0 7 + .e 1 4 * .e 1 7 * .e 2 4 * .e 2 4 * .e 0 4 * .e 0 8 + .e 1 5 * .e 1 7 * .e 2 4 * .e 2 4 * .e 0 7 * .e 0 8 + .e 1 5 * .e 1 7 * .e 2 8 * .e 2 8 * .e 0 4 * .e 0 7 + .e 1 7 * .e 1 8 * .e 2 8 * .e 2 8 * .e 0 4 * .e 0 8 + .e 1 0 * .e 1 0 * .e 2 1 * .e 2 3 * .e 0 1 * .e 0 6 + .e 1 0 * .e 1 0 * .e 2 2 * .e 2 6 * .e 0 1 * .e 0 6 + .e 1 3 * .e 1 3 * .e 2 1 * .e 2 4 * .e 0 1 * .e 0 7 + .e 1 1 * .e 1 1 * .e 2 3 * .e 2 4 * .e 0 4 * .e 0 6 + .e 1 3 * .e 1 3 * .e 2 2 * .e 2 7 * .e 0 1 * .e 0 7 + .e 1 6 * .e 1 6 * .e 2 1 * .e 2 5 * .e 0 1 * .e 0 8 + .e 1 1 * .e 1 1 * .e 2 5 * .e 2 6 * .e 0 4 * .e 0 6 + .e 1 6 * .e 1 6 * .e 2 2 * .e 2 8 * .e 0 1 * .e 0 8 + .e 1 2 * .e 1 2 * .e 2 3 * .e 2 7 * .e 0 6 * .e 0 7 + .e 1 4 * .e 1 4 * .e 2 5 * .e 2 7 * .e 0 4 * .e 0 7 + .e 1 7 * .e 1 7 * .e 2 4 * .e 2 5 * .e 0 4 * .e 0 8 + .e 1 2 * .e 1 2 * .e 2 6 * .e 2 8 * .e 0 6 * .e 0 7 + .e 1 7 * .e 1 7 * .e 2 5 * .e 2 8 * .e 0 4 * .e 0 8 + .e 1 8 * .e 1 8 * .e 2 5 * .e 2 7 * .e 0 7 * .e 0 8 + .e 1 0 * .e 1 4 * .e 2 1 * .e 2 4 * .e 0 4 * .e 0 6 + .e 1 0 * .e 1 4 * .e 2 3 * .e 2 4 * .e 0 1 * .e 0 7 + .e 1 0 * .e 1 4 * .e 2 2 * .e 2 7 * .e 0 4 * .e 0 6 + .e 1 0 * .e 1 4 * .e 2 5 * .e 2 6 * .e 0 1 * .e 0 7 + .e 1 0 * .e 1 5 * .e 2 1 * .e 2 4 * .e 0 6 * .e 0 7 + .e 1 0 * .e 1 5 * .e 2 3 * .e 2 7 * .e 0 1 * .e 0 7 + .e 1 0 * .e 1 7 * .e 2 1 * .e 2 5 * .e 0 4 * .e 0 6 + .e 1 0 * .e 1 7 * .e 2 3 * .e 2 4 * .e 0 1 * .e 0 8 + .e 1 1 * .e 1 2 * .e 2 3 * .e 2 4 * .e 0 6 * .e 0 7 + .e 1 1 * .e 1 2 * .e 2 3 * .e 2 7 * .e 0 4 * .e 0 6 + .e 1 3 * .e 1 6 * .e 2 1 * .e 2 4 * .e 0 1 * .e 0 8 + .e 1 3 * .e 1 6 * .e 2 1 * .e 2 5 * .e 0 1 * .e 0 7 + .e 1 0 * .e 1 5 * .e 2 2 * .e 2 7 * .e 0 6 * .e 0 7 + .e 1 0 * .e 1 5 * .e 2 6 * .e 2 8 * .e 0 1 * .e 0 7 + .e 1 0 * .e 1 7 * .e 2 2 * .e 2 8 * .e 0 4 * .e 0 6 + .e 1 0 * .e 1 7 * .e 2 5 * .e 2 6 * .e 0 1 * .e 0 8 + .e 1 0 * .e 1 8 * .e 2 1 * .e 2 5 * .e 0 6 * .e 0 7 + .e 1 0 * .e 1 8 * .e 2 3 * .e 2 7 * .e 0 1 * .e 0 8 + .e 1 1 * .e 1 2 * .e 2 5 * .e 2 6 * .e 0 6 * .e 0 7 + .e 1 1 * .e 1 2 * .e 2 6 * .e 2 8 * .e 0 4 * .e 0 6 + .e 1 3 * .e 1 6 * .e 2 2 * .e 2 7 * .e 0 1 * .e 0 8 + .e 1 3 * .e 1 6 * .e 2 2 * .e 2 8 * .e 0 1 * .e 0 7 + .e 1 0 * .e 1 8 * .e 2 2 * .e 2 8 * .e 0 6 * .e 0 7 + .e 1 0 * .e 1 8 * .e 2 6 * .e 2 8 * .e 0 1 * .e 0 8 + .e 1 4 * .e 1 5 * .e 2 4 * .e 2 7 * .e 0 4 * .e 0 7 + .e 1 4 * .e 1 7 * .e 2 4 * .e 2 5 * .e 0 4 * .e 0 7 + .e 1 4 * .e 1 5 * .e 2 7 * .e 2 8 * .e 0 4 * .e 0 7 + .e 1 4 * .e 1 7 * .e 2 5 * .e 2 7 * .e 0 4 * .e 0 8 + .e 1 4 * .e 1 7 * .e 2 5 * .e 2 8 * .e 0 4 * .e 0 7 + .e 1 4 * .e 1 8 * .e 2 4 * .e 2 7 * .e 0 4 * .e 0 8 + .e 1 5 * .e 1 7 * .e 2 5 * .e 2 7 * .e 0 4 * .e 0 7 + .e 1 4 * .e 1 8 * .e 2 7 * .e 2 8 * .e 0 4 * .e 0 8 + .e 1 5 * .e 1 7 * .e 2 5 * .e 2 7 * .e 0 7 * .e 0 8 + .e 1 5 * .e 1 8 * .e 2 4 * .e 2 7 * .e 0 7 * .e 0 8 + .e 1 7 * .e 1 8 * .e 2 4 * .e 2 5 * .e 0 7 * .e 0 8 + .e 1 7 * .e 1 8 * .e 2 5 * .e 2 7 * .e 0 4 * .e 0 8 + .e 1 5 * .e 1 8 * .e 2 7 * .e 2 8 * .e 0 7 * .e 0 8 + .e 1 7 * .e 1 8 * .e 2 5 * .e 2 8 * .e 0 7 * .e 0 8⟩,
    ⟨7, 5, 0⟩,
    ⟨7, 6, .e 1 2 * .e 1 3 * .e 2 0 * .e 2 0 * .e 0 7 * .e 0 7 + .e 1 1 * .e 1 3 * .e 2 0 * .e 2 0 * .e 0 4 * .e 0 7 + .e 1 1 * .e 1 4 * .e 2 4 * .e 2 4 * .e 0 4 * .e 0 6 + .e 1 1 * .e 1 6 * .e 2 0 * .e 2 0 * .e 0 4 * .e 0 8 + .e 1 3 * .e 1 4 * .e 2 4 * .e 2 4 * .e 0 1 * .e 0 7 + .e 1 1 * .e 1 5 * .e 2 4 * .e 2 4 * .e 0 6 * .e 0 7 + .e 1 2 * .e 1 6 * .e 2 0 * .e 2 0 * .e 0 7 * .e 0 8 + .e 1 3 * .e 1 7 * .e 2 4 * .e 2 4 * .e 0 1 * .e 0 8 + .e 1 2 * .e 1 7 * .e 2 8 * .e 2 8 * .e 0 4 * .e 0 6 + .e 1 5 * .e 1 6 * .e 2 8 * .e 2 8 * .e 0 1 * .e 0 7 + .e 1 2 * .e 1 8 * .e 2 8 * .e 2 8 * .e 0 6 * .e 0 7 + .e 1 6 * .e 1 8 * .e 2 8 * .e 2 8 * .e 0 1 * .e 0 8 + .e 1 0 * .e 1 1 * .e 2 3 * .e 2 4 * .e 0 1 * .e 0 6 + .e 1 0 * .e 1 3 * .e 2 1 * .e 2 4 * .e 0 1 * .e 0 6 + .e 1 0 * .e 1 1 * .e 2 5 * .e 2 6 * .e 0 1 * .e 0 6 + .e 1 0 * .e 1 2 * .e 2 3 * .e 2 7 * .e 0 1 * .e 0 6 + .e 1 0 * .e 1 3 * .e 2 2 * .e 2 7 * .e 0 1 * .e 0 6 + .e 1 0 * .e 1 6 * .e 2 1 * .e 2 5 * .e 0 1 * .e 0 6 + .e 1 0 * .e 1 2 * .e 2 6 * .e 2 8 * .e 0 1 * .e 0 6 + .e 1 0 * .e 1 6 * .e 2 2 * .e 2 8 * .e 0 1 * .e 0 6 + .e 1 1 * .e 1 4 * .e 2 5 * .e 2 7 * .e 0 4 * .e 0 6 + .e 1 1 * .e 1 7 * .e 2 4 * .e 2 5 * .e 0 4 * .e 0 6 + .e 1 2 * .e 1 4 * .e 2 4 * .e 2 7 * .e 0 4 * .e 0 6 + .e 1 3 * .e 1 4 * .e 2 5 * .e 2 7 * .e 0 1 * .e 0 7 + .e 1 3 * .e 1 5 * .e 2 4 * .e 2 7 * .e 0 1 * .e 0 7 + .e 1 4 * .e 1 6 * .e 2 4 * .e 2 5 * .e 0 1 * .e 0 7 + .e 1 1 * .e 1 5 * .e 2 5 * .e 2 7 * .e 0 6 * .e 0 7 + .e 1 1 * .e 1 7 * .e 2 5 * .e 2 8 * .e 0 4 * .e 0 6 + .e 1 1 * .e 1 8 * .e 2 4 * .e 2 5 * .e 0 6 * .e 0 7 + .e 1 2 * .e 1 4 * .e 2 7 * .e 2 8 * .e 0 4 * .e 0 6 + .e 1 2 * .e 1 5 * .e 2 4 * .e 2 7 * .e 0 6 * .e 0 7 + .e 1 2 * .e 1 7 * .e 2 5 * .e 2 7 * .e 0 4 * .e 0 6 + .e 1 3 * .e 1 5 * .e 2 7 * .e 2 8 * .e 0 1 * .e 0 7 + .e 1 3 * .e 1 7 * .e 2 5 * .e 2 7 * .e 0 1 * .e 0 8 + .e 1 3 * .e 1 8 * .e 2 4 * .e 2 7 * .e 0 1 * .e 0 8 + .e 1 4 * .e 1 6 * .e 2 5 * .e 2 8 * .e 0 1 * .e 0 7 + .e 1 5 * .e 1 6 * .e 2 5 * .e 2 7 * .e 0 1 * .e 0 7 + .e 1 6 * .e 1 7 * .e 2 4 * .e 2 5 * .e 0 1 * .e 0 8 + .e 1 1 * .e 1 8 * .e 2 5 * .e 2 8 * .e 0 6 * .e 0 7 + .e 1 2 * .e 1 5 * .e 2 7 * .e 2 8 * .e 0 6 * .e 0 7 + .e 1 2 * .e 1 8 * .e 2 5 * .e 2 7 * .e 0 6 * .e 0 7 + .e 1 3 * .e 1 8 * .e 2 7 * .e 2 8 * .e 0 1 * .e 0 8 + .e 1 6 * .e 1 7 * .e 2 5 * .e 2 8 * .e 0 1 * .e 0 8 + .e 1 6 * .e 1 8 * .e 2 5 * .e 2 7 * .e 0 1 * .e 0 8⟩,
    ⟨7, 7, 0⟩,
    ⟨7, 8, .e 1 2 * .e 1 4 * .e 2 0 * .e 2 3 * .e 0 7 * .e 0 7 + .e 1 3 * .e 1 5 * .e 2 0 * .e 2 1 * .e 0 7 * .e 0 7 + .e 1 2 * .e 1 5 * .e 2 0 * .e 2 6 * .e 0 7 * .e 0 7 + .e 1 3 * .e 1 8 * .e 2 0 * .e 2 2 * .e 0 7 * .e 0 7 + .e 1 0 * .e 1 1 * .e 2 0 * .e 2 0 * .e 0 4 * .e 0 6 + .e 1 0 * .e 1 3 * .e 2 0 * .e 2 0 * .e 0 1 * .e 0 7 + .e 1 0 * .e 1 2 * .e 2 0 * .e 2 0 * .e 0 6 * .e 0 7 + .e 1 0 * .e 1 6 * .e 2 0 * .e 2 0 * .e 0 1 * .e 0 8 + .e 1 1 * .e 1 3 * .e 2 4 * .e 2 4 * .e 0 1 * .e 0 6 + .e 1 2 * .e 1 6 * .e 2 8 * .e 2 8 * .e 0 1 * .e 0 6 + .e 1 1 * .e 1 4 * .e 2 0 * .e 2 3 * .e 0 4 * .e 0 7 + .e 1 3 * .e 1 4 * .e 2 0 * .e 2 1 * .e 0 4 * .e 0 7 + .e 1 1 * .e 1 3 * .e 2 5 * .e 2 7 * .e 0 1 * .e 0 6 + .e 1 1 * .e 1 5 * .e 2 0 * .e 2 6 * .e 0 4 * .e 0 7 + .e 1 1 * .e 1 6 * .e 2 4 * .e 2 5 * .e 0 1 * .e 0 6 + .e 1 1 * .e 1 7 * .e 2 0 * .e 2 3 * .e 0 4 * .e 0 8 + .e 1 2 * .e 1 3 * .e 2 4 * .e 2 7 * .e 0 1 * .e 0 6 + .e 1 3 * .e 1 7 * .e 2 0 * .e 2 2 * .e 0 4 * .e 0 7 + .e 1 4 * .e 1 6 * .e 2 0 * .e 2 1 * .e 0 4 * .e 0 8 + .e 1 1 * .e 1 6 * .e 2 5 * .e 2 8 * .e 0 1 * .e 0 6 + .e 1 1 * .e 1 8 * .e 2 0 * .e 2 6 * .e 0 4 * .e 0 8 + .e 1 2 * .e 1 3 * .e 2 7 * .e 2 8 * .e 0 1 * .e 0 6 + .e 1 2 * .e 1 6 * .e 2 5 * .e 2 7 * .e 0 1 * .e 0 6 + .e 1 2 * .e 1 7 * .e 2 0 * .e 2 3 * .e 0 7 * .e 0 8 + .e 1 5 * .e 1 6 * .e 2 0 * .e 2 1 * .e 0 7 * .e 0 8 + .e 1 6 * .e 1 7 * .e 2 0 * .e 2 2 * .e 0 4 * .e 0 8 + .e 1 2 * .e 1 8 * .e 2 0 * .e 2 6 * .e 0 7 * .e 0 8 + .e 1 6 * .e 1 8 * .e 2 0 * .e 2 2 * .e 0 7 * .e 0 8⟩,
    ⟨7, 9, 0⟩,
    ⟨7, 10, .e 1 5 * .e 1 5 * .e 2 1 * .e 2 6 * .e 0 7 * .e 0 7 + .e 1 0 * .e 1 0 * .e 2 0 * .e 2 0 * .e 0 1 * .e 0 6 + .e 1 4 * .e 1 5 * .e 2 1 * .e 2 3 * .e 0 7 * .e 0 7 + .e 1 4 * .e 1 8 * .e 2 2 * .e 2 3 * .e 0 7 * .e 0 7 + .e 1 5 * .e 1 8 * .e 2 2 * .e 2 6 * .e 0 7 * .e 0 7 + .e 1 3 * .e 1 3 * .e 2 0 * .e 2 1 * .e 0 1 * .e 0 7 + .e 1 1 * .e 1 1 * .e 2 0 * .e 2 3 * .e 0 4 * .e 0 6 + .e 1 6 * .e 1 6 * .e 2 0 * .e 2 2 * .e 0 1 * .e 0 8 + .e 1 4 * .e 1 4 * .e 2 1 * .e 2 3 * .e 0 4 * .e 0 7 + .e 1 2 * .e 1 2 * .e 2 0 * .e 2 6 * .e 0 6 * .e 0 7 + .e 1 7 * .e 1 7 * .e 2 2 * .e 2 3 * .e 0 4 * .e 0 8 + .e 1 8 * .e 1 8 * .e 2 2 * .e 2 6 * .e 0 7 * .e 0 8 + .e 1 0 * .e 1 4 * .e 2 0 * .e 2 1 * .e 0 4 * .e 0 6 + .e 1 0 * .e 1 4 * .e 2 0 * .e 2 3 * .e 0 1 * .e 0 7 + .e 1 0 * .e 1 5 * .e 2 0 * .e 2 1 * .e 0 6 * .e 0 7 + .e 1 0 * .e 1 5 * .e 2 0 * .e 2 6 * .e 0 1 * .e 0 7 + .e 1 0 * .e 1 7 * .e 2 0 * .e 2 2 * .e 0 4 * .e 0 6 + .e 1 0 * .e 1 7 * .e 2 0 * .e 2 3 * .e 0 1 * .e 0 8 + .e 1 1 * .e 1 2 * .e 2 0 * .e 2 3 * .e 0 6 * .e 0 7 + .e 1 1 * .e 1 2 * .e 2 0 * .e 2 6 * .e 0 4 * .e 0 6 + .e 1 3 * .e 1 6 * .e 2 0 * .e 2 1 * .e 0 1 * .e 0 8 + .e 1 3 * .e 1 6 * .e 2 0 * .e 2 2 * .e 0 1 * .e 0 7 + .e 1 0 * .e 1 8 * .e 2 0 * .e 2 2 * .e 0 6 * .e 0 7 + .e 1 0 * .e 1 8 * .e 2 0 * .e 2 6 * .e 0 1 * .e 0 8 + .e 1 4 * .e 1 5 * .e 2 1 * .e 2 6 * .e 0 4 * .e 0 7 + .e 1 4 * .e 1 7 * .e 2 1 * .e 2 3 * .e 0 4 * .e 0 8 + .e 1 4 * .e 1 7 * .e 2 2 * .e 2 3 * .e 0 4 * .e 0 7 + .e 1 4 * .e 1 8 * .e 2 1 * .e 2 6 * .e 0 4 * .e 0 8 + .e 1 5 * .e 1 7 * .e 2 1 * .e 2 3 * .e 0 7 * .e 0 8 + .e 1 5 * .e 1 7 * .e 2 2 * .e 2 6 * .e 0 4 * .e 0 7 + .e 1 5 * .e 1 8 * .e 2 1 * .e 2 6 * .e 0 7 * .e 0 8 + .e 1 7 * .e 1 8 * .e 2 2 * .e 2 3 * .e 0 7 * .e 0 8 + .e 1 7 * .e 1 8 * .e 2 2 * .e 2 6 * .e 0 4 * .e 0 8⟩,
    ⟨7, 11, 0⟩,
    ⟨7, 12, .e 1 0 * .e 1 1 * .e 2 0 * .e 2 3 * .e 0 1 * .e 0 6 + .e 1 0 * .e 1 3 * .e 2 0 * .e 2 1 * .e 0 1 * .e 0 6 + .e 1 0 * .e 1 2 * .e 2 0 * .e 2 6 * .e 0 1 * .e 0 6 + .e 1 0 * .e 1 6 * .e 2 0 * .e 2 2 * .e 0 1 * .e 0 6 + .e 1 1 * .e 1 4 * .e 2 1 * .e 2 3 * .e 0 4 * .e 0 6 + .e 1 3 * .e 1 4 * .e 2 1 * .e 2 3 * .e 0 1 * .e 0 7 + .e 1 1 * .e 1 5 * .e 2 1 * .e 2 3 * .e 0 6 * .e 0 7 + .e 1 1 * .e 1 7 * .e 2 2 * .e 2 3 * .e 0 4 * .e 0 6 + .e 1 2 * .e 1 4 * .e 2 1 * .e 2 6 * .e 0 4 * .e 0 6 + .e 1 3 * .e 1 5 * .e 2 1 * .e 2 6 * .e 0 1 * .e 0 7 + .e 1 3 * .e 1 7 * .e 2 1 * .e 2 3 * .e 0 1 * .e 0 8 + .e 1 4 * .e 1 6 * .e 2 2 * .e 2 3 * .e 0 1 * .e 0 7 + .e 1 1 * .e 1 8 * .e 2 2 * .e 2 3 * .e 0 6 * .e 0 7 + .e 1 2 * .e 1 5 * .e 2 1 * .e 2 6 * .e 0 6 * .e 0 7 + .e 1 2 * .e 1 7 * .e 2 2 * .e 2 6 * .e 0 4 * .e 0 6 + .e 1 3 * .e 1 8 * .e 2 1 * .e 2 6 * .e 0 1 * .e 0 8 + .e 1 5 * .e 1 6 * .e 2 2 * .e 2 6 * .e 0 1 * .e 0 7 + .e 1 6 * .e 1 7 * .e 2 2 * .e 2 3 * .e 0 1 * .e 0 8 + .e 1 2 * .e 1 8 * .e 2 2 * .e 2 6 * .e 0 6 * .e 0 7 + .e 1 6 * .e 1 8 * .e 2 2 * .e 2 6 * .e 0 1 * .e 0 8⟩,
    ⟨7, 13, 0⟩,
    ⟨7, 14, .e 1 1 * .e 1 3 * .e 2 1 * .e 2 3 * .e 0 1 * .e 0 6 + .e 1 1 * .e 1 6 * .e 2 2 * .e 2 3 * .e 0 1 * .e 0 6 + .e 1 2 * .e 1 3 * .e 2 1 * .e 2 6 * .e 0 1 * .e 0 6 + .e 1 2 * .e 1 6 * .e 2 2 * .e 2 6 * .e 0 1 * .e 0 6⟩,
    ⟨8, 0, .e 1 2 * .e 1 6 * .e 2 1 * .e 2 3 * .e 0 8 * .e 0 8 + .e 1 2 * .e 1 6 * .e 2 2 * .e 2 6 * .e 0 8 * .e 0 8 + .e 1 1 * .e 1 3 * .e 2 1 * .e 2 3 * .e 0 5 * .e 0 7 + .e 1 1 * .e 1 3 * .e 2 2 * .e 2 6 * .e 0 5 * .e 0 7 + .e 1 1 * .e 1 6 * .e 2 1 * .e 2 3 * .e 0 5 * .e 0 8 + .e 1 2 * .e 1 3 * .e 2 1 * .e 2 3 * .e 0 7 * .e 0 8 + .e 1 1 * .e 1 6 * .e 2 2 * .e 2 6 * .e 0 5 * .e 0 8 + .e 1 2 * .e 1 3 * .e 2 2 * .e 2 6 * .e 0 7 * .e 0 8⟩,
    ⟨8, 1, 0⟩,
    ⟨8, 2, .e 1 2 * .e 1 7 * .e 2 3 * .e 2 4 * .e 0 8 * .e 0 8 + .e 1 5 * .e 1 6 * .e 2 1 * .e 2 4 * .e 0 8 * .e 0 8 + .e 1 2 * .e 1 7 * .e 2 5 * .e 2 6 * .e 0 8 * .e 0 8 + .e 1 2 * .e 1 8 * .e 2 3 * .e 2 7 * .e 0 8 * .e 0 8 + .e 1 5 * .e 1 6 * .e 2 2 * .e 2 7 * .e 0 8 * .e 0 8 + .e 1 6 * .e 1 8 * .e 2 1 * .e 2 5 * .e 0 8 * .e 0 8 + .e 1 2 * .e 1 8 * .e 2 6 * .e 2 8 * .e 0 8 * .e 0 8 + .e 1 6 * .e 1 8 * .e 2 2 * .e 2 8 * .e 0 8 * .e 0 8 + .e 1 0 * .e 1 1 * .e 2 1 * .e 2 3 * .e 0 5 * .e 0 6 + .e 1 0 * .e 1 3 * .e 2 1 * .e 2 3 * .e 0 2 * .e 0 7 + .e 1 0 * .e 1 1 * .e 2 2 * .e 2 6 * .e 0 5 * .e 0 6 + .e 1 0 * .e 1 2 * .e 2 1 * .e 2 3 * .e 0 6 * .e 0 8 + .e 1 0 * .e 1 3 * .e 2 2 * .e 2 6 * .e 0 2 * .e 0 7 + .e 1 0 * .e 1 6 * .e 2 1 * .e 2 3 * .e 0 2 * .e 0 8 + .e 1 0 * .e 1 2 * .e 2 2 * .e 2 6 * .e 0 6 * .e 0 8 + .e 1 0 * .e 1 6 * .e 2 2 * .e 2 6 * .e 0 2 * .e 0 8 + .e 1 1 * .e 1 4 * .e 2 3 * .e 2 4 * .e 0 5 * .e 0 7 + .e 1 3 * .e 1 4 * .e 2 1 * .e 2 4 * .e 0 5 * .e 0 7 + .e 1 1 * .e 1 4 * .e 2 5 * .e 2 6 * .e 0 5 * .e 0 7 + .e 1 1 * .e 1 5 * .e 2 3 * .e 2 7 * .e 0 5 * .e 0 7 + .e 1 1 * .e 1 7 * .e 2 3 * .e 2 4 * .e 0 5 * .e 0 8 + .e 1 2 * .e 1 4 * .e 2 3 * .e 2 4 * .e 0 7 * .e 0 8 + .e 1 3 * .e 1 4 * .e 2 2 * .e 2 7 * .e 0 5 * .e 0 7 + .e 1 3 * .e 1 5 * .e 2 1 * .e 2 4 * .e 0 7 * .e 0 8 + .e 1 3 * .e 1 7 * .e 2 1 * .e 2 5 * .e 0 5 * .e 0 7 + .e 1 4 * .e 1 6 * .e 2 1 * .e 2 4 * .e 0 5 * .e 0 8 + .e 1 1 * .e 1 5 * .e 2 6 * .e 2 8 * .e 0 5 * .e 0 7 + .e 1 1 * .e 1 7 * .e 2 5 * .e 2 6 * .e 0 5 * .e 0 8 + .e 1 1 * .e 1 8 * .e 2 3 * .e 2 7 * .e 0 5 * .e 0 8 + .e 1 2 * .e 1 4 * .e 2 5 * .e 2 6 * .e 0 7 * .e 0 8 + .e 1 2 * .e 1 5 * .e 2 3 * .e 2 7 * .e 0 7 * .e 0 8 + .e 1 3 * .e 1 5 * .e 2 2 * .e 2 7 * .e 0 7 * .e 0 8 + .e 1 3 * .e 1 7 * .e 2 2 * .e 2 8 * .e 0 5 * .e 0 7 + .e 1 3 * .e 1 8 * .e 2 1 * .e 2 5 * .e 0 7 * .e 0 8 + .e 1 4 * .e 1 6 * .e 2 2 * .e 2 7 * .e 0 5 * .e 0 8 + .e 1 6 * .e 1 7 * .e 2 1 * .e 2 5 * .e 0 5 * .e 0 8 + .e 1 1 * .e 1 8 * .e 2 6 * .e 2 8 * .e 0 5 * .e 0 8 + .e 1 2 * .e 1 5 * .e 2 6 * .e 2 8 * .e 0 7 * .e 0 8 + .e 1 3 * .e 1 8 * .e 2 2 * .e 2 8 * .e 0 7 * .e 0 8 + .e 1 6 * .e 1 7 * .e 2 2 * .e 2 8 * .e 0 5 * .e 0 8⟩,
    ⟨8, 3, 0⟩,
    ⟨8, 4, .e 1 8 * .e 1 8 * .e 2 8 * .e 2 8 * .e 0 8 * .e 0 8 + .e 1 5 * .e 1 7 * .e 2 4 * .e 2 4 * .e 0 8 * .e 0 8 + .e 1 8 * .e 1 8 * .e 2 5 * .e 2 7 * .e 0 8 * .e 0 8 + .e 1 4 * .e 1 4 * .e 2 4 * .e 2 4 * .e 0 5 * .e 0 7 + .e 1 5 * .e 1 7 * .e 2 5 * .e 2 7 * .e 0 8 * .e 0 8 + .e 1 5 * .e 1 8 * .e 2 4 * .e 2 7 * .e 0 8 * .e 0 8 + .e 1 7 * .e 1 8 * .e 2 4 * .e 2 5 * .e 0 8 * .e 0 8 + .e 1 5 * .e 1 8 * .e 2 7 * .e 2 8 * .e 0 8 * .e 0 8 + .e 1 7 * .e 1 8 * .e 2 5 * .e 2 8 * .e 0 8 * .e 0 8 + .e 1 4 * .e 1 5 * .e 2 4 * .e 2 4 * .e 0 7 * .e 0 8 + .e 1 4 * .e 1 7 * .e 2 4 * .e 2 4 * .e 0 5 * .e 0 8 + .e 1 5 * .e 1 7 * .e 2 8 * .e 2 8 * .e 0 5 * .e 0 7 + .e 1 5 * .e 1 8 * .e 2 8 * .e 2 8 * .e 0 7 * .e 0 8 + .e 1 7 * .e 1 8 * .e 2 8 * .e 2 8 * .e 0 5 * .e 0 8 + .e 1 0 * .e 1 0 * .e 2 1 * .e 2 3 * .e 0 2 * .e 0 6 + .e 1 0 * .e 1 0 * .e 2 2 * .e 2 6 * .e 0 2 * .e 0 6 + .e 1 3 * .e 1 3 * .e 2 1 * .e 2 4 * .e 0 2 * .e 0 7 + .e 1 1 * .e 1 1 * .e 2 3 * .e 2 4 * .e 0 5 * .e 0 6 + .e 1 3 * .e 1 3 * .e 2 2 * .e 2 7 * .e 0 2 * .e 0 7 + .e 1 6 * .e 1 6 * .e 2 1 * .e 2 5 * .e 0 2 * .e 0 8 + .e 1 1 * .e 1 1 * .e 2 5 * .e 2 6 * .e 0 5 * .e 0 6 + .e 1 6 * .e 1 6 * .e 2 2 * .e 2 8 * .e 0 2 * .e 0 8 + .e 1 2 * .e 1 2 * .e 2 3 * .e 2 7 * .e 0 6 * .e 0 8 + .e 1 4 * .e 1 4 * .e 2 5 * .e 2 7 * .e 0 5 * .e 0 7 + .e 1 7 * .e 1 7 * .e 2 4 * .e 2 5 * .e 0 5 * .e 0 8 + .e 1 2 * .e 1 2 * .e 2 6 * .e 2 8 * .e 0 6 * .e 0 8 + .e 1 5 * .e 1 5 * .e 2 4 * .e 2 7 * .e 0 7 * .e 0 8 + .e 1 7 * .e 1 7 * .e 2 5 * .e 2 8 * .e 0 5 * .e 0 8 + .e 1 5 * .e 1 5 * .e 2 7 * .e 2 8 * .e 0 7 * .e 0 8 + .e 1 0 * .e 1 4 * .e 2 1 * .e 2 4 * .e 0 5 * .e 0 6 + .e 1 0 * .e 1 4 * .e 2 3 * .e 2 4 * .e 0 2 * .e 0 7 + .e 1 0 * .e 1 4 * .e 2 2 * .e 2 7 * .e 0 5 * .e 0 6 + .e 1 0 * .e 1 4 * .e 2 5 * .e 2 6 * .e 0 2 * .e 0 7 + .e 1 0 * .e 1 5 * .e 2 1 * .e 2 4 * .e 0 6 * .e 0 8 + .e 1 0 * .e 1 5 * .e 2 3 * .e 2 7 * .e 0 2 * .e 0 7 + .e 1 0 * .e 1 7 * .e 2 1 * .e 2 5 * .e 0 5 * .e 0 6 + .e 1 0 * .e 1 7 * .e 2 3 * .e 2 4 * .e 0 2 * .e 0 8 + .e 1 1 * .e 1 2 * .e 2 3 * .e 2 4 * .e 0 6 * .e 0 8 + .e 1 1 * .e 1 2 * .e 2 3 * .e 2 7 * .e 0 5 * .e 0 6 + .e 1 3 * .e 1 6 * .e 2 1 * .e 2 4 * .e 0 2 * .e 0 8 + .e 1 3 * .e 1 6 * .e 2 1 * .e 2 5 * .e 0 2 * .e 0 7 + .e 1 0 * .e 1 5 * .e 2 2 * .e 2 7 * .e 0 6 * .e 0 8 + .e 1 0 * .e 1 5 * .e 2 6 * .e 2 8 * .e 0 2 * .e 0 7 + .e 1 0 * .e 1 7 * .e 2 2 * .e 2 8 * .e 0 5 * .e 0 6 + .e 1 0 * .e 1 7 * .e 2 5 * .e 2 6 * .e 0 2 * .e 0 8 + .e 1 0 * .e 1 8 * .e 2 1 * .e 2 5 * .e 0 6 * .e 0 8 + .e 1 0 * .e 1 8 * .e 2 3 * .e 2 7 * .e 0 2 * .e 0 8 + .e 1 1 * .e 1 2 * .e 2 5 * .e 2 6 * .e 0 6 * .e 0 8 + .e 1 1 * .e 1 2 * .e 2 6 * .e 2 8 * .e 0 5 * .e 0 6 + .e 1 3 * .e 1 6 * .e 2 2 * .e 2 7 * .e 0 2 * .e 0 8 + .e 1 3 * .e 1 6 * .e 2 2 * .e 2 8 * .e 0 2 * .e 0 7 + .e 1 0 * .e 1 8 * .e 2 2 * .e 2 8 * .e 0 6 * .e 0 8 + .e 1 0 * .e 1 8 * .e 2 6 * .e 2 8 * .e 0 2 * .e 0 8 + .e 1 4 * .e 1 5 * .e 2 4 * .e 2 7 * .e 0 5 * .e 0 7 + .e 1 4 * .e 1 7 * .e 2 4 * .e 2 5 * .e 0 5 * .e 0 7 + .e 1 4 * .e 1 5 * .e 2 5 * .e 2 7 * .e 0 7 * .e 0 8 + .e 1 4 * .e 1 5 * .e 2 7 * .e 2 8 * .e 0 5 * .e 0 7 + .e 1 4 * .e 1 7 * .e 2 5 * .e 2 7 * .e 0 5 * .e 0 8 + .e 1 4 * .e 1 7 * .e 2 5 * .e 2 8 * .e 0 5 * .e 0 7 + .e 1 4 * .e 1 8 * .e 2 4 * .e 2 5 * .e 0 7 * .e 0 8 + .e 1 4 * .e 1 8 * .e 2 4 * .e 2 7 * .e 0 5 * .e 0 8 + .e 1 5 * .e 1 7 * .e 2 5 * .e 2 7 * .e 0 5 * .e 0 7 + .e 1 4 * .e 1 8 * .e 2 5 * .e 2 8 * .e 0 7 * .e 0 8 + .e 1 4 * .e 1 8 * .e 2 7 * .e 2 8 * .e 0 5 * .e 0 8 + .e 1 5 * .e 1 8 * .e 2 5 * .e 2 7 * .e 0 7 * .e 0 8 + .e 1 7 * .e 1 8 * .e 2 5 * .e 2 7 * .e 0 5 * .e 0 8⟩,
    ⟨8, 5, 0⟩,
    ⟨8, 6, .e 1 2 * .e 1 6 * .e 2 0 * .e 2 0 * .e 0 8 * .e 0 8 + .e 1 1 * .e 1 3 * .e 2 0 * .e 2 0 * .e 0 5 * .e 0 7 + .e 1 1 * .e 1 4 * .e 2 4 * .e 2 4 * .e 0 5 * .e 0 6 + .e 1 1 * .e 1 6 * .e 2 0 * .e 2 0 * .e 0 5 * .e 0 8 + .e 1 2 * .e 1 3 * .e 2 0 * .e 2 0 * .e 0 7 * .e 0 8 + .e 1 3 * .e 1 4 * .e 2 4 * .e 2 4 * .e 0 2 * .e 0 7 + .e 1 1 * .e 1 5 * .e 2 4 * .e 2 4 * .e 0 6 * .e 0 8 + .e 1 3 * .e 1 7 * .e 2 4 * .e 2 4 * .e 0 2 * .e 0 8 + .e 1 2 * .e 1 7 * .e 2 8 * .e 2 8 * .e 0 5 * .e 0 6 + .e 1 5 * .e 1 6 * .e 2 8 * .e 2 8 * .e 0 2 * .e 0 7 + .e 1 2 * .e 1 8 * .e 2 8 * .e 2 8 * .e 0 6 * .e 0 8 + .e 1 6 * .e 1 8 * .e 2 8 * .e 2 8 * .e 0 2 * .e 0 8 + .e 1 0 * .e 1 1 * .e 2 3 * .e 2 4 * .e 0 2 * .e 0 6 + .e 1 0 * .e 1 3 * .e 2 1 * .e 2 4 * .e 0 2 * .e 0 6 + .e 1 0 * .e 1 1 * .e 2 5 * .e 2 6 * .e 0 2 * .e 0 6 + .e 1 0 * .e 1 2 * .e 2 3 * .e 2 7 * .e 0 2 * .e 0 6 + .e 1 0 * .e 1 3 * .e 2 2 * .e 2 7 * .e 0 2 * .e 0 6 + .e 1 0 * .e 1 6 * .e 2 1 * .e 2 5 * .e 0 2 * .e 0 6 + .e 1 0 * .e 1 2 * .e 2 6 * .e 2 8 * .e 0 2 * .e 0 6 + .e 1 0 * .e 1 6 * .e 2 2 * .e 2 8 * .e 0 2 * .e 0 6 + .e 1 1 * .e 1 4 * .e 2 5 * .e 2 7 * .e 0 5 * .e 0 6 + .e 1 1 * .e 1 7 * .e 2 4 * .e 2 5 * .e 0 5 * .e 0 6 + .e 1 2 * .e 1 4 * .e 2 4 * .e 2 7 * .e 0 5 * .e 0 6 + .e 1 3 * .e 1 4 * .e 2 5 * .e 2 7 * .e 0 2 * .e 0 7 + .e 1 3 * .e 1 5 * .e 2 4 * .e 2 7 * .e 0 2 * .e 0 7 + .e 1 4 * .e 1 6 * .e 2 4 * .e 2 5 * .e 0 2 * .e 0 7 + .e 1 1 * .e 1 5 * .e 2 5 * .e 2 7 * .e 0 6 * .e 0 8 + .e 1 1 * .e 1 7 * .e 2 5 * .e 2 8 * .e 0 5 * .e 0 6 + .e 1 1 * .e 1 8 * .e 2 4 * .e 2 5 * .e 0 6 * .e 0 8 + .e 1 2 * .e 1 4 * .e 2 7 * .e 2 8 * .e 0 5 * .e 0 6 + .e 1 2 * .e 1 5 * .e 2 4 * .e 2 7 * .e 0 6 * .e 0 8 + .e 1 2 * .e 1 7 * .e 2 5 * .e 2 7 * .e 0 5 * .e 0 6 + .e 1 3 * .e 1 5 * .e 2 7 * .e 2 8 * .e 0 2 * .e 0 7 + .e 1 3 * .e 1 7 * .e 2 5 * .e 2 7 * .e 0 2 * .e 0 8 + .e 1 3 * .e 1 8 * .e 2 4 * .e 2 7 * .e 0 2 * .e 0 8 + .e 1 4 * .e 1 6 * .e 2 5 * .e 2 8 * .e 0 2 * .e 0 7 + .e 1 5 * .e 1 6 * .e 2 5 * .e 2 7 * .e 0 2 * .e 0 7 + .e 1 6 * .e 1 7 * .e 2 4 * .e 2 5 * .e 0 2 * .e 0 8 + .e 1 1 * .e 1 8 * .e 2 5 * .e 2 8 * .e 0 6 * .e 0 8 + .e 1 2 * .e 1 5 * .e 2 7 * .e 2 8 * .e 0 6 * .e 0 8 + .e 1 2 * .e 1 8 * .e 2 5 * .e 2 7 * .e 0 6 * .e 0 8 + .e 1 3 * .e 1 8 * .e 2 7 * .e 2 8 * .e 0 2 * .e 0 8 + .e 1 6 * .e 1 7 * .e 2 5 * .e 2 8 * .e 0 2 * .e 0 8 + .e 1 6 * .e 1 8 * .e 2 5 * .e 2 7 * .e 0 2 * .e 0 8⟩,
    ⟨8, 7, 0⟩,
    ⟨8, 8, .e 1 2 * .e 1 7 * .e 2 0 * .e 2 3 * .e 0 8 * .e 0 8 + .e 1 5 * .e 1 6 * .e 2 0 * .e 2 1 * .e 0 8 * .e 0 8 + .e 1 2 * .e 1 8 * .e 2 0 * .e 2 6 * .e 0 8 * .e 0 8 + .e 1 6 * .e 1 8 * .e 2 0 * .e 2 2 * .e 0 8 * .e 0 8 + .e 1 0 * .e 1 1 * .e 2 0 * .e 2 0 * .e 0 5 * .e 0 6 + .e 1 0 * .e 1 3 * .e 2 0 * .e 2 0 * .e 0 2 * .e 0 7 + .e 1 0 * .e 1 2 * .e 2 0 * .e 2 0 * .e 0 6 * .e 0 8 + .e 1 0 * .e 1 6 * .e 2 0 * .e 2 0 * .e 0 2 * .e 0 8 + .e 1 1 * .e 1 3 * .e 2 4 * .e 2 4 * .e 0 2 * .e 0 6 + .e 1 2 * .e 1 6 * .e 2 8 * .e 2 8 * .e 0 2 * .e 0 6 + .e 1 1 * .e 1 4 * .e 2 0 * .e 2 3 * .e 0 5 * .e 0 7 + .e 1 3 * .e 1 4 * .e 2 0 * .e 2 1 * .e 0 5 * .e 0 7 + .e 1 1 * .e 1 3 * .e 2 5 * .e 2 7 * .e 0 2 * .e 0 6 + .e 1 1 * .e 1 5 * .e 2 0 * .e 2 6 * .e 0 5 * .e 0 7 + .e 1 1 * .e 1 6 * .e 2 4 * .e 2 5 * .e 0 2 * .e 0 6 + .e 1 1 * .e 1 7 * .e 2 0 * .e 2 3 * .e 0 5 * .e 0 8 + .e 1 2 * .e 1 3 * .e 2 4 * .e 2 7 * .e 0 2 * .e 0 6 + .e 1 2 * .e 1 4 * .e 2 0 * .e 2 3 * .e 0 7 * .e 0 8 + .e 1 3 * .e 1 5 * .e 2 0 * .e 2 1 * .e 0 7 * .e 0 8 + .e 1 3 * .e 1 7 * .e 2 0 * .e 2 2 * .e 0 5 * .e 0 7 + .e 1 4 * .e 1 6 * .e 2 0 * .e 2 1 * .e 0 5 * .e 0 8 + .e 1 1 * .e 1 6 * .e 2 5 * .e 2 8 * .e 0 2 * .e 0 6 + .e 1 1 * .e 1 8 * .e 2 0 * .e 2 6 * .e 0 5 * .e 0 8 + .e 1 2 * .e 1 3 * .e 2 7 * .e 2 8 * .e 0 2 * .e 0 6 + .e 1 2 * .e 1 5 * .e 2 0 * .e 2 6 * .e 0 7 * .e 0 8 + .e 1 2 * .e 1 6 * .e 2 5 * .e 2 7 * .e 0 2 * .e 0 6 + .e 1 3 * .e 1 8 * .e 2 0 * .e 2 2 * .e 0 7 * .e 0 8 + .e 1 6 * .e 1 7 * .e 2 0 * .e 2 2 * .e 0 5 * .e 0 8⟩,
    ⟨8, 9, 0⟩,
    ⟨8, 10, .e 1 8 * .e 1 8 * .e 2 2 * .e 2 6 * .e 0 8 * .e 0 8 + .e 1 0 * .e 1 0 * .e 2 0 * .e 2 0 * .e 0 2 * .e 0 6 + .e 1 5 * .e 1 7 * .e 2 1 * .e 2 3 * .e 0 8 * .e 0 8 + .e 1 5 * .e 1 8 * .e 2 1 * .e 2 6 * .e 0 8 * .e 0 8 + .e 1 7 * .e 1 8 * .e 2 2 * .e 2 3 * .e 0 8 * .e 0 8 + .e 1 3 * .e 1 3 * .e 2 0 * .e 2 1 * .e 0 2 * .e 0 7 + .e 1 1 * .e 1 1 * .e 2 0 * .e 2 3 * .e 0 5 * .e 0 6 + .e 1 6 * .e 1 6 * .e 2 0 * .e 2 2 * .e 0 2 * .e 0 8 + .e 1 4 * .e 1 4 * .e 2 1 * .e 2 3 * .e 0 5 * .e 0 7 + .e 1 2 * .e 1 2 * .e 2 0 * .e 2 6 * .e 0 6 * .e 0 8 + .e 1 7 * .e 1 7 * .e 2 2 * .e 2 3 * .e 0 5 * .e 0 8 + .e 1 5 * .e 1 5 * .e 2 1 * .e 2 6 * .e 0 7 * .e 0 8 + .e 1 0 * .e 1 4 * .e 2 0 * .e 2 1 * .e 0 5 * .e 0 6 + .e 1 0 * .e 1 4 * .e 2 0 * .e 2 3 * .e 0 2 * .e 0 7 + .e 1 0 * .e 1 5 * .e 2 0 * .e 2 1 * .e 0 6 * .e 0 8 + .e 1 0 * .e 1 5 * .e 2 0 * .e 2 6 * .e 0 2 * .e 0 7 + .e 1 0 * .e 1 7 * .e 2 0 * .e 2 2 * .e 0 5 * .e 0 6 + .e 1 0 * .e 1 7 * .e 2 0 * .e 2 3 * .e 0 2 * .e 0 8 + .e 1 1 * .e 1 2 * .e 2 0 * .e 2 3 * .e 0 6 * .e 0 8 + .e 1 1 * .e 1 2 * .e 2 0 * .e 2 6 * .e 0 5 * .e 0 6 + .e 1 3 * .e 1 6 * .e 2 0 * .e 2 1 * .e 0 2 * .e 0 8 + .e 1 3 * .e 1 6 * .e 2 0 * .e 2 2 * .e 0 2 * .e 0 7 + .e 1 0 * .e 1 8 * .e 2 0 * .e 2 2 * .e 0 6 * .e 0 8 + .e 1 0 * .e 1 8 * .e 2 0 * .e 2 6 * .e 0 2 * .e 0 8 + .e 1 4 * .e 1 5 * .e 2 1 * .e 2 3 * .e 0 7 * .e 0 8 + .e 1 4 * .e 1 5 * .e 2 1 * .e 2 6 * .e 0 5 * .e 0 7 + .e 1 4 * .e 1 7 * .e 2 1 * .e 2 3 * .e 0 5 * .e 0 8 + .e 1 4 * .e 1 7 * .e 2 2 * .e 2 3 * .e 0 5 * .e 0 7 + .e 1 4 * .e 1 8 * .e 2 1 * .e 2 6 * .e 0 5 * .e 0 8 + .e 1 4 * .e 1 8 * .e 2 2 * .e 2 3 * .e 0 7 * .e 0 8 + .e 1 5 * .e 1 7 * .e 2 2 * .e 2 6 * .e 0 5 * .e 0 7 + .e 1 5 * .e 1 8 * .e 2 2 * .e 2 6 * .e 0 7 * .e 0 8 + .e 1 7 * .e 1 8 * .e 2 2 * .e 2 6 * .e 0 5 * .e 0 8⟩,
    ⟨8, 11, 0⟩,
    ⟨8, 12, .e 1 0 * .e 1 1 * .e 2 0 * .e 2 3 * .e 0 2 * .e 0 6 + .e 1 0 * .e 1 3 * .e 2 0 * .e 2 1 * .e 0 2 * .e 0 6 + .e 1 0 * .e 1 2 * .e 2 0 * .e 2 6 * .e 0 2 * .e 0 6 + .e 1 0 * .e 1 6 * .e 2 0 * .e 2 2 * .e 0 2 * .e 0 6 + .e 1 1 * .e 1 4 * .e 2 1 * .e 2 3 * .e 0 5 * .e 0 6 + .e 1 3 * .e 1 4 * .e 2 1 * .e 2 3 * .e 0 2 * .e 0 7 + .e 1 1 * .e 1 5 * .e 2 1 * .e 2 3 * .e 0 6 * .e 0 8 + .e 1 1 * .e 1 7 * .e 2 2 * .e 2 3 * .e 0 5 * .e 0 6 + .e 1 2 * .e 1 4 * .e 2 1 * .e 2 6 * .e 0 5 * .e 0 6 + .e 1 3 * .e 1 5 * .e 2 1 * .e 2 6 * .e 0 2 * .e 0 7 + .e 1 3 * .e 1 7 * .e 2 1 * .e 2 3 * .e 0 2 * .e 0 8 + .e 1 4 * .e 1 6 * .e 2 2 * .e 2 3 * .e 0 2 * .e 0 7 + .e 1 1 * .e 1 8 * .e 2 2 * .e 2 3 * .e 0 6 * .e 0 8 + .e 1 2 * .e 1 5 * .e 2 1 * .e 2 6 * .e 0 6 * .e 0 8 + .e 1 2 * .e 1 7 * .e 2 2 * .e 2 6 * .e 0 5 * .e 0 6 + .e 1 3 * .e 1 8 * .e 2 1 * .e 2 6 * .e 0 2 * .e 0 8 + .e 1 5 * .e 1 6 * .e 2 2 * .e 2 6 * .e 0 2 * .e 0 7 + .e 1 6 * .e 1 7 * .e 2 2 * .e 2 3 * .e 0 2 * .e 0 8 + .e 1 2 * .e 1 8 * .e 2 2 * .e 2 6 * .e 0 6 * .e 0 8 + .e 1 6 * .e 1 8 * .e 2 2 * .e 2 6 * .e 0 2 * .e 0 8⟩,
    ⟨8, 13, 0⟩,
    ⟨8, 14, .e 1 1 * .e 1 3 * .e 2 1 * .e 2 3 * .e 0 2 * .e 0 6 + .e 1 1 * .e 1 6 * .e 2 2 * .e 2 3 * .e 0 2 * .e 0 6 + .e 1 2 * .e 1 3 * .e 2 1 * .e 2 6 * .e 0 2 * .e 0 6 + .e 1 2 * .e 1 6 * .e 2 2 * .e 2 6 * .e 0 2 * .e 0 6⟩]

end FNFT

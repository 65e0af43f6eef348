import Verif.Model.AknsTypes
/-!
# Sample loops of `akns_fscatter`

Generated from /repo/src/private/fnft__akns_fscatter.c by tools/gen_fscatter.py: every statement
`pXY[k] = rhs;` of every loop body, in program order.
-/
namespace FNFT

/-- `case 2SPLIT2_MODAL` of `akns_fscatter`, fnft__akns_fscatter.c:113-134. `e 0 0`, `e 0 1`, `e 0 2` stand for the local variables `scl`, `Q`, `R`. -/
def tab2_MODAL : Tab where
  zero := false
  scales := []
  asg := [
    ⟨0, 0, 0⟩,
    ⟨0, 1, .e 0 0⟩,
    ⟨1, 0, .e 0 0 * .e 0 1⟩,
    ⟨1, 1, 0⟩,
    ⟨2, 0, 0⟩,
    ⟨2, 1, .e 0 0 * .e 0 2⟩,
    ⟨3, 0, .e 0 0⟩,
    ⟨3, 1, 0⟩]

/-- `case 2SPLIT1A` of `akns_fscatter`, fnft__akns_fscatter.c:143-161. -/
def tab1A : Tab where
  zero := false
  scales := [1]
  asg := [
    ⟨0, 0, 0⟩,
    ⟨0, 1, .e 0 0⟩,
    ⟨1, 0, 0⟩,
    ⟨1, 1, .e 0 1⟩,
    ⟨2, 0, .e 0 2⟩,
    ⟨2, 1, 0⟩,
    ⟨3, 0, .e 0 0⟩,
    ⟨3, 1, 0⟩]

/-- `case 2SPLIT1B, 2SPLIT2A` of `akns_fscatter`, fnft__akns_fscatter.c:171-188. -/
def tab2A : Tab where
  zero := false
  scales := [1]
  asg := [
    ⟨0, 0, 0⟩,
    ⟨0, 1, .e 0 0⟩,
    ⟨1, 0, .e 0 1⟩,
    ⟨1, 1, 0⟩,
    ⟨2, 0, 0⟩,
    ⟨2, 1, .e 0 2⟩,
    ⟨3, 0, .e 0 0⟩,
    ⟨3, 1, 0⟩]

/-- `case 2SPLIT2B` of `akns_fscatter`, fnft__akns_fscatter.c:197-213. -/
def tab2B : Tab where
  zero := false
  scales := [1 / 2]
  asg := [
    ⟨0, 0, .e 0 1 * .e 0 2⟩,
    ⟨0, 1, .e 0 0 * .e 0 0⟩,
    ⟨1, 0, .e 0 0 * .e 0 1⟩,
    ⟨1, 1, .p 1 0⟩,
    ⟨2, 0, .e 0 0 * .e 0 2⟩,
    ⟨2, 1, .p 2 0⟩,
    ⟨3, 0, .p 0 1⟩,
    ⟨3, 1, .p 0 0⟩]

/-- `case 2SPLIT2S` of `akns_fscatter`, fnft__akns_fscatter.c:223-239. -/
def tab2S : Tab where
  zero := false
  scales := [1]
  asg := [
    ⟨0, 0, 0⟩,
    ⟨0, 1, .e 0 0⟩,
    ⟨1, 0, .e 0 1 / 2⟩,
    ⟨1, 1, .e 0 1 / 2⟩,
    ⟨2, 0, .e 0 2 / 2⟩,
    ⟨2, 1, .e 0 2 / 2⟩,
    ⟨3, 0, .e 0 0⟩,
    ⟨3, 1, 0⟩]

/-- `case 2SPLIT3A` of `akns_fscatter`, fnft__akns_fscatter.c:249-277. -/
def tab3A : Tab where
  zero := false
  scales := [1, 2, 3]
  asg := [
    ⟨0, 0, 0⟩,
    ⟨0, 1, 9 * .e 0 2 * .e 1 1 / 8⟩,
    ⟨0, 2, 0⟩,
    ⟨0, 3, (9 * .e 0 0 * .e 1 0 - .e 2 0) / 8⟩,
    ⟨1, 0, 0⟩,
    ⟨1, 1, 9 * .e 0 0 * .e 1 1 / 8⟩,
    ⟨1, 2, 0⟩,
    ⟨1, 3, (9 * .e 0 1 * .e 1 0 - .e 2 1) / 8⟩,
    ⟨2, 0, (9 * .e 0 2 * .e 1 0 - .e 2 2) / 8⟩,
    ⟨2, 1, 0⟩,
    ⟨2, 2, 9 * .e 0 0 * .e 1 2 / 8⟩,
    ⟨2, 3, 0⟩,
    ⟨3, 0, .p 0 3⟩,
    ⟨3, 1, 0⟩,
    ⟨3, 2, 9 * .e 0 1 * .e 1 2 / 8⟩,
    ⟨3, 3, 0⟩]

/-- `case 2SPLIT3B` of `akns_fscatter`, fnft__akns_fscatter.c:287-315. -/
def tab3B : Tab where
  zero := false
  scales := [1, 2, 3]
  asg := [
    ⟨0, 0, 0⟩,
    ⟨0, 1, 9 * .e 0 1 * .e 1 2 / 8⟩,
    ⟨0, 2, 0⟩,
    ⟨0, 3, (9 * .e 0 0 * .e 1 0 - .e 2 0) / 8⟩,
    ⟨1, 0, (9 * .e 0 1 * .e 1 0 - .e 2 1) / 8⟩,
    ⟨1, 1, 0⟩,
    ⟨1, 2, 9 * .e 0 0 * .e 1 1 / 8⟩,
    ⟨1, 3, 0⟩,
    ⟨2, 0, 0⟩,
    ⟨2, 1, 9 * .e 0 0 * .e 1 2 / 8⟩,
    ⟨2, 2, 0⟩,
    ⟨2, 3, (9 * .e 0 2 * .e 1 0 - .e 2 2) / 8⟩,
    ⟨3, 0, .p 0 3⟩,
    ⟨3, 1, 0⟩,
    ⟨3, 2, 9 * .e 0 2 * .e 1 1 / 8⟩,
    ⟨3, 3, 0⟩]

/-- `case 2SPLIT3S` of `akns_fscatter`, fnft__akns_fscatter.c:324-346. -/
def tab3S : Tab where
  zero := false
  scales := [1, 2]
  asg := [
    ⟨0, 0, 2 * .e 0 1 * .e 0 2 / 3⟩,
    ⟨0, 1, 0⟩,
    ⟨0, 2, (2 * .e 0 0 * .e 0 0 + .e 1 0) / 3⟩,
    ⟨1, 0, (4 * .e 0 0 * .e 0 1 - .e 1 1) / 6⟩,
    ⟨1, 1, 2 * .e 1 1 / 3⟩,
    ⟨1, 2, .p 1 0⟩,
    ⟨2, 0, (4 * .e 0 0 * .e 0 2 - .e 1 2) / 6⟩,
    ⟨2, 1, 2 * .e 1 2 / 3⟩,
    ⟨2, 2, .p 2 0⟩,
    ⟨3, 0, .p 0 2⟩,
    ⟨3, 1, 0⟩,
    ⟨3, 2, .p 0 0⟩]

/-- `case 4SPLIT4A, 2SPLIT4A` of `akns_fscatter`, fnft__akns_fscatter.c:356-389. -/
def tab4A : Tab where
  zero := false
  scales := [2, 4]
  asg := [
    ⟨0, 0, 0⟩,
    ⟨0, 1, 0⟩,
    ⟨0, 2, 4 * .e 0 1 * .e 0 2 / 3⟩,
    ⟨0, 3, 0⟩,
    ⟨0, 4, (4 * .e 0 0 * .e 0 0 - .e 1 0) / 3⟩,
    ⟨1, 0, 0⟩,
    ⟨1, 1, 4 * .e 0 0 * .e 0 1 / 3⟩,
    ⟨1, 2, -.e 1 1 / 3⟩,
    ⟨1, 3, .p 1 1⟩,
    ⟨1, 4, 0⟩,
    ⟨2, 0, 0⟩,
    ⟨2, 1, 4 * .e 0 0 * .e 0 2 / 3⟩,
    ⟨2, 2, -.e 1 2 / 3⟩,
    ⟨2, 3, .p 2 1⟩,
    ⟨2, 4, 0⟩,
    ⟨3, 0, .p 0 4⟩,
    ⟨3, 1, 0⟩,
    ⟨3, 2, .p 0 2⟩,
    ⟨3, 3, 0⟩,
    ⟨3, 4, 0⟩]

/-- `case 4SPLIT4B, 2SPLIT4B` of `akns_fscatter`, fnft__akns_fscatter.c:399-424. -/
def tab4B : Tab where
  zero := false
  scales := [1 / 2, 1]
  asg := [
    ⟨0, 0, (4 * .e 1 0 * .e 0 1 * .e 0 2 - .e 1 1 * .e 1 2) / 3⟩,
    ⟨0, 1, 4 * (.e 1 1 * .e 0 0 * .e 0 2 + .e 1 2 * .e 0 0 * .e 0 1) / 3⟩,
    ⟨0, 2, (4 * .e 1 0 * .e 0 0 * .e 0 0 - .e 1 0 * .e 1 0) / 3⟩,
    ⟨1, 0, (4 * .e 1 0 * .e 0 0 * .e 0 1 - .e 1 0 * .e 1 1) / 3⟩,
    ⟨1, 1, 4 * (.e 1 1 * .e 0 0 * .e 0 0 + .e 1 2 * .e 0 1 * .e 0 1) / 3⟩,
    ⟨1, 2, .p 1 0⟩,
    ⟨2, 0, (4 * .e 1 0 * .e 0 0 * .e 0 2 - .e 1 0 * .e 1 2) / 3⟩,
    ⟨2, 1, 4 * (.e 1 2 * .e 0 0 * .e 0 0 + .e 1 1 * .e 0 2 * .e 0 2) / 3⟩,
    ⟨2, 2, .p 2 0⟩,
    ⟨3, 0, .p 0 2⟩,
    ⟨3, 1, .p 0 1⟩,
    ⟨3, 2, .p 0 0⟩]

/-- `case 2SPLIT5A` of `akns_fscatter`, fnft__akns_fscatter.c:434-477. -/
def tab5A : Tab where
  zero := true
  scales := [3, 5, 6, 10, 15]
  asg := [
    ⟨0, 3, 625 * .e 0 2 * .e 2 0 * .e 2 1 / 384⟩,
    ⟨0, 5, -81 * .e 1 2 * .e 3 1 / 128⟩,
    ⟨0, 9, 625 * (.e 0 0 * .e 2 1 * .e 2 2 + .e 0 2 * .e 2 0 * .e 2 1) / 384⟩,
    ⟨0, 15, 625 * .e 0 0 * .e 2 0 * .e 2 0 / 384 + .e 4 0 / 192 - 81 * .e 1 0 * .e 3 0 / 128⟩,
    ⟨1, 3, 625 * .e 0 0 * .e 2 0 * .e 2 1 / 384⟩,
    ⟨1, 5, -81 * .e 1 0 * .e 3 1 / 128⟩,
    ⟨1, 9, 625 * (.e 0 0 * .e 2 0 * .e 2 1 + .e 0 1 * .e 2 1 * .e 2 2) / 384⟩,
    ⟨1, 15, 625 * .e 0 1 * .e 2 0 * .e 2 0 / 384 + .e 4 1 / 192 - 81 * .e 1 1 * .e 3 0 / 128⟩,
    ⟨2, 0, 625 * .e 0 2 * .e 2 0 * .e 2 0 / 384 + .e 4 2 / 192 - 81 * .e 1 2 * .e 3 0 / 128⟩,
    ⟨2, 6, 625 * (.e 0 0 * .e 2 0 * .e 2 2 + .e 0 2 * .e 2 1 * .e 2 2) / 384⟩,
    ⟨2, 10, -81 * .e 1 0 * .e 3 2 / 128⟩,
    ⟨2, 12, 625 * .e 0 0 * .e 2 0 * .e 2 2 / 384⟩,
    ⟨3, 0, .p 0 15⟩,
    ⟨3, 6, 625 * (.e 0 0 * .e 2 1 * .e 2 2 + .e 0 1 * .e 2 0 * .e 2 2) / 384⟩,
    ⟨3, 10, -81 * .e 1 1 * .e 3 2 / 128⟩,
    ⟨3, 12, 625 * .e 0 1 * .e 2 0 * .e 2 2 / 384⟩]

/-- `case 2SPLIT5B` of `akns_fscatter`, fnft__akns_fscatter.c:487-530. -/
def tab5B : Tab where
  zero := true
  scales := [3, 5, 6, 10, 15]
  asg := [
    ⟨0, 3, 625 * .e 0 1 * .e 2 0 * .e 2 2 / 384⟩,
    ⟨0, 5, -81 * .e 1 1 * .e 3 2 / 128⟩,
    ⟨0, 9, 625 * (.e 0 0 * .e 2 1 * .e 2 2 + .e 0 1 * .e 2 0 * .e 2 2) / 384⟩,
    ⟨0, 15, 625 * .e 0 0 * .e 2 0 * .e 2 0 / 384 + .e 4 0 / 192 - 81 * .e 1 0 * .e 3 0 / 128⟩,
    ⟨1, 0, 625 * .e 0 1 * .e 2 0 * .e 2 0 / 384 + .e 4 1 / 192 - 81 * .e 1 1 * .e 3 0 / 128⟩,
    ⟨1, 6, 625 * (.e 0 0 * .e 2 0 * .e 2 1 + .e 0 1 * .e 2 1 * .e 2 2) / 384⟩,
    ⟨1, 10, -81 * .e 1 0 * .e 3 1 / 128⟩,
    ⟨1, 12, 625 * .e 0 0 * .e 2 0 * .e 2 1 / 384⟩,
    ⟨2, 3, 625 * .e 0 0 * .e 2 0 * .e 2 2 / 384⟩,
    ⟨2, 5, -81 * .e 1 0 * .e 3 2 / 128⟩,
    ⟨2, 9, 625 * (.e 0 0 * .e 2 0 * .e 2 2 + .e 0 2 * .e 2 1 * .e 2 2) / 384⟩,
    ⟨2, 15, 625 * .e 0 2 * .e 2 0 * .e 2 0 / 384 + .e 4 2 / 192 - 81 * .e 1 2 * .e 3 0 / 128⟩,
    ⟨3, 0, .p 0 15⟩,
    ⟨3, 6, 625 * (.e 0 0 * .e 2 1 * .e 2 2 + .e 0 2 * .e 2 0 * .e 2 1) / 384⟩,
    ⟨3, 10, -81 * .e 1 2 * .e 3 1 / 128⟩,
    ⟨3, 12, 625 * .e 0 2 * .e 2 0 * .e 2 1 / 384⟩]

/-- `case 2SPLIT6A` of `akns_fscatter`, fnft__akns_fscatter.c:540-580. -/
def tab6A : Tab where
  zero := true
  scales := [4, 6, 12]
  asg := [
    ⟨0, 4, 81 * .e 0 0 * .e 0 1 * .e 0 2 / 40⟩,
    ⟨0, 6, -16 * .e 1 1 * .e 1 2 / 15⟩,
    ⟨0, 8, 2 * .p 0 4⟩,
    ⟨0, 12, 81 * .e 0 0 * .e 0 0 * .e 0 0 / 40 + .e 2 0 / 24 - 16 * .e 1 0 * .e 1 0 / 15⟩,
    ⟨1, 2, 81 * .e 0 0 * .e 0 0 * .e 0 1 / 40⟩,
    ⟨1, 3, -16 * .e 1 0 * .e 1 1 / 15⟩,
    ⟨1, 6, .p 1 2 + 81 * .e 0 2 * .e 0 1 * .e 0 1 / 40 + .e 2 1 / 24⟩,
    ⟨1, 9, .p 1 3⟩,
    ⟨1, 10, .p 1 2⟩,
    ⟨2, 2, 81 * .e 0 0 * .e 0 0 * .e 0 2 / 40⟩,
    ⟨2, 3, -16 * .e 1 0 * .e 1 2 / 15⟩,
    ⟨2, 6, .p 2 2 + 81 * .e 0 1 * .e 0 2 * .e 0 2 / 40 + .e 2 2 / 24⟩,
    ⟨2, 9, .p 2 3⟩,
    ⟨2, 10, .p 2 2⟩,
    ⟨3, 0, .p 0 12⟩,
    ⟨3, 4, .p 0 8⟩,
    ⟨3, 6, .p 0 6⟩,
    ⟨3, 8, .p 0 4⟩]

/-- `case 2SPLIT6B` of `akns_fscatter`, fnft__akns_fscatter.c:590-635. -/
def tab6B : Tab where
  zero := true
  scales := [1, 3 / 2, 2, 3]
  asg := [
    ⟨0, 0, 81 * .e 0 1 * .e 0 2 * .e 2 0 * .e 2 0 / 40 + .e 3 1 * .e 3 2 / 24 - 16 * .e 3 0 * .e 1 1 * .e 1 2 / 15⟩,
    ⟨0, 2, 81 * (.e 0 0 * .e 0 1 * .e 2 0 * .e 2 2 + .e 0 0 * .e 0 2 * .e 2 0 * .e 2 1 + .e 0 1 * .e 0 2 * .e 2 1 * .e 2 2) / 40⟩,
    ⟨0, 3, -16 * (.e 3 1 * .e 1 0 * .e 1 2 + .e 3 2 * .e 1 0 * .e 1 1) / 15⟩,
    ⟨0, 4, 81 * (.e 0 0 * .e 0 0 * .e 2 1 * .e 2 2 + .e 0 0 * .e 0 1 * .e 2 0 * .e 2 2 + .e 0 0 * .e 0 2 * .e 2 0 * .e 2 1) / 40⟩,
    ⟨0, 6, 81 * .e 0 0 * .e 0 0 * .e 2 0 * .e 2 0 / 40 + .e 3 0 * .e 3 0 / 24 - 16 * .e 1 0 * .e 1 0 * .e 3 0 / 15⟩,
    ⟨1, 0, 81 * .e 0 0 * .e 0 1 * .e 2 0 * .e 2 0 / 40 + .e 3 0 * .e 3 1 / 24 - 16 * .e 3 0 * .e 1 0 * .e 1 1 / 15⟩,
    ⟨1, 2, 81 * (.e 2 0 * .e 2 1 * .e 0 0 * .e 0 0 + .e 2 1 * .e 2 2 * .e 0 0 * .e 0 1 + .e 2 0 * .e 2 2 * .e 0 1 * .e 0 1) / 40⟩,
    ⟨1, 3, -16 * (.e 3 1 * .e 1 0 * .e 1 0 + .e 3 2 * .e 1 1 * .e 1 1) / 15⟩,
    ⟨1, 4, .p 1 2⟩,
    ⟨1, 6, .p 1 0⟩,
    ⟨2, 0, 81 * .e 0 0 * .e 0 2 * .e 2 0 * .e 2 0 / 40 + .e 3 0 * .e 3 2 / 24 - 16 * .e 3 0 * .e 1 0 * .e 1 2 / 15⟩,
    ⟨2, 2, 81 * (.e 2 0 * .e 2 2 * .e 0 0 * .e 0 0 + .e 2 1 * .e 2 2 * .e 0 0 * .e 0 2 + .e 2 0 * .e 2 1 * .e 0 2 * .e 0 2) / 40⟩,
    ⟨2, 3, -16 * (.e 3 2 * .e 1 0 * .e 1 0 + .e 3 1 * .e 1 2 * .e 1 2) / 15⟩,
    ⟨2, 4, .p 2 2⟩,
    ⟨2, 6, .p 2 0⟩,
    ⟨3, 0, .p 0 6⟩,
    ⟨3, 2, .p 0 4⟩,
    ⟨3, 3, .p 0 3⟩,
    ⟨3, 4, .p 0 2⟩,
    ⟨3, 6, .p 0 0⟩]

/-- `case 2SPLIT7A` of `akns_fscatter`, fnft__akns_fscatter.c:645-704. -/
def tab7A : Tab where
  zero := true
  scales := [15, 21, 30, 35, 42, 70, 105]
  asg := [
    ⟨0, 15, 2874587633249303 * .e 0 2 * .e 2 0 * .e 2 0 * .e 2 1 / 1125899906842624⟩,
    ⟨0, 21, -15625 * .e 1 2 * .e 4 0 * .e 4 1 / 9216⟩,
    ⟨0, 35, 729 * .e 3 2 * .e 5 1 / 5120⟩,
    ⟨0, 45, 2874587633249303 * (.e 0 2 * .e 2 0 * .e 2 0 * .e 2 1 + .e 0 0 * .e 2 2 * .e 2 0 * .e 2 1 + .e 0 2 * .e 2 2 * .e 2 1 * .e 2 1) / 1125899906842624⟩,
    ⟨0, 63, -15625 * (.e 1 0 * .e 4 1 * .e 4 2 + .e 1 2 * .e 4 0 * .e 4 1) / 9216⟩,
    ⟨0, 75, 2874587633249303 * (.e 0 2 * .e 2 1 * .e 2 0 * .e 2 0 + 2 * .e 0 0 * .e 2 1 * .e 2 2 * .e 2 0) / 1125899906842624⟩,
    ⟨0, 105, 2874587633249303 * .e 0 0 * .e 2 0 * .e 2 0 * .e 2 0 / 1125899906842624 - .e 6 0 / 9216 + 729 * .e 3 0 * .e 5 0 / 5120 - 15625 * .e 1 0 * .e 4 0 * .e 4 0 / 9216⟩,
    ⟨1, 15, 2874587633249303 * .e 0 0 * .e 2 0 * .e 2 0 * .e 2 1 / 1125899906842624⟩,
    ⟨1, 21, -15625 * .e 1 0 * .e 4 0 * .e 4 1 / 9216⟩,
    ⟨1, 35, 729 * .e 3 0 * .e 5 1 / 5120⟩,
    ⟨1, 45, 2874587633249303 * (.e 0 0 * .e 2 0 * .e 2 0 * .e 2 1 + .e 0 1 * .e 2 2 * .e 2 0 * .e 2 1 + .e 0 0 * .e 2 2 * .e 2 1 * .e 2 1) / 1125899906842624⟩,
    ⟨1, 63, -15625 * (.e 1 0 * .e 4 0 * .e 4 1 + .e 1 1 * .e 4 1 * .e 4 2) / 9216⟩,
    ⟨1, 75, 2874587633249303 * (.e 0 0 * .e 2 1 * .e 2 0 * .e 2 0 + 2 * .e 0 1 * .e 2 1 * .e 2 2 * .e 2 0) / 1125899906842624⟩,
    ⟨1, 105, 2874587633249303 * .e 0 1 * .e 2 0 * .e 2 0 * .e 2 0 / 1125899906842624 - .e 6 1 / 9216 + 729 * .e 3 1 * .e 5 0 / 5120 - 15625 * .e 1 1 * .e 4 0 * .e 4 0 / 9216⟩,
    ⟨2, 0, 2874587633249303 * .e 0 2 * .e 2 0 * .e 2 0 * .e 2 0 / 1125899906842624 - .e 6 2 / 9216 + 729 * .e 3 2 * .e 5 0 / 5120 - 15625 * .e 1 2 * .e 4 0 * .e 4 0 / 9216⟩,
    ⟨2, 30, 2874587633249303 * (.e 0 0 * .e 2 2 * .e 2 0 * .e 2 0 + 2 * .e 0 2 * .e 2 1 * .e 2 2 * .e 2 0) / 1125899906842624⟩,
    ⟨2, 42, -15625 * (.e 1 0 * .e 4 0 * .e 4 2 + .e 1 2 * .e 4 1 * .e 4 2) / 9216⟩,
    ⟨2, 60, 2874587633249303 * (.e 0 0 * .e 2 0 * .e 2 0 * .e 2 2 + .e 0 2 * .e 2 1 * .e 2 0 * .e 2 2 + .e 0 0 * .e 2 1 * .e 2 2 * .e 2 2) / 1125899906842624⟩,
    ⟨2, 70, 729 * .e 3 0 * .e 5 2 / 5120⟩,
    ⟨2, 84, -15625 * .e 1 0 * .e 4 0 * .e 4 2 / 9216⟩,
    ⟨2, 90, 2874587633249303 * .e 0 0 * .e 2 0 * .e 2 0 * .e 2 2 / 1125899906842624⟩,
    ⟨3, 0, .p 0 105⟩,
    ⟨3, 30, 2874587633249303 * (.e 0 1 * .e 2 2 * .e 2 0 * .e 2 0 + 2 * .e 0 0 * .e 2 1 * .e 2 2 * .e 2 0) / 1125899906842624⟩,
    ⟨3, 42, -15625 * (.e 1 0 * .e 4 1 * .e 4 2 + .e 1 1 * .e 4 0 * .e 4 2) / 9216⟩,
    ⟨3, 60, 2874587633249303 * (.e 0 1 * .e 2 0 * .e 2 0 * .e 2 2 + .e 0 0 * .e 2 1 * .e 2 0 * .e 2 2 + .e 0 1 * .e 2 1 * .e 2 2 * .e 2 2) / 1125899906842624⟩,
    ⟨3, 70, 729 * .e 3 1 * .e 5 2 / 5120⟩,
    ⟨3, 84, -15625 * .e 1 1 * .e 4 0 * .e 4 2 / 9216⟩,
    ⟨3, 90, 2874587633249303 * .e 0 1 * .e 2 0 * .e 2 0 * .e 2 2 / 1125899906842624⟩]

/-- `case 2SPLIT7B` of `akns_fscatter`, fnft__akns_fscatter.c:714-773. -/
def tab7B : Tab where
  zero := true
  scales := [15, 21, 30, 35, 42, 70, 105]
  asg := [
    ⟨0, 15, 2874587633249303 * .e 0 1 * .e 2 0 * .e 2 0 * .e 2 2 / 1125899906842624⟩,
    ⟨0, 21, -15625 * .e 1 1 * .e 4 0 * .e 4 2 / 9216⟩,
    ⟨0, 35, 729 * .e 3 1 * .e 5 2 / 5120⟩,
    ⟨0, 45, 2874587633249303 * (.e 0 1 * .e 2 0 * .e 2 0 * .e 2 2 + .e 0 0 * .e 2 1 * .e 2 0 * .e 2 2 + .e 0 1 * .e 2 1 * .e 2 2 * .e 2 2) / 1125899906842624⟩,
    ⟨0, 63, -15625 * (.e 1 0 * .e 4 1 * .e 4 2 + .e 1 1 * .e 4 0 * .e 4 2) / 9216⟩,
    ⟨0, 75, 2874587633249303 * (.e 0 1 * .e 2 2 * .e 2 0 * .e 2 0 + 2 * .e 0 0 * .e 2 1 * .e 2 2 * .e 2 0) / 1125899906842624⟩,
    ⟨0, 105, 2874587633249303 * .e 0 0 * .e 2 0 * .e 2 0 * .e 2 0 / 1125899906842624 - .e 6 0 / 9216 + 729 * .e 3 0 * .e 5 0 / 5120 - 15625 * .e 1 0 * .e 4 0 * .e 4 0 / 9216⟩,
    ⟨1, 0, 2874587633249303 * .e 0 1 * .e 2 0 * .e 2 0 * .e 2 0 / 1125899906842624 - .e 6 1 / 9216 + 729 * .e 3 1 * .e 5 0 / 5120 - 15625 * .e 1 1 * .e 4 0 * .e 4 0 / 9216⟩,
    ⟨1, 30, 2874587633249303 * (.e 0 0 * .e 2 1 * .e 2 0 * .e 2 0 + 2 * .e 0 1 * .e 2 1 * .e 2 2 * .e 2 0) / 1125899906842624⟩,
    ⟨1, 42, -15625 * (.e 1 0 * .e 4 0 * .e 4 1 + .e 1 1 * .e 4 1 * .e 4 2) / 9216⟩,
    ⟨1, 60, 2874587633249303 * (.e 0 0 * .e 2 0 * .e 2 0 * .e 2 1 + .e 0 1 * .e 2 2 * .e 2 0 * .e 2 1 + .e 0 0 * .e 2 2 * .e 2 1 * .e 2 1) / 1125899906842624⟩,
    ⟨1, 70, 729 * .e 3 0 * .e 5 1 / 5120⟩,
    ⟨1, 84, -15625 * .e 1 0 * .e 4 0 * .e 4 1 / 9216⟩,
    ⟨1, 90, 2874587633249303 * .e 0 0 * .e 2 0 * .e 2 0 * .e 2 1 / 1125899906842624⟩,
    ⟨2, 15, 2874587633249303 * .e 0 0 * .e 2 0 * .e 2 0 * .e 2 2 / 1125899906842624⟩,
    ⟨2, 21, -15625 * .e 1 0 * .e 4 0 * .e 4 2 / 9216⟩,
    ⟨2, 35, 729 * .e 3 0 * .e 5 2 / 5120⟩,
    ⟨2, 45, 2874587633249303 * (.e 0 0 * .e 2 0 * .e 2 0 * .e 2 2 + .e 0 2 * .e 2 1 * .e 2 0 * .e 2 2 + .e 0 0 * .e 2 1 * .e 2 2 * .e 2 2) / 1125899906842624⟩,
    ⟨2, 63, -15625 * (.e 1 0 * .e 4 0 * .e 4 2 + .e 1 2 * .e 4 1 * .e 4 2) / 9216⟩,
    ⟨2, 75, 2874587633249303 * (.e 0 0 * .e 2 2 * .e 2 0 * .e 2 0 + 2 * .e 0 2 * .e 2 1 * .e 2 2 * .e 2 0) / 1125899906842624⟩,
    ⟨2, 105, 2874587633249303 * .e 0 2 * .e 2 0 * .e 2 0 * .e 2 0 / 1125899906842624 - .e 6 2 / 9216 + 729 * .e 3 2 * .e 5 0 / 5120 - 15625 * .e 1 2 * .e 4 0 * .e 4 0 / 9216⟩,
    ⟨3, 0, 2874587633249303 * .e 0 0 * .e 2 0 * .e 2 0 * .e 2 0 / 1125899906842624 - .e 6 0 / 9216 + 729 * .e 3 0 * .e 5 0 / 5120 - 15625 * .e 1 0 * .e 4 0 * .e 4 0 / 9216⟩,
    ⟨3, 30, 2874587633249303 * (.e 0 2 * .e 2 1 * .e 2 0 * .e 2 0 + 2 * .e 0 0 * .e 2 1 * .e 2 2 * .e 2 0) / 1125899906842624⟩,
    ⟨3, 42, -15625 * (.e 1 0 * .e 4 1 * .e 4 2 + .e 1 2 * .e 4 0 * .e 4 1) / 9216⟩,
    ⟨3, 60, 2874587633249303 * (.e 0 2 * .e 2 0 * .e 2 0 * .e 2 1 + .e 0 0 * .e 2 2 * .e 2 0 * .e 2 1 + .e 0 2 * .e 2 2 * .e 2 1 * .e 2 1) / 1125899906842624⟩,
    ⟨3, 70, 729 * .e 3 2 * .e 5 1 / 5120⟩,
    ⟨3, 84, -15625 * .e 1 2 * .e 4 0 * .e 4 1 / 9216⟩,
    ⟨3, 90, 2874587633249303 * .e 0 2 * .e 2 0 * .e 2 0 * .e 2 1 / 1125899906842624⟩]

/-- `case 2SPLIT8A` of `akns_fscatter`, fnft__akns_fscatter.c:783-838. -/
def tab8A : Tab where
  zero := true
  scales := [6, 8, 12, 24]
  asg := [
    ⟨0, 6, 1024 * .e 0 0 * .e 0 0 * .e 0 1 * .e 0 2 / 315⟩,
    ⟨0, 8, -729 * .e 1 0 * .e 1 1 * .e 1 2 / 280⟩,
    ⟨0, 12, 2 * .p 0 6 + 1024 * .e 0 1 * .e 0 1 * .e 0 2 * .e 0 2 / 315 + 16 * .e 2 1 * .e 2 2 / 45⟩,
    ⟨0, 16, 2 * .p 0 8⟩,
    ⟨0, 18, 3 * .p 0 6⟩,
    ⟨0, 24, 1024 * .e 0 0 * .e 0 0 * .e 0 0 * .e 0 0 / 315 + 16 * .e 2 0 * .e 2 0 / 45 - .e 3 0 / 360 - 729 * .e 1 0 * .e 1 0 * .e 1 0 / 280⟩,
    ⟨1, 3, 1024 * .e 0 0 * .e 0 0 * .e 0 0 * .e 0 1 / 315⟩,
    ⟨1, 4, -729 * .e 1 0 * .e 1 0 * .e 1 1 / 280⟩,
    ⟨1, 6, 16 * .e 2 0 * .e 2 1 / 45⟩,
    ⟨1, 9, 1024 * .e 0 0 * .e 0 0 * .e 0 0 * .e 0 1 / 315 + 2048 * .e 0 2 * .e 0 0 * .e 0 1 * .e 0 1 / 315⟩,
    ⟨1, 12, - .e 3 1 / 360 + .p 1 4 - 729 * .e 1 1 * .e 1 1 * .e 1 2 / 280⟩,
    ⟨1, 15, .p 1 9⟩,
    ⟨1, 18, .p 1 6⟩,
    ⟨1, 20, .p 1 4⟩,
    ⟨1, 21, .p 1 3⟩,
    ⟨2, 3, 1024 * .e 0 0 * .e 0 0 * .e 0 0 * .e 0 2 / 315⟩,
    ⟨2, 4, -729 * .e 1 0 * .e 1 0 * .e 1 2 / 280⟩,
    ⟨2, 6, 16 * .e 2 0 * .e 2 2 / 45⟩,
    ⟨2, 9, 1024 * .e 0 0 * .e 0 0 * .e 0 0 * .e 0 2 / 315 + 2048 * .e 0 1 * .e 0 0 * .e 0 2 * .e 0 2 / 315⟩,
    ⟨2, 12, - .e 3 2 / 360 + .p 2 4 - 729 * .e 1 1 * .e 1 2 * .e 1 2 / 280⟩,
    ⟨2, 15, .p 2 9⟩,
    ⟨2, 18, .p 2 6⟩,
    ⟨2, 20, .p 2 4⟩,
    ⟨2, 21, .p 2 3⟩,
    ⟨3, 0, .p 0 24⟩,
    ⟨3, 6, .p 0 18⟩,
    ⟨3, 8, .p 0 16⟩,
    ⟨3, 12, .p 0 12⟩,
    ⟨3, 16, .p 0 8⟩,
    ⟨3, 18, .p 0 6⟩]

/-- `case 2SPLIT8B` of `akns_fscatter`, fnft__akns_fscatter.c:848-903. -/
def tab8B : Tab where
  zero := true
  scales := [3 / 2, 2, 3, 4, 6]
  asg := [
    ⟨0, 0, 1024 * .e 0 1 * .e 0 2 * .e 2 0 * .e 2 0 * .e 2 0 / 315 - .e 4 1 * .e 4 2 / 360 + 16 * .e 2 1 * .e 2 2 * .e 4 0 / 45 - 729 * .e 1 1 * .e 1 2 * .e 3 0 * .e 3 0 / 280⟩,
    ⟨0, 3, 1024 * (.e 2 0 * .e 2 0 * .e 2 1 * .e 0 0 * .e 0 2 + .e 2 0 * .e 2 0 * .e 2 2 * .e 0 0 * .e 0 1 + 2 * .e 2 0 * .e 2 1 * .e 2 2 * .e 0 1 * .e 0 2) / 315⟩,
    ⟨0, 4, -729 * (.e 1 0 * .e 1 1 * .e 3 0 * .e 3 2 + .e 1 0 * .e 1 2 * .e 3 0 * .e 3 1 + .e 1 1 * .e 1 2 * .e 3 1 * .e 3 2) / 280⟩,
    ⟨0, 6, 1024 * (.e 0 2 * .e 2 0 * .e 2 0 * .e 2 1 * .e 0 0 + .e 0 1 * .e 2 0 * .e 2 0 * .e 2 2 * .e 0 0 + .e 2 0 * .e 2 1 * .e 2 2 * .e 0 0 * .e 0 0 + .e 0 1 * .e 0 2 * .e 2 0 * .e 2 1 * .e 2 2 + .e 0 2 * .e 2 1 * .e 2 1 * .e 2 2 * .e 0 0 + .e 0 1 * .e 2 1 * .e 2 2 * .e 2 2 * .e 0 0) / 315 + 16 * (.e 4 2 * .e 2 0 * .e 2 1 + .e 4 1 * .e 2 0 * .e 2 2) / 45⟩,
    ⟨0, 8, -729 * (.e 1 0 * .e 1 0 * .e 3 1 * .e 3 2 + .e 1 0 * .e 1 1 * .e 3 0 * .e 3 2 + .e 1 0 * .e 1 2 * .e 3 0 * .e 3 1) / 280⟩,
    ⟨0, 9, 1024 * (2 * .e 2 0 * .e 2 1 * .e 2 2 * .e 0 0 * .e 0 0 + .e 2 0 * .e 2 0 * .e 2 1 * .e 0 0 * .e 0 2 + .e 2 0 * .e 2 0 * .e 2 2 * .e 0 0 * .e 0 1) / 315⟩,
    ⟨0, 12, 1024 * .e 2 0 * .e 2 0 * .e 2 0 * .e 0 0 * .e 0 0 / 315 + 16 * .e 2 0 * .e 2 0 * .e 4 0 / 45 - .e 4 0 * .e 4 0 / 360 - 729 * .e 1 0 * .e 1 0 * .e 3 0 * .e 3 0 / 280⟩,
    ⟨1, 0, 1024 * .e 0 0 * .e 0 1 * .e 2 0 * .e 2 0 * .e 2 0 / 315 + 16 * .e 2 1 * .e 4 0 * .e 2 0 / 45 - .e 4 0 * .e 4 1 / 360 - 729 * .e 1 0 * .e 1 1 * .e 3 0 * .e 3 0 / 280⟩,
    ⟨1, 3, 1024 * (.e 2 1 * .e 2 0 * .e 2 0 * .e 0 0 * .e 0 0 + .e 2 2 * .e 2 0 * .e 2 0 * .e 0 1 * .e 0 1 + 2 * .e 2 1 * .e 2 2 * .e 2 0 * .e 0 0 * .e 0 1) / 315⟩,
    ⟨1, 4, -729 * (.e 1 0 * .e 1 0 * .e 3 0 * .e 3 1 + .e 1 1 * .e 1 1 * .e 3 0 * .e 3 2 + .e 1 0 * .e 1 1 * .e 3 1 * .e 3 2) / 280⟩,
    ⟨1, 6, 1024 * (.e 2 0 * .e 2 0 * .e 2 1 * .e 0 0 * .e 0 0 + .e 2 0 * .e 2 0 * .e 2 2 * .e 0 1 * .e 0 1 + 2 * .e 2 0 * .e 2 1 * .e 2 2 * .e 0 0 * .e 0 1 + .e 2 1 * .e 2 1 * .e 2 2 * .e 0 0 * .e 0 0 + .e 2 1 * .e 2 2 * .e 2 2 * .e 0 1 * .e 0 1) / 315 + 16 * (.e 4 1 * .e 2 0 * .e 2 0 + .e 4 2 * .e 2 1 * .e 2 1) / 45⟩,
    ⟨1, 8, .p 1 4⟩,
    ⟨1, 9, .p 1 3⟩,
    ⟨1, 12, .p 1 0⟩,
    ⟨2, 0, 1024 * .e 0 0 * .e 0 2 * .e 2 0 * .e 2 0 * .e 2 0 / 315 + 16 * .e 2 2 * .e 4 0 * .e 2 0 / 45 - .e 4 0 * .e 4 2 / 360 - 729 * .e 1 0 * .e 1 2 * .e 3 0 * .e 3 0 / 280⟩,
    ⟨2, 3, 1024 * (.e 2 2 * .e 2 0 * .e 2 0 * .e 0 0 * .e 0 0 + .e 2 1 * .e 2 0 * .e 2 0 * .e 0 2 * .e 0 2 + 2 * .e 2 1 * .e 2 2 * .e 2 0 * .e 0 0 * .e 0 2) / 315⟩,
    ⟨2, 4, -729 * (.e 1 0 * .e 1 0 * .e 3 0 * .e 3 2 + .e 1 2 * .e 1 2 * .e 3 0 * .e 3 1 + .e 1 0 * .e 1 2 * .e 3 1 * .e 3 2) / 280⟩,
    ⟨2, 6, 1024 * (.e 2 0 * .e 2 0 * .e 2 1 * .e 0 2 * .e 0 2 + .e 2 0 * .e 2 0 * .e 2 2 * .e 0 0 * .e 0 0 + 2 * .e 2 0 * .e 2 1 * .e 2 2 * .e 0 0 * .e 0 2 + .e 2 1 * .e 2 1 * .e 2 2 * .e 0 2 * .e 0 2 + .e 2 1 * .e 2 2 * .e 2 2 * .e 0 0 * .e 0 0) / 315 + 16 * (.e 4 2 * .e 2 0 * .e 2 0 + .e 4 1 * .e 2 2 * .e 2 2) / 45⟩,
    ⟨2, 8, .p 2 4⟩,
    ⟨2, 9, .p 2 3⟩,
    ⟨2, 12, .p 2 0⟩,
    ⟨3, 0, .p 0 12⟩,
    ⟨3, 3, .p 0 9⟩,
    ⟨3, 4, .p 0 8⟩,
    ⟨3, 6, .p 0 6⟩,
    ⟨3, 8, .p 0 4⟩,
    ⟨3, 9, .p 0 3⟩,
    ⟨3, 12, .p 0 0⟩]

end FNFT

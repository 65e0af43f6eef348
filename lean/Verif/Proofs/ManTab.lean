import Verif.Proofs.ManRefl
/-!
# The loop bodies of `manakov_fscatter` compute the splitting schemes
-/
namespace FNFT
open Refl

variable (e : ℕ → ℕ → ℂ) (z : ℂ)

theorem manTab3A_ok : ((8 : ℕ) : ℂ) • tabMat3 manTab3A 6 e z =
    combM z e [(9, [.A 2, .B 0, .B 0, .A 4, .B 0]), (-1, [.A 6, .B 1])] :=
  chk_sound z 8 6 manTab3A _ (by decide +kernel) e

theorem manTab3B_ok : ((8 : ℕ) : ℂ) • tabMat3 manTab3B 6 e z =
    combM z e [(9, [.B 0, .A 4, .B 1, .A 2]), (-1, [.B 2, .A 6])] :=
  chk_sound z 8 6 manTab3B _ (by decide +kernel) e

theorem manTab4A_ok : ((3 : ℕ) : ℂ) • tabMat3 manTab4A 8 e z =
    combM z e [(4, [.A 2, .B 0, .A 4, .B 0, .A 2]), (-1, [.A 4, .B 1, .A 4])] :=
  chk_sound z 3 8 manTab4A _ (by decide +kernel) e

theorem manTab4B_ok : ((3 : ℕ) : ℂ) • tabMat3 manTab4B 4 e z =
    combM z e [(4, [.B 1, .A 2, .B 0, .A 2, .B 1]), (-1, [.B 0, .A 4, .B 0])] :=
  chk_sound z 3 4 manTab4B _ (by decide +kernel) e

theorem manTab6B_ok : ((120 : ℕ) : ℂ) • tabMat3 manTab6B 12 e z =
    combM z e [(243, [.B 3, .A 4, .B 1, .A 4, .B 1, .A 4, .B 3]), (-128, [.B 2, .A 6, .B 0, .A 6, .B 2]),
      (5, [.B 0, .A 12, .B 0])] :=
  chk_sound z 120 12 manTab6B _ (by decide +kernel) e

theorem manTabFTES4_4A_ok : ((3 : ℕ) : ℂ) • tabMat3 manTabFTES4_4A 8 e z =
    combM z e [(4, [.B 2, .A 2, .B 0, .A 4, .B 0, .A 2, .B 3]), (-1, [.B 2, .A 4, .B 1, .A 4, .B 3])] :=
  chk_sound z 3 8 manTabFTES4_4A _ (by decide +kernel) e

theorem manTabFTES4_suzuki_ok : ((1 : ℕ) : ℂ) • tabMat3 manTabFTES4_suzuki 14 e z =
    combM z e [(1, [.B 0, .A 2, .B 1, .An 2, .B 2, .A 6, .B 2, .An 2, .B 1, .A 2, .B 0])] :=
  chk_sound z 1 14 manTabFTES4_suzuki _ (by decide +kernel) e

end FNFT

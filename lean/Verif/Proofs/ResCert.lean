import Verif.Proofs.Res
import Lean.ToExpr
import Lean.Elab.Term

/-!
# Certificates for the checker

`resCert r ex` is the certificate `cert r ex`, computed when the file is elaborated and inserted as
a literal.  Nothing depends on how it was computed: the kernel evaluates `check` on it.
-/

namespace FNFT.Res

open Lean Elab

deriving instance ToExpr for Sta
deriving instance ToExpr for Code
deriving instance ToExpr for AS
deriving instance ToExpr for Ent

def routineNames : List (Name × Routine) :=
  [(`polyChirpz, polyChirpz),
   (`polyFmult, polyFmult),
   (`polyFmultOne, polyFmultOne),
   (`polyFmultMat, polyFmultMat),
   (`polySpecfact, polySpecfact),
   (`miscDownsample, miscDownsample),
   (`miscResample, miscResample),
   (`aknsFscatter, aknsFscatter),
   (`manFscatter, manFscatter),
   (`fftGridsearch, fftGridsearch),
   (`methodWeights, methodWeights),
   (`aknsPreprocess, aknsPreprocess),
   (`manPreprocess, manPreprocess),
   (`aknsScatterMatrix, aknsScatterMatrix),
   (`aknsScatterBoundStates, aknsScatterBoundStates),
   (`finvscatter, finvscatter),
   (`nsevBase, nsevBase),
   (`manakovvBase, manakovvBase),
   (`nsevBoundstates, nsevBoundstates),
   (`nsevContspec, nsevContspec),
   (`kdvvContspec, kdvvContspec),
   (`manakovvContspec, manakovvContspec),
   (`normconsts, normconsts),
   (`kdvvBoundstates, kdvvBoundstates),
   (`fnftNsev, fnftNsev),
   (`fnftKdvv, fnftKdvv),
   (`fnftManakovv, fnftManakovv),
   (`fnftNsep, fnftNsep),
   (`nsepGridsearch, nsepGridsearch),
   (`nsepSubsample, nsepSubsample),
   (`nsepNewton, nsepNewton),
   (`fnftNsevInverse, fnftNsevInverse),
   (`invTfMatrix, invTfMatrix),
   (`invTfMatrixIter, invTfMatrixIter),
   (`invAddDiscrete, invAddDiscrete)]

def exNames : List (Name × (Instr → Bool)) :=
  [(`exNone, exNone), (`exMan, exMan), (`exWpsi, exWpsi), (`exSub, exSub), (`exIgnore, exIgnore)]

elab "resCert " r:ident e:ident : term => do
  match routineNames.lookup r.getId, exNames.lookup e.getId with
  | some r, some e => return toExpr (cert r e)
  | _, _ => throwError "unknown routine"

end FNFT.Res

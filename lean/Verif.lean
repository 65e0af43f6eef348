import Verif.Core
import Verif.Model.AknsBound
import Verif.Model.AknsDisc
import Verif.Model.AknsFscatter
import Verif.Model.AknsPre
import Verif.Model.AknsScatter
import Verif.Model.AknsTab
import Verif.Model.AknsTypes
import Verif.Model.Dbl
import Verif.Model.ErrWarn
import Verif.Model.Finv
import Verif.Model.GridSearch
import Verif.Model.KdvDisc
import Verif.Model.KdvFinv
import Verif.Model.Kdvv
import Verif.Model.KissFFT
import Verif.Model.ManDisc
import Verif.Model.ManFscatter
import Verif.Model.ManScatter
import Verif.Model.ManTab
import Verif.Model.Manakovv
import Verif.Model.Mex
import Verif.Model.MexXi
import Verif.Model.Misc
import Verif.Model.MiscNum
import Verif.Model.NseDisc
import Verif.Model.NseScatter
import Verif.Model.Nsep
import Verif.Model.Nsev
import Verif.Model.NsevCont
import Verif.Model.NsevInv
import Verif.Model.PolyChirpz
import Verif.Model.PolyEval
import Verif.Model.PolyFmult
import Verif.Model.Res
import Verif.Model.Resample
import Verif.Model.Specfact
import Verif.Spec.Akns
import Verif.Spec.AknsBound
import Verif.Spec.AknsSlow
import Verif.Spec.Cells
import Verif.Spec.Converge
import Verif.Spec.Finv
import Verif.Spec.Floquet
import Verif.Spec.Kdv
import Verif.Spec.KdvBound
import Verif.Spec.KdvConverge
import Verif.Spec.ManCells
import Verif.Spec.ManConverge
import Verif.Spec.Manakov
import Verif.Spec.Manakovv
import Verif.Spec.Mex
import Verif.Spec.NseCont
import Verif.Spec.Nsep
import Verif.Spec.NsepSub
import Verif.Spec.Nsev
import Verif.Spec.NsevBound
import Verif.Spec.Poly
import Verif.Spec.Res
import Verif.Spec.Specfact
import Verif.Spec.ZS
import Verif.Proofs.AknsBound
import Verif.Proofs.AknsBoundTop
import Verif.Proofs.AknsExec
import Verif.Proofs.AknsFscatter
import Verif.Proofs.AknsPre
import Verif.Proofs.AknsScatTop
import Verif.Proofs.AknsScatter
import Verif.Proofs.AknsTab
import Verif.Proofs.CellSol
import Verif.Proofs.ConvAbs
import Verif.Proofs.ConvAux
import Verif.Proofs.ConvFloquet
import Verif.Proofs.ConvGlobal
import Verif.Proofs.ConvKdv
import Verif.Proofs.ConvMan
import Verif.Proofs.ConvNse
import Verif.Proofs.ConvPert
import Verif.Proofs.ConvSplit
import Verif.Proofs.ConvZS
import Verif.Proofs.Darboux
import Verif.Proofs.DarbouxFold
import Verif.Proofs.DarbouxJost
import Verif.Proofs.ExpDeriv
import Verif.Proofs.ExpOde
import Verif.Proofs.ExpS
import Verif.Proofs.ExpTo
import Verif.Proofs.Finv
import Verif.Proofs.FinvDescend
import Verif.Proofs.FinvLevel
import Verif.Proofs.FinvLink
import Verif.Proofs.FinvRun
import Verif.Proofs.FinvTop
import Verif.Proofs.InvB
import Verif.Proofs.InvDarboux
import Verif.Proofs.InvEigen
import Verif.Proofs.InvIter
import Verif.Proofs.InvLayers
import Verif.Proofs.InvMixed
import Verif.Proofs.InvRefl
import Verif.Proofs.InvResidue
import Verif.Proofs.InvSeed
import Verif.Proofs.InvSol
import Verif.Proofs.InvSolAlg
import Verif.Proofs.InvSoliton
import Verif.Proofs.InvSort
import Verif.Proofs.InvTop
import Verif.Proofs.KdvBase
import Verif.Proofs.KdvCont
import Verif.Proofs.KdvDeriv
import Verif.Proofs.KdvEval
import Verif.Proofs.KdvFast
import Verif.Proofs.KdvFinv
import Verif.Proofs.KdvGrid
import Verif.Proofs.KdvLocal
import Verif.Proofs.KdvNewton
import Verif.Proofs.KdvNormc
import Verif.Proofs.KdvRich
import Verif.Proofs.KissFFT
import Verif.Proofs.KissFactor
import Verif.Proofs.KissTop
import Verif.Proofs.ManBase
import Verif.Proofs.ManBound
import Verif.Proofs.ManCellSol
import Verif.Proofs.ManCont
import Verif.Proofs.ManExp
import Verif.Proofs.ManFscatter
import Verif.Proofs.ManPre
import Verif.Proofs.ManRefl
import Verif.Proofs.ManScatter
import Verif.Proofs.ManTab
import Verif.Proofs.MatExp
import Verif.Proofs.Mex
import Verif.Proofs.MexKdvv
import Verif.Proofs.MexNsev
import Verif.Proofs.Misc
import Verif.Proofs.MiscNum
import Verif.Proofs.NsepBase
import Verif.Proofs.NsepGrid
import Verif.Proofs.NsepGrid2
import Verif.Proofs.NsepGrid3
import Verif.Proofs.NsepMix
import Verif.Proofs.NsepNewton
import Verif.Proofs.NsepNewton2
import Verif.Proofs.NsepNewton3
import Verif.Proofs.NsepNewton4
import Verif.Proofs.NsepPoly
import Verif.Proofs.NsepSub
import Verif.Proofs.NsepSub2
import Verif.Proofs.NsepSub3
import Verif.Proofs.NsepSub4
import Verif.Proofs.NsepTop
import Verif.Proofs.NsevBase
import Verif.Proofs.NsevBox
import Verif.Proofs.NsevCont
import Verif.Proofs.NsevDisc
import Verif.Proofs.NsevEval
import Verif.Proofs.NsevFast
import Verif.Proofs.NsevLoc
import Verif.Proofs.NsevMixed
import Verif.Proofs.NsevNewton
import Verif.Proofs.NsevNormc
import Verif.Proofs.NsevPre
import Verif.Proofs.NsevRich
import Verif.Proofs.NsevRichDisc
import Verif.Proofs.NsevSelect
import Verif.Proofs.PolyEval
import Verif.Proofs.PolyFmult
import Verif.Proofs.PolyFmultM
import Verif.Proofs.PolyFmultTop
import Verif.Proofs.PolyRescale
import Verif.Proofs.PolyRev
import Verif.Proofs.PolySched
import Verif.Proofs.PolyTwo
import Verif.Proofs.Res
import Verif.Proofs.ResCert
import Verif.Proofs.Resample
import Verif.Proofs.Roots
import Verif.Proofs.ScatUnique
import Verif.Proofs.SeedCells
import Verif.Proofs.SeedFlow
import Verif.Proofs.SeedGrid
import Verif.Proofs.SeedJost
import Verif.Proofs.Selected
import Verif.Proofs.Sinc
import Verif.Proofs.SincDeriv
import Verif.Proofs.Specfact
import Verif.Proofs.SpecfactId
import Verif.Props.AknsBound
import Verif.Props.AknsDeriv
import Verif.Props.AknsDisc
import Verif.Props.AknsFscatter
import Verif.Props.AknsPre
import Verif.Props.AknsScatter
import Verif.Props.ErrWarn
import Verif.Props.Finv
import Verif.Props.GridSearch
import Verif.Props.GridSearch2
import Verif.Props.KdvBound
import Verif.Props.KdvDisc
import Verif.Props.KdvFinv
import Verif.Props.KdvRich
import Verif.Props.KdvZeros
import Verif.Props.Kdvv
import Verif.Props.KdvvConv
import Verif.Props.KissFFT
import Verif.Props.ManBound
import Verif.Props.ManCells
import Verif.Props.ManConv
import Verif.Props.ManConvBound
import Verif.Props.ManFscatter
import Verif.Props.ManRich
import Verif.Props.ManScatter
import Verif.Props.Manakovv
import Verif.Props.Mex
import Verif.Props.MexExamples
import Verif.Props.MexInv
import Verif.Props.MexKdvv
import Verif.Props.MexManakovv
import Verif.Props.MexNsep
import Verif.Props.MexRun
import Verif.Props.MexXi
import Verif.Props.Misc
import Verif.Props.MiscNum
import Verif.Props.NseDisc
import Verif.Props.Nsep
import Verif.Props.NsepConv
import Verif.Props.NsepConvAux
import Verif.Props.NsepDegen
import Verif.Props.NsepMix
import Verif.Props.NsepModalAux
import Verif.Props.NsepNewton
import Verif.Props.NsepSub
import Verif.Props.Nsev
import Verif.Props.NsevBound
import Verif.Props.NsevCells
import Verif.Props.NsevConv
import Verif.Props.NsevConvBound
import Verif.Props.NsevInvB
import Verif.Props.NsevInvGrid
import Verif.Props.NsevInvIter
import Verif.Props.NsevInvMixRes
import Verif.Props.NsevInvRefl
import Verif.Props.NsevInvReject
import Verif.Props.NsevInvSeed
import Verif.Props.NsevInvSoliton
import Verif.Props.NsevMixed
import Verif.Props.NsevRich
import Verif.Props.NsevRichDisc
import Verif.Props.PolyChirpz
import Verif.Props.PolyEval
import Verif.Props.PolyFmult
import Verif.Props.Res
import Verif.Props.Resample
import Verif.Props.Specfact

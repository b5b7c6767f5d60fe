import Verif.Lemmas.Bucket
import Verif.Lemmas.Coll
import Verif.Lemmas.CollSim
import Verif.Lemmas.Combine
import Verif.Lemmas.CommBits
import Verif.Lemmas.CommRun
import Verif.Lemmas.CommTree
import Verif.Lemmas.Crystal
import Verif.Lemmas.ElArea2
import Verif.Lemmas.ElEdge2
import Verif.Lemmas.ElEdge3
import Verif.Lemmas.ElFace3
import Verif.Lemmas.ElFaceWork3
import Verif.Lemmas.ElGroup2
import Verif.Lemmas.ElGroup3
import Verif.Lemmas.ElPt3
import Verif.Lemmas.ElSearch2
import Verif.Lemmas.ElSearch3
import Verif.Lemmas.ElSides2
import Verif.Lemmas.ElSides3
import Verif.Lemmas.ElVol3
import Verif.Lemmas.ElWork
import Verif.Lemmas.Findpts
import Verif.Lemmas.FindptsDrv
import Verif.Lemmas.FindptsEval
import Verif.Lemmas.FindptsLocal
import Verif.Lemmas.FindptsMerge
import Verif.Lemmas.FindptsMs
import Verif.Lemmas.FindptsSetup
import Verif.Lemmas.GllBase
import Verif.Lemmas.GllLag1
import Verif.Lemmas.GllLag2
import Verif.Lemmas.GllLag3
import Verif.Lemmas.GllLag4
import Verif.Lemmas.GllLag5
import Verif.Lemmas.GllLag6
import Verif.Lemmas.GllRun
import Verif.Lemmas.GlobalHash
import Verif.Lemmas.GsAlg
import Verif.Lemmas.GsAr
import Verif.Lemmas.GsAuto
import Verif.Lemmas.GsAux
import Verif.Lemmas.GsBits
import Verif.Lemmas.GsBuf
import Verif.Lemmas.GsCopies
import Verif.Lemmas.GsCr
import Verif.Lemmas.GsCrExec
import Verif.Lemmas.GsCrHist
import Verif.Lemmas.GsCrInv
import Verif.Lemmas.GsCrLabel
import Verif.Lemmas.GsCrLearn
import Verif.Lemmas.GsCrRows
import Verif.Lemmas.GsCrSetup
import Verif.Lemmas.GsFinal
import Verif.Lemmas.GsIndep
import Verif.Lemmas.GsLocal
import Verif.Lemmas.GsMaps
import Verif.Lemmas.GsNb
import Verif.Lemmas.GsNbAll
import Verif.Lemmas.GsNz
import Verif.Lemmas.GsOp
import Verif.Lemmas.GsOut
import Verif.Lemmas.GsParam
import Verif.Lemmas.GsPw
import Verif.Lemmas.GsPwExec
import Verif.Lemmas.GsRep
import Verif.Lemmas.GsRepMany
import Verif.Lemmas.GsSetup
import Verif.Lemmas.GsTopo
import Verif.Lemmas.GsTopoWork
import Verif.Lemmas.GsUniqLoop
import Verif.Lemmas.GsUniqNz
import Verif.Lemmas.GsUniqOwn
import Verif.Lemmas.GsUniqRun
import Verif.Lemmas.GsUniqTopo
import Verif.Lemmas.GsUnique
import Verif.Lemmas.GsWork
import Verif.Lemmas.Halving
import Verif.Lemmas.HandleTable
import Verif.Lemmas.Hash
import Verif.Lemmas.HashFl
import Verif.Lemmas.HashWrap
import Verif.Lemmas.HeapSort
import Verif.Lemmas.LagFl
import Verif.Lemmas.Lagrange
import Verif.Lemmas.LagrangeRun
import Verif.Lemmas.LegRoots
import Verif.Lemmas.Legendre
import Verif.Lemmas.LexSort
import Verif.Lemmas.LobCell
import Verif.Lemmas.LobCert
import Verif.Lemmas.LobCert10
import Verif.Lemmas.LobCert11
import Verif.Lemmas.LobCert12
import Verif.Lemmas.LobCert13
import Verif.Lemmas.LobCert14
import Verif.Lemmas.LobCert15
import Verif.Lemmas.LobCert16
import Verif.Lemmas.LobCert17
import Verif.Lemmas.LobCert17a
import Verif.Lemmas.LobCert17b
import Verif.Lemmas.LobCert17c
import Verif.Lemmas.LobCert17d
import Verif.Lemmas.LobCert18
import Verif.Lemmas.LobCert18a
import Verif.Lemmas.LobCert18b
import Verif.Lemmas.LobCert18c
import Verif.Lemmas.LobCert18d
import Verif.Lemmas.LobCert19
import Verif.Lemmas.LobCert19a
import Verif.Lemmas.LobCert19b
import Verif.Lemmas.LobCert20
import Verif.Lemmas.LobCert20a
import Verif.Lemmas.LobCert20b
import Verif.Lemmas.LobCert20c
import Verif.Lemmas.LobCert20d
import Verif.Lemmas.LobCert21
import Verif.Lemmas.LobCert21a
import Verif.Lemmas.LobCert21b
import Verif.Lemmas.LobCert21c
import Verif.Lemmas.LobCert21d
import Verif.Lemmas.LobCert22
import Verif.Lemmas.LobCert22a
import Verif.Lemmas.LobCert22b
import Verif.Lemmas.LobCert22c
import Verif.Lemmas.LobCert22d
import Verif.Lemmas.LobCert23
import Verif.Lemmas.LobCert23a
import Verif.Lemmas.LobCert23b
import Verif.Lemmas.LobCert23c
import Verif.Lemmas.LobCert23d
import Verif.Lemmas.LobCert24
import Verif.Lemmas.LobCert24a
import Verif.Lemmas.LobCert24b
import Verif.Lemmas.LobCert24c
import Verif.Lemmas.LobCert24d
import Verif.Lemmas.LobCert4
import Verif.Lemmas.LobCert5
import Verif.Lemmas.LobCert6
import Verif.Lemmas.LobCert7
import Verif.Lemmas.LobCert8
import Verif.Lemmas.LobCert9
import Verif.Lemmas.LobCertified
import Verif.Lemmas.LobCheb
import Verif.Lemmas.LobDir
import Verif.Lemmas.LobGood
import Verif.Lemmas.LobLin
import Verif.Lemmas.LobMath
import Verif.Lemmas.LobQuad
import Verif.Lemmas.LobRow
import Verif.Lemmas.LobRun
import Verif.Lemmas.LobSeg
import Verif.Lemmas.LobSetup
import Verif.Lemmas.LobTab
import Verif.Lemmas.MapW
import Verif.Lemmas.MergeSort
import Verif.Lemmas.Mpi
import Verif.Lemmas.Nb
import Verif.Lemmas.NbAll
import Verif.Lemmas.NbRun
import Verif.Lemmas.Newton2
import Verif.Lemmas.Newton2Step
import Verif.Lemmas.Newton3
import Verif.Lemmas.Newton3Face
import Verif.Lemmas.Newton3Fin
import Verif.Lemmas.Newton3Step
import Verif.Lemmas.Newton3Vol
import Verif.Lemmas.NumMem
import Verif.Lemmas.ObboxCalc
import Verif.Lemmas.ObboxCalc3
import Verif.Lemmas.ObboxCover
import Verif.Lemmas.ObboxPoly
import Verif.Lemmas.ObboxReal
import Verif.Lemmas.ObboxRun
import Verif.Lemmas.Param
import Verif.Lemmas.Quad
import Verif.Lemmas.QuadExact
import Verif.Lemmas.QuadTab
import Verif.Lemmas.Radix
import Verif.Lemmas.RealRoots
import Verif.Lemmas.Rec
import Verif.Lemmas.SarraySort
import Verif.Lemmas.Sort
import Verif.Lemmas.SortMem
import Verif.Lemmas.StableSort
import Verif.Lemmas.Strided
import Verif.Lemmas.StridedEval
import Verif.Lemmas.StridedFp
import Verif.Lemmas.StridedLocal
import Verif.Lemmas.StridedMs
import Verif.Lemmas.Tensor
import Verif.Lemmas.TensorFl
import Verif.Lemmas.Transfer
import Verif.Lemmas.TransferBytes
import Verif.Lemmas.TransferPack
import Verif.Lemmas.TransferRun
import Verif.Lemmas.TransferUnpack
import Verif.Lemmas.TypedTransfer
import Verif.Model.Coll
import Verif.Model.CommDot
import Verif.Model.CommTree
import Verif.Model.Crystal
import Verif.Model.DynArray
import Verif.Model.ElFlags
import Verif.Model.ElGroup2
import Verif.Model.ElGroup3
import Verif.Model.ElWork
import Verif.Model.Fgs
import Verif.Model.Findpts
import Verif.Model.FindptsDrv
import Verif.Model.FindptsEval
import Verif.Model.FindptsLocal
import Verif.Model.FindptsMs
import Verif.Model.FindptsSetup
import Verif.Model.GllLag
import Verif.Model.GllSetup
import Verif.Model.GllTable
import Verif.Model.GlobalHash
import Verif.Model.Gs
import Verif.Model.GsAuto
import Verif.Model.GsCr
import Verif.Model.GsExec
import Verif.Model.GsKernel
import Verif.Model.GsNb
import Verif.Model.GsOp
import Verif.Model.GsTopo
import Verif.Model.GsUnique
import Verif.Model.HandleTable
import Verif.Model.Hash
import Verif.Model.HashFl
import Verif.Model.HashWrap
import Verif.Model.HeapSort
import Verif.Model.LagDerFl
import Verif.Model.LagFl
import Verif.Model.Lagrange
import Verif.Model.LegFl
import Verif.Model.Legendre
import Verif.Model.LinSolve
import Verif.Model.LobBnd
import Verif.Model.Mem
import Verif.Model.MergeSort
import Verif.Model.Mpi
import Verif.Model.Nb
import Verif.Model.Newton2
import Verif.Model.Newton3
import Verif.Model.NumMem
import Verif.Model.Obbox
import Verif.Model.ObboxFl
import Verif.Model.Outcome
import Verif.Model.Quad
import Verif.Model.Radix
import Verif.Model.Rec
import Verif.Model.SarraySort
import Verif.Model.Sort
import Verif.Model.SortMem
import Verif.Model.Strided
import Verif.Model.StridedEval
import Verif.Model.StridedMs
import Verif.Model.Tensor
import Verif.Model.TensorFl
import Verif.Model.TensorGradFl
import Verif.Model.Transfer
import Verif.Props.Comm
import Verif.Props.CommBits
import Verif.Props.CommDot
import Verif.Props.Crystal
import Verif.Props.DynArray
import Verif.Props.ElDir
import Verif.Props.ElFlags
import Verif.Props.ElGroup2
import Verif.Props.ElGroup3
import Verif.Props.Findpts
import Verif.Props.FindptsDrv
import Verif.Props.FindptsEval
import Verif.Props.FindptsMesh
import Verif.Props.FindptsMs
import Verif.Props.FindptsSetup
import Verif.Props.FindptsSetupMesh
import Verif.Props.GllLag
import Verif.Props.GllTable
import Verif.Props.GlobalHash
import Verif.Props.GradFl
import Verif.Props.Gs
import Verif.Props.GsAlg
import Verif.Props.GsAuto
import Verif.Props.GsBits
import Verif.Props.GsIndep
import Verif.Props.GsNb
import Verif.Props.GsOp
import Verif.Props.GsRound
import Verif.Props.GsUnique
import Verif.Props.HandleTable
import Verif.Props.Hash
import Verif.Props.HashFl
import Verif.Props.HashWrap
import Verif.Props.InterpFl
import Verif.Props.LagDerFl
import Verif.Props.LagFl
import Verif.Props.Lagrange
import Verif.Props.LegFl
import Verif.Props.Legendre
import Verif.Props.LinSolve
import Verif.Props.LobBnd
import Verif.Props.LobSetup
import Verif.Props.LobSmallM
import Verif.Props.LobValid
import Verif.Props.Newton2
import Verif.Props.Newton2Opt
import Verif.Props.Newton3
import Verif.Props.Newton3Opt
import Verif.Props.Obbox
import Verif.Props.ObboxFl
import Verif.Props.Quad
import Verif.Props.QuadExact
import Verif.Props.QuadNodes
import Verif.Props.SarraySort
import Verif.Props.Sort
import Verif.Props.SortMem
import Verif.Props.Strided
import Verif.Props.StridedEval
import Verif.Props.StridedMs
import Verif.Props.Tensor
import Verif.Props.Transfer
import Verif.Props.TransferWrap
import Verif.Spec.Bracket
import Verif.Spec.Combine
import Verif.Spec.Comm
import Verif.Spec.Crystal
import Verif.Spec.DynArray
import Verif.Spec.ElFlags
import Verif.Spec.ElGroup2
import Verif.Spec.ElGroup3
import Verif.Spec.Findpts
import Verif.Spec.FindptsDrv
import Verif.Spec.FindptsEval
import Verif.Spec.FindptsMs
import Verif.Spec.Gs
import Verif.Spec.GsAlg
import Verif.Spec.GsAuto
import Verif.Spec.GsBits
import Verif.Spec.GsCopies
import Verif.Spec.GsNb
import Verif.Spec.GsOp
import Verif.Spec.GsUnique
import Verif.Spec.HandleTable
import Verif.Spec.Hash
import Verif.Spec.Lagrange
import Verif.Spec.Legendre
import Verif.Spec.LobBnd
import Verif.Spec.Nb
import Verif.Spec.Newton2
import Verif.Spec.Newton2Opt
import Verif.Spec.Newton3
import Verif.Spec.Newton3Opt
import Verif.Spec.Obbox
import Verif.Spec.QuadExact
import Verif.Spec.SarraySort
import Verif.Spec.Schedules
import Verif.Spec.Sort
import Verif.Spec.SortMem
import Verif.Spec.Strided
import Verif.Spec.Tensor
import Verif.Spec.Transfer
import Verif.Spec.TransferInput

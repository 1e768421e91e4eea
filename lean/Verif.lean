import Verif.Basic
import Verif.Bareiss
import Verif.Model.Factor
import Verif.Model.Solve
import Verif.Proof.Reach
import Verif.Proof.Hist
import Verif.Proof.Tri
import Verif.Proof.TriSolve
import Verif.Proof.Pivot
import Verif.Proof.Populate
import Verif.Proof.Cols
import Verif.Proof.FactStep
import Verif.Proof.FactStep2
import Verif.Proof.Factorize
import Verif.Proof.DenseOps
import Verif.Proof.Forward
import Verif.Proof.Backward
import Verif.Proof.LuSolve
import Verif.Proof.Check
import Verif.Model.Matrix
import Verif.Model.Api
import Verif.Spec
import Verif.Proof.Bridge
import Verif.Proof.Main
import Verif.Props.Factor
import Verif.Props.Pivot
import Verif.Props.Solve
import Verif.SpecGraph
import Verif.Props.Solve2
import Verif.Props.Run
import Verif.Proof.Analyze
import Verif.Props.Analyze
import Verif.Props.Refuted
import Verif.Example
import Verif.Model.Workspace
import Verif.Proof.Workspace
import Verif.Props.Workspace
import Verif.Model.Convert
import Verif.Proof.Convert
import Verif.Props.Convert
import Verif.SpecMat
import Verif.Proof.Coo
import Verif.Proof.CopyLoops
import Verif.Proof.Cast
import Verif.Proof.Copy
import Verif.Props.Copy
import Verif.Props.Api
import Verif.Props.Round
import Verif.Model.MatCheck
import Verif.Proof.MatCheck
import Verif.Props.MatCheck
import Verif.Model.Realloc
import Verif.Props.Realloc
import Verif.Model.Gmp
import Verif.SpecMem
import Verif.Proof.Gmp
import Verif.Props.Gmp
import Verif.Model.Memory
import Verif.SpecHeap
import Verif.Proof.Heap
import Verif.Proof.HeapMat
import Verif.Proof.HeapAlloc
import Verif.Proof.HeapSolve
import Verif.Proof.HeapFact
import Verif.Proof.HeapCopy
import Verif.Proof.HeapBack
import Verif.Props.Memory
import Verif.Model.Session
import Verif.Proof.Session
import Verif.Props.Session
import Verif.Props.Workflow
import Verif.Props.Drivers
import Verif.Props.Example
import Verif.Props.Matlab
import Verif.Model.MatlabRun
import Verif.Proof.MatlabRun
import Verif.Props.MatlabRun
import Verif.Model.MatlabFun
import Verif.Proof.MatlabFun
import Verif.Props.MatlabFun
import Verif.Model.Text
import Verif.SpecText
import Verif.Proof.Text
import Verif.Proof.TextLines
import Verif.Proof.TextListing
import Verif.Props.Text
import Verif.Proof.ColAdd
import Verif.Proof.ColBase
import Verif.Proof.ColDeg
import Verif.Proof.ColDiff
import Verif.Proof.ColHash
import Verif.Proof.ColInv
import Verif.Proof.ColRow
import Verif.Model.Arith
import Verif.Model.Colamd
import Verif.Proof.ColSuper
import Verif.Proof.ColPre
import Verif.Proof.ColFin
import Verif.Proof.ColStep
import Verif.Proof.ColGC
import Verif.Proof.ColPivot
import Verif.Proof.ColOrder
import Verif.Proof.ColScore
import Verif.Proof.ColLists
import Verif.Proof.ColMain
import Verif.Proof.ColInit
import Verif.Proof.ColInit2
import Verif.Proof.ColTop
import Verif.Proof.ColLe
import Verif.SpecColamd
import Verif.Props.Colamd
import Verif.SpecRound
import Verif.Proof.CopyRound
import Verif.Props.CopyRound
import Verif.Model.Amd
import Verif.Proof.AmdBase
import Verif.Proof.AmdDeg
import Verif.Proof.AmdHash
import Verif.Proof.AmdGC
import Verif.Proof.AmdBuild
import Verif.Proof.AmdBuild2
import Verif.Proof.AmdBuild3
import Verif.Proof.AmdScan1
import Verif.Proof.AmdScan2
import Verif.Proof.AmdScan2b
import Verif.Proof.AmdGraph
import Verif.Proof.AmdSuper
import Verif.Proof.AmdRestore
import Verif.Proof.AmdStep
import Verif.Proof.AmdStep2
import Verif.Proof.AmdStep3
import Verif.Proof.AmdStep4
import Verif.Proof.AmdInit
import Verif.Proof.AmdFin1
import Verif.Proof.AmdPost
import Verif.Proof.AmdPost2
import Verif.Proof.AmdFin2
import Verif.Proof.AmdTop
import Verif.Proof.AmdAat
import Verif.Proof.AmdAat2
import Verif.Proof.AmdAat3
import Verif.Proof.AmdPre
import Verif.SpecAmd
import Verif.Proof.AmdOrder
import Verif.Proof.AmdLe
import Verif.Props.Amd
import Verif.Proof.Hadamard
import Verif.Props.Growth
import Verif.Model.Sized
import Verif.Model.SizedApi
import Verif.Proof.Sized
import Verif.Proof.SizedBound
import Verif.Props.GrowthWork
import Verif.Props.Accepted
import Verif.Model.Machine
import Verif.Proof.Machine
import Verif.Proof.Machine2
import Verif.Proof.Machine3
import Verif.Proof.Machine4
import Verif.Model.AnalyzeFl
import Verif.SpecFl
import Verif.Proof.AnalyzeFl
import Verif.Proof.Machine5
import Verif.Props.Machine
import Verif.Props.DriversTrunc
import Verif.Model.Machine2
import Verif.Proof.Machine6
import Verif.Props.Machine2
import Verif.Props.Machine3
import Verif.Props.Machine4
import Verif.Props.AnalyzeFl
import Verif.Props.Meta
import Verif.Proof.Stored
import Verif.Props.Stored
import Verif.Model.Store
import Verif.Model.StoreApi
import Verif.Proof.Store
import Verif.Proof.StoreTri
import Verif.Proof.StoreFact
import Verif.Proof.StoreLU
import Verif.Proof.StoreSolve
import Verif.Proof.StoreApi
import Verif.Proof.StoreBack
import Verif.Props.Store
import Verif.Model.Print
import Verif.Proof.Print
import Verif.Proof.PrintList
import Verif.Proof.PrintCode
import Verif.Props.Print
import Verif.Model.StoreCopy
import Verif.Proof.StoreCopy
import Verif.Proof.StoreCast
import Verif.Proof.StoreCopy2
import Verif.Proof.StoreCopy3
import Verif.Proof.StoreCopy4
import Verif.Proof.StoreCopy5
import Verif.Proof.StoreCopy6
import Verif.Props.StoreCopy
import Verif.Model.Canon
import Verif.Proof.Canon
import Verif.Proof.Canon2
import Verif.Props.Canon
import Verif.Model.PrintSolve
import Verif.Proof.PrintSolve
import Verif.Proof.PrintSolve2
import Verif.Proof.PrintSolve3
import Verif.Props.PrintSolve
import Verif.Model.Flaky
import Verif.Proof.Flaky
import Verif.Props.Flaky
import Verif.Model.FlakyCopy
import Verif.Proof.FlakyCopy
import Verif.Props.FlakyCopy
import Verif.Props.FlakyWorkflow
import Verif.Model.Cost
import Verif.Model.CostApi
import Verif.Proof.Cost
import Verif.Proof.CostTri
import Verif.Proof.CostFact
import Verif.Proof.CostSolve
import Verif.Props.Work
import Verif.Model.CostCopy
import Verif.Proof.CostCopy
import Verif.Proof.CostCopy2
import Verif.Props.CopyWork
import Verif.Model.CostCheck
import Verif.Proof.CostCheck
import Verif.Props.CheckWork

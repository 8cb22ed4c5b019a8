import Verif.Model.ClockedNode
import Verif.Model.Collect
import Verif.Model.Config
import Verif.Model.ConfigFloat
import Verif.Model.ConfigTables
import Verif.Model.Core
import Verif.Model.CoreApi
import Verif.Model.DataConvert
import Verif.Model.DramClients
import Verif.Model.DramController
import Verif.Model.GetStats
import Verif.Model.GetStatsFloat
import Verif.Model.Loader
import Verif.Model.Memory
import Verif.Model.MvmTest
import Verif.Model.Mvmu
import Verif.Model.MvmuApi
import Verif.Model.MvmuFloat
import Verif.Model.Network
import Verif.Model.NodeRun
import Verif.Model.Ops
import Verif.Model.Pipeline
import Verif.Model.Py
import Verif.Model.Run
import Verif.Model.Simulator
import Verif.Model.Single
import Verif.Model.Stats
import Verif.Model.System
import Verif.Model.Text
import Verif.Model.TimedNetwork
import Verif.Model.TimedPipeline
import Verif.Model.TimedSystem
import Verif.Model.Vfu
import Verif.Model.Visualize
import Verif.Model.WholeRun
import Verif.Model.Workers
import Verif.Spec.Accuracy
import Verif.Spec.Apart
import Verif.Spec.ClockCheck
import Verif.Spec.ClockedNode
import Verif.Spec.ClockedRest
import Verif.Spec.ClockedTime
import Verif.Spec.Collect
import Verif.Spec.ConfigFloat
import Verif.Spec.ConfigTables
import Verif.Spec.Core
import Verif.Spec.CoreTest
import Verif.Spec.Counters
import Verif.Spec.DataFree
import Verif.Spec.Dataflow
import Verif.Spec.DramClients
import Verif.Spec.DramController
import Verif.Spec.DramTimes
import Verif.Spec.EndToEnd
import Verif.Spec.FileNode
import Verif.Spec.GetStats
import Verif.Spec.GetStatsFloat
import Verif.Spec.Hang
import Verif.Spec.LeastTime
import Verif.Spec.Ledger
import Verif.Spec.LoadTest
import Verif.Spec.Loader
import Verif.Spec.Memory
import Verif.Spec.Mnist
import Verif.Spec.MnistClock
import Verif.Spec.MnistHang
import Verif.Spec.Mvm
import Verif.Spec.MvmTest
import Verif.Spec.Network
import Verif.Spec.Perceptron
import Verif.Spec.Pipeline
import Verif.Spec.ReportFloat
import Verif.Spec.ReportTime
import Verif.Spec.Reset
import Verif.Spec.Session
import Verif.Spec.Simulation
import Verif.Spec.StaticCheck
import Verif.Spec.Stats
import Verif.Spec.SysErrors
import Verif.Spec.SysRest
import Verif.Spec.SysTimes
import Verif.Spec.SysWork
import Verif.Spec.System
import Verif.Spec.Text
import Verif.Spec.TileTest
import Verif.Spec.TimedNetwork
import Verif.Spec.TimedPipeline
import Verif.Spec.TimedSystem
import Verif.Spec.Unit
import Verif.Spec.Vfu
import Verif.Spec.Visualize
import Verif.Spec.WholeRun
import Verif.Spec.Workers
import Verif.Lemmas.Accuracy
import Verif.Lemmas.Apart
import Verif.Lemmas.ApartSys
import Verif.Lemmas.Bits
import Verif.Lemmas.ClockCore
import Verif.Lemmas.ClockCtrl
import Verif.Lemmas.ClockPipe
import Verif.Lemmas.ClockProc
import Verif.Lemmas.ClockRun
import Verif.Lemmas.ClockStart
import Verif.Lemmas.ClockThread
import Verif.Lemmas.ClockTile
import Verif.Lemmas.ClockedBound
import Verif.Lemmas.ClockedDead
import Verif.Lemmas.ClockedLeft
import Verif.Lemmas.ClockedLeftCore
import Verif.Lemmas.ClockedLeftTick
import Verif.Lemmas.ClockedLeftTile
import Verif.Lemmas.ClockedNode
import Verif.Lemmas.ClockedProgress
import Verif.Lemmas.ClockedRest
import Verif.Lemmas.ClockedStill
import Verif.Lemmas.ClockedTile
import Verif.Lemmas.ClockedTileAct
import Verif.Lemmas.ClockedTileAll
import Verif.Lemmas.ClockedTileCore
import Verif.Lemmas.ClockedTileRows
import Verif.Lemmas.ClockedTileStep
import Verif.Lemmas.ClockedTime
import Verif.Lemmas.ClockedTimes
import Verif.Lemmas.ClockedWork
import Verif.Lemmas.Config
import Verif.Lemmas.ConfigFloat
import Verif.Lemmas.ConfigOrder
import Verif.Lemmas.ConfigTables
import Verif.Lemmas.Core
import Verif.Lemmas.CoreBooks
import Verif.Lemmas.CoreExec
import Verif.Lemmas.CoreReach
import Verif.Lemmas.CoreTest
import Verif.Lemmas.DataFree
import Verif.Lemmas.DramAnswers
import Verif.Lemmas.DramBench
import Verif.Lemmas.DramBenchEnd
import Verif.Lemmas.DramBenchRun
import Verif.Lemmas.DramBenchTests
import Verif.Lemmas.DramClients
import Verif.Lemmas.DramController
import Verif.Lemmas.DramLine
import Verif.Lemmas.DramProgress
import Verif.Lemmas.DramResponse
import Verif.Lemmas.DramTimes
import Verif.Lemmas.DryCore
import Verif.Lemmas.DryCtrl
import Verif.Lemmas.DryNet
import Verif.Lemmas.DryRun
import Verif.Lemmas.DryStart
import Verif.Lemmas.DrySteps
import Verif.Lemmas.DryTiles
import Verif.Lemmas.EndToEnd
import Verif.Lemmas.Execute
import Verif.Lemmas.FileNode
import Verif.Lemmas.Float64
import Verif.Lemmas.Float64Nearest
import Verif.Lemmas.FlowCore
import Verif.Lemmas.FlowInv
import Verif.Lemmas.FlowSys
import Verif.Lemmas.FlowTile
import Verif.Lemmas.GetStats
import Verif.Lemmas.GetStatsFloat
import Verif.Lemmas.GetStatsFloatParts
import Verif.Lemmas.GetStatsOk
import Verif.Lemmas.GetStatsParts
import Verif.Lemmas.HeldCells
import Verif.Lemmas.LeastTime
import Verif.Lemmas.Ledger
import Verif.Lemmas.LedgerRun
import Verif.Lemmas.LedgerTile
import Verif.Lemmas.Lists
import Verif.Lemmas.LoadTest
import Verif.Lemmas.LoadWeights
import Verif.Lemmas.Loader
import Verif.Lemmas.LoaderWeights
import Verif.Lemmas.Memory
import Verif.Lemmas.MnistClock
import Verif.Lemmas.MvmRun
import Verif.Lemmas.MvmTest
import Verif.Lemmas.MvmValue
import Verif.Lemmas.MvmuFloat
import Verif.Lemmas.MvmuFloatRun
import Verif.Lemmas.MvmuFloatSim
import Verif.Lemmas.NetHistory
import Verif.Lemmas.Network
import Verif.Lemmas.NodeCounts
import Verif.Lemmas.NodeReport
import Verif.Lemmas.Perceptron
import Verif.Lemmas.Pipeline
import Verif.Lemmas.PowerNear
import Verif.Lemmas.PowerOrder
import Verif.Lemmas.ReportFloat
import Verif.Lemmas.ReportText
import Verif.Lemmas.ReportTime
import Verif.Lemmas.Reset
import Verif.Lemmas.ResetNode
import Verif.Lemmas.ResetRun
import Verif.Lemmas.Runnable
import Verif.Lemmas.Session
import Verif.Lemmas.Simulation
import Verif.Lemmas.SpecMvm
import Verif.Lemmas.Stats
import Verif.Lemmas.SymCore
import Verif.Lemmas.SymMnist
import Verif.Lemmas.SymNode
import Verif.Lemmas.SysAdding
import Verif.Lemmas.SysCatchUp
import Verif.Lemmas.SysCode
import Verif.Lemmas.SysCounts
import Verif.Lemmas.SysDead
import Verif.Lemmas.SysDet
import Verif.Lemmas.SysErrors
import Verif.Lemmas.SysHist
import Verif.Lemmas.SysInv
import Verif.Lemmas.SysOneReader
import Verif.Lemmas.SysReach
import Verif.Lemmas.SysRest
import Verif.Lemmas.SysStep
import Verif.Lemmas.SysTimes
import Verif.Lemmas.SysTransfer
import Verif.Lemmas.SysWaits
import Verif.Lemmas.SysWork
import Verif.Lemmas.Text
import Verif.Lemmas.TileBlank
import Verif.Lemmas.TimedNetAdd
import Verif.Lemmas.TimedNetStop
import Verif.Lemmas.TimedNetViews
import Verif.Lemmas.TimedNetwork
import Verif.Lemmas.TimedPipeline
import Verif.Lemmas.TimedSysAbs
import Verif.Lemmas.TimedSysEnd
import Verif.Lemmas.TimedSysInv
import Verif.Lemmas.TimedSysRel
import Verif.Lemmas.TimedSysRun
import Verif.Lemmas.TimedSystem
import Verif.Lemmas.UnitRefine
import Verif.Lemmas.Vfu
import Verif.Lemmas.WaitCores
import Verif.Lemmas.WaitCtrl
import Verif.Lemmas.WaitEnd
import Verif.Lemmas.WaitRel
import Verif.Lemmas.WaitRun
import Verif.Lemmas.WaitTiles
import Verif.Lemmas.WholeInv
import Verif.Lemmas.WholeLength
import Verif.Lemmas.WholeMerge
import Verif.Lemmas.WholeRun
import Verif.Props.Accuracy
import Verif.Props.Apart
import Verif.Props.ClockCheck
import Verif.Props.ClockedNode
import Verif.Props.ClockedNodeDemo
import Verif.Props.ClockedRest
import Verif.Props.ClockedTime
import Verif.Props.Collect
import Verif.Props.Config
import Verif.Props.ConfigFloat
import Verif.Props.ConfigTables
import Verif.Props.Core
import Verif.Props.CoreTest
import Verif.Props.CoreTestExact
import Verif.Props.Counters
import Verif.Props.DataFree
import Verif.Props.Dataflow
import Verif.Props.Demo
import Verif.Props.DramClients
import Verif.Props.DramController
import Verif.Props.DramTimes
import Verif.Props.EndToEnd
import Verif.Props.FileNode
import Verif.Props.GetStats
import Verif.Props.GetStatsFloat
import Verif.Props.Hang
import Verif.Props.Invariant
import Verif.Props.LeastTime
import Verif.Props.Ledger
import Verif.Props.LedgerMnist
import Verif.Props.LoadTest
import Verif.Props.Loader
import Verif.Props.LoaderWeights
import Verif.Props.Memory
import Verif.Props.MissingHlt
import Verif.Props.Mnist
import Verif.Props.Mvm
import Verif.Props.MvmParts
import Verif.Props.MvmTest
import Verif.Props.MvmuFloat
import Verif.Props.Network
import Verif.Props.NoActivation
import Verif.Props.Numbering
import Verif.Props.Perceptron
import Verif.Props.Pipeline
import Verif.Props.ReportFloat
import Verif.Props.ReportTime
import Verif.Props.Reset
import Verif.Props.Session
import Verif.Props.Simulation
import Verif.Props.Single
import Verif.Props.StaticCheck
import Verif.Props.Stats
import Verif.Props.SysErrors
import Verif.Props.SysRest
import Verif.Props.SysTimes
import Verif.Props.SysWork
import Verif.Props.System
import Verif.Props.SystemDemo
import Verif.Props.Text
import Verif.Props.TileTest
import Verif.Props.TimedNetwork
import Verif.Props.TimedPipeline
import Verif.Props.TimedSystem
import Verif.Props.TimedSystemDemo
import Verif.Props.Vfu
import Verif.Props.Visualize
import Verif.Props.WholeRun
import Verif.Props.Workers

import Verif.Model.Measure
import Verif.Model.DurationSegment
import Verif.Spec.Drive
import Verif.Lemmas.DurSeg
import Verif.Lemmas.Drive
import Verif.Model.Route
import Verif.Spec.Plan
import Verif.Props.C01
import Verif.Props.C03
import Verif.Props.C36
import Verif.Props.C37
import Verif.Props.C05
import Verif.Props.Demo
import Verif.Props.C06
import Verif.Props.C07
import Verif.Props.C04
import Verif.Props.C09
import Verif.Props.C11
import Verif.Props.C13
import Verif.Props.C16
import Verif.Props.C33
import Verif.Props.C18
import Verif.Props.C19
import Verif.Props.C28
import Verif.Props.C29
import Verif.Props.C30
import Verif.Props.C31
import Verif.Props.C32
import Verif.Model.SearchRoute
import Verif.Model.Proposal
import Verif.Lemmas.Finalise
import Verif.Lemmas.Scan
import Verif.Lemmas.SearchTime
import Verif.Lemmas.SearchLoad
import Verif.Lemmas.SearchRoute
import Verif.Lemmas.SearchLoadSum
import Verif.Props.C20
import Verif.Spec.Instance
import Verif.Lemmas.Proposal
import Verif.Props.C21
import Verif.Props.C22
import Verif.Props.C23
import Verif.Model.DynamicBitset
import Verif.Model.Pwl
import Verif.Model.Text
import Verif.Props.C34
import Verif.Props.C35
import Verif.Props.C38
import Verif.Props.C45
import Verif.Model.SearchSpace
import Verif.Props.C43
import Verif.Model.SearchSolution
import Verif.Lemmas.SearchSolution
import Verif.Props.C26
import Verif.Model.MinimiseFleet
import Verif.Lemmas.MinimiseFleet
import Verif.Props.C41
import Verif.Model.Neighbourhood
import Verif.Props.C40
import Verif.Model.ModelApi
import Verif.Props.C39
import Verif.Model.Csv
import Verif.Props.C42
import Verif.Model.SearchInsert
import Verif.Model.Perturbation
import Verif.Lemmas.Phase
import Verif.Lemmas.SearchEdit
import Verif.Lemmas.SearchInsert
import Verif.Lemmas.Perturbation
import Verif.Props.C27
import Verif.Model.Operators
import Verif.Lemmas.Closed
import Verif.Lemmas.MoveCost
import Verif.Lemmas.MoveEdit
import Verif.Lemmas.MoveSwap
import Verif.Lemmas.Moves
import Verif.Lemmas.OpsSegment
import Verif.Lemmas.OpsRelocate
import Verif.Lemmas.OpsSwap
import Verif.Lemmas.OpsTails
import Verif.Lemmas.OpsClient
import Verif.Lemmas.OpsAlternative
import Verif.Lemmas.OpsDepot
import Verif.Lemmas.OpsShipment
import Verif.Lemmas.OpsPair
import Verif.Lemmas.OpsAll
import Verif.Model.LocalSearch
import Verif.Lemmas.LocalSearch
import Verif.Lemmas.LocalMoves
import Verif.Lemmas.Structural
import Verif.Lemmas.SearchLoop
import Verif.Props.C24
import Verif.Spec.SearchSpec
import Verif.Lemmas.LocalResult
import Verif.Lemmas.SearchShift
import Verif.Lemmas.Moderate
import Verif.Lemmas.Unlimited
import Verif.Props.C46
import Verif.Props.C25
import Verif.Model.Solve
import Verif.Lemmas.IlsState
import Verif.Lemmas.Solve
import Verif.Props.C47
import Verif.Props.C47Start
import Verif.Spec.Moves
import Verif.Lemmas.FoundBase
import Verif.Lemmas.FoundSegment
import Verif.Lemmas.FoundSwap
import Verif.Lemmas.FoundClient
import Verif.Lemmas.FoundDepot
import Verif.Lemmas.FoundShipment
import Verif.Lemmas.FoundAll
import Verif.Props.C48
import Verif.Lemmas.Optimal
import Verif.Lemmas.Prepared
import Verif.Props.C49
import Verif.Lemmas.InsertBest
import Verif.Props.C50
import Verif.Model.SolutionFile
import Verif.Lemmas.PyText
import Verif.Lemmas.SolutionFile
import Verif.Props.C51
import Verif.Model.Read
import Verif.Spec.File
import Verif.Lemmas.Read
import Verif.Lemmas.ReadFile
import Verif.Props.C52
import Verif.Model.Checked
import Verif.Model.CheckedSearch
import Verif.Lemmas.Checked
import Verif.Lemmas.CheckedOps
import Verif.Lemmas.CheckedOps2
import Verif.Lemmas.CheckedOps3
import Verif.Lemmas.CheckedApply
import Verif.Lemmas.CheckedApply2
import Verif.Lemmas.CheckedApply3
import Verif.Lemmas.CheckedAll
import Verif.Lemmas.CheckedLoop
import Verif.Lemmas.CheckedPrepared
import Verif.Model.CheckedRun
import Verif.Lemmas.CheckedInsert
import Verif.Lemmas.CheckedPerturb
import Verif.Lemmas.CheckedRepair
import Verif.Lemmas.CheckedLoad
import Verif.Lemmas.CheckedRun
import Verif.Props.C53
import Verif.Lemmas.Supports
import Verif.Lemmas.SupportsRun
import Verif.Props.C54
import Verif.Model.Int64
import Verif.Spec.Int64Spec
import Verif.Lemmas.Int64
import Verif.Lemmas.Int64Route
import Verif.Lemmas.Int64Solution
import Verif.Props.C55
import Verif.Model.Cli
import Verif.Lemmas.Cli
import Verif.Lemmas.CliFile
import Verif.Props.C56
import Verif.Model.SearchStatistics
import Verif.Lemmas.SearchStatistics
import Verif.Props.C57
import Verif.Model.Int64Search
import Verif.Lemmas.Int64Fwd
import Verif.Lemmas.Int64Search
import Verif.Lemmas.Int64Move
import Verif.Props.C58
import Verif.Model.Printers
import Verif.Model.Progress
import Verif.Props.C59
import Verif.Props.C60
import Verif.Checks.Instances
import Verif.Checks.Operators
import Verif.Checks.Segments
import Verif.Checks.Solutions
import Verif.Checks.Search
import Verif.Checks.Runs
import Verif.Checks.Solve
import Verif.Props.C21Parts
import Verif.Model.Int64Operators
import Verif.Lemmas.Int64Ops
import Verif.Lemmas.Int64Ops2
import Verif.Lemmas.Int64Ops3
import Verif.Lemmas.Int64Env
import Verif.Props.C61
import Verif.Model.Int64Run
import Verif.Lemmas.Int64Insert
import Verif.Lemmas.Int64Update
import Verif.Lemmas.Int64Loop
import Verif.Lemmas.Int64Perturb
import Verif.Lemmas.Int64Repair
import Verif.Lemmas.Int64Load
import Verif.Lemmas.Int64Whole
import Verif.Props.C62
import Verif.Model.Int64Solve
import Verif.Lemmas.Int64Solve
import Verif.Lemmas.Int64Ils
import Verif.Props.C63
import Verif.Spec.FileGood
import Verif.Lemmas.ReadGood
import Verif.Props.C64
import Verif.Model.Config
import Verif.Props.C65
import Verif.Model.ModelSolve
import Verif.Props.C66
import Verif.Model.Benchmark
import Verif.Props.C67
import Verif.Model.Plot
import Verif.Props.C68
import Verif.Model.PlotSolution
import Verif.Props.C69
import Verif.Model.PlotResult
import Verif.Props.C70

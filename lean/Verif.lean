import Verif.Model.Numpy
import Verif.Model.Pulse
import Verif.Model.Controls
import Verif.Model.Prog
import Verif.Model.Stopping
import Verif.Model.Strat
import Verif.Model.Algorithm
import Verif.Lemmas.Numpy
import Verif.Lemmas.Pulse
import Verif.Spec.Pulse
import Verif.Props.Limits
import Verif.Props.Shaping
import Verif.Lemmas.Bases
import Verif.Props.Bases
import Verif.Props.BasisCounts
import Verif.Spec.Run
import Verif.Lemmas.Prog
import Verif.Lemmas.Algorithm
import Verif.Lemmas.Run
import Verif.Props.Run
import Verif.Props.Records
import Verif.Props.GoalReEval
import Verif.Props.BestFileReEval
import Verif.Props.Direction
import Verif.Props.ReEval
import Verif.Props.Best
import Verif.Spec.Controls
import Verif.Lemmas.Controls
import Verif.Props.Controls
import Verif.Model.NelderMead
import Verif.Spec.Search
import Verif.Spec.NelderMead
import Verif.Lemmas.Strat
import Verif.Lemmas.NelderMead
import Verif.Lemmas.Hoare
import Verif.Lemmas.Handler
import Verif.Lemmas.NmStop
import Verif.Lemmas.Play
import Verif.Props.NelderMead
import Verif.Spec.Reproduce
import Verif.Model.Ops
import Verif.Model.Results
import Verif.Lemmas.Reproduce
import Verif.Lemmas.ControlsRepro
import Verif.Props.SuperIterations
import Verif.Spec.Stopping
import Verif.Lemmas.LeastSquares
import Verif.Lemmas.Stopping
import Verif.Props.Stopping
import Verif.Model.CMAES
import Verif.Spec.CMAES
import Verif.Lemmas.CMAES
import Verif.Props.CMAES
import Verif.Lemmas.CmaCov
import Verif.Props.CmaSampling
import Verif.Model.LinearAlgebra
import Verif.Lemmas.GramSchmidt
import Verif.Props.LinearAlgebra
import Verif.Model.TimeEvolution
import Verif.Spec.TimeEvolution
import Verif.Lemmas.TimeEvolution
import Verif.Props.TimeEvolution
import Verif.Props.Grape
import Verif.Model.PartialTrace
import Verif.Spec.PartialTrace
import Verif.Lemmas.PartialTrace
import Verif.Props.PartialTrace
import Verif.Model.Dump
import Verif.Spec.Files
import Verif.Lemmas.Dump
import Verif.Props.Dump
import Verif.Model.Folder
import Verif.Lemmas.Folder
import Verif.Props.Folder
import Verif.Model.FileExchange
import Verif.Lemmas.FileExchange
import Verif.Spec.FileExchange
import Verif.Props.FileExchange
import Verif.Model.Lookup
import Verif.Spec.Lookup
import Verif.Props.Lookup
import Verif.Model.AD
import Verif.Props.AD
import Verif.Model.Problems
import Verif.Spec.Problems
import Verif.Props.Problems
import Verif.Model.Ising
import Verif.Spec.Ising
import Verif.Lemmas.Ising
import Verif.Lemmas.Density
import Verif.Props.Ising
import Verif.Model.Tools
import Verif.Spec.Tools
import Verif.Lemmas.Polar
import Verif.Lemmas.Fidelity
import Verif.Props.Tools
import Verif.Model.Json
import Verif.Spec.Json
import Verif.Props.Json
import Verif.Model.Alias
import Verif.Spec.Alias
import Verif.Props.Alias
import Verif.Model.Random
import Verif.Spec.Random
import Verif.Props.Random
import Verif.Model.Lifecycle
import Verif.Props.Lifecycle
import Verif.Spec.BestMean
import Verif.Lemmas.BestMean
import Verif.Lemmas.ControlsMean
import Verif.Props.BestMean
import Verif.Model.Settings
import Verif.Spec.Settings
import Verif.Lemmas.Settings
import Verif.Lemmas.SettingsRead
import Verif.Lemmas.SettingsUse
import Verif.Lemmas.SettingsSweep
import Verif.Props.Settings
import Verif.Spec.EndToEnd
import Verif.Model.ControlsAD
import Verif.Lemmas.Times
import Verif.Lemmas.Delivered
import Verif.Lemmas.ControlsAD
import Verif.Props.EndToEnd
import Verif.Model.System
import Verif.Spec.Usable
import Verif.Spec.Failure
import Verif.Lemmas.Usable
import Verif.Lemmas.Fine
import Verif.Lemmas.System
import Verif.Props.Usable
import Verif.Props.Boundaries
import Verif.Model.GrapeControls
import Verif.Props.GrapeControls
import Verif.Spec.BasisFormulas
import Verif.Lemmas.ErrorFn
import Verif.Props.BasisFormulas
import Verif.Lemmas.FirstCall
import Verif.Props.SuperIterationStart
import Verif.Lemmas.Truncate
import Verif.Props.Truncation
import Verif.Spec.Rescale
import Verif.Lemmas.Rescale
import Verif.Lemmas.RescaleSearch
import Verif.Props.Rescale
import Verif.Lemmas.SettingsValues
import Verif.Spec.CmaReference
import Verif.Lemmas.CmaReference
import Verif.Props.CmaReference
import Verif.Spec.MapSearch
import Verif.Lemmas.MapSearch
import Verif.Spec.Drift
import Verif.Lemmas.Drift
import Verif.Props.Drift
import Verif.Spec.Recoord
import Verif.Lemmas.Recoord
import Verif.Lemmas.RecoordControls
import Verif.Props.Recoord
import Verif.Spec.Continue
import Verif.Lemmas.NoDrift
import Verif.Lemmas.Continue
import Verif.Props.Continue
import Verif.Props.BestLibrary
import Verif.Props.UsableGrape
import Verif.Model.Program
import Verif.Spec.Program
import Verif.Props.Program
import Verif.Spec.Documented
import Verif.Lemmas.Accepted
import Verif.Props.Accepted
import Verif.Spec.GeneralPosition
import Verif.Lemmas.CmaGeneral
import Verif.Model.Crash
import Verif.Props.Crash
import Verif.Model.ProgramGrape
import Verif.Props.ProgramGrape
import Verif.Lemmas.Follow
import Verif.Props.GrapeCalls
import Verif.Lemmas.FollowSearch
import Verif.Props.SearchCalls
import Verif.Props.FirstProgram
import Verif.Model.ProgramAD
import Verif.Lemmas.ProgramAD
import Verif.Lemmas.UsableAD
import Verif.Props.ProgramAD
import Verif.Spec.Dcrab
import Verif.Lemmas.Stages
import Verif.Lemmas.Dcrab
import Verif.Props.Dcrab
import Verif.Props.Steps
import Verif.Spec.Steps
import Verif.Lemmas.ZeroUpdate
import Verif.Props.ZeroUpdate
import Verif.Spec.TimeUnit
import Verif.Lemmas.TimeUnit
import Verif.Props.TimeUnit
import Verif.Spec.AmplitudeUnit
import Verif.Lemmas.AmplitudeUnit
import Verif.Props.AmplitudeUnit
import Verif.Spec.CmaScale
import Verif.Lemmas.CmaScale
import Verif.Props.CmaScale
import Verif.Model.Lindblad
import Verif.Spec.Lindblad
import Verif.Lemmas.Lindblad
import Verif.Props.Lindblad
import Verif.Model.IsingLindblad
import Verif.Spec.IsingLindblad
import Verif.Lemmas.LindbladFlow
import Verif.Lemmas.IsingLindblad
import Verif.Props.IsingLindblad
import Verif.Props.Walsh
import Verif.Props.IsingExample
import Verif.Spec.ProgramMean
import Verif.Props.ProgramMean
import Verif.Spec.ProgramContinue
import Verif.Props.ProgramContinue
import Verif.Spec.ProgramSamples
import Verif.Props.ProgramSamples
import Verif.Model.Scripts
import Verif.Spec.Scripts
import Verif.Props.Scripts
import Verif.Props.ScriptsFoM
import Verif.Spec.History
import Verif.Lemmas.History
import Verif.Lemmas.HistoryAD
import Verif.Props.History
import Verif.Props.ProgramHistory
import Verif.Model.ResultsFile
import Verif.Spec.Reports
import Verif.Lemmas.Reports
import Verif.Lemmas.ReportsAD
import Verif.Props.ResultsFile
import Verif.Props.ResultsFileAD
import Verif.Props.ResultsFileSaved
import Verif.Lemmas.ReproduceFirst
import Verif.Props.ResultsFileBest
import Verif.Lemmas.ReproduceFirstAD
import Verif.Props.ResultsFileBestAD
import Verif.Lemmas.FollowAD
import Verif.Props.AdCalls
import Verif.Spec.NmReference
import Verif.Lemmas.NmReference
import Verif.Props.NmReference
import Verif.Props.NmProgram
import Verif.Props.ScriptArgs
import Verif.Lemmas.Made
import Verif.Spec.DcrabSearch
import Verif.Props.DcrabSearch
import Verif.Model.Bare
import Verif.Spec.Bare
import Verif.Props.Bare
import Verif.Props.ManyCalls
import Verif.Spec.AdSuper
import Verif.Lemmas.AdSuper
import Verif.Props.AdSuper
import Verif.Spec.DriftRun
import Verif.Lemmas.DriftRun
import Verif.Props.DriftRun
import Verif.Spec.DriftMeasure
import Verif.Props.DriftMeasure
import Verif.Lemmas.DriftMinutes
import Verif.Props.DriftMinutes
import Verif.Props.IsingShort
import Verif.Props.ScriptsShort
import Verif.Model.ProblemArgs
import Verif.Props.ProblemArgs
import Verif.Model.IsingArgs
import Verif.Props.IsingArgs
import Verif.Model.ChangeStop
import Verif.Props.ChangeStop
import Verif.Props.ChangeStopDict

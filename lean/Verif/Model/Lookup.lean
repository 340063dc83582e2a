import Mathlib.Data.Nat.Notation
import Mathlib.Data.Int.Notation

/-!
# Lookup of classes (`utils/dynamicimport.py`) and of log messages (`tools/logger.py`)
-/

namespace QuOCS

/-! ### Classes -/

/-- An entry of `map_dictionary.json`: name, module, class. -/
abbrev MapEntry := String × String × String

/-- `map_dictionary.json`: `opti_algorithm_map` (lines 2-14). -/
def algorithmMap : List MapEntry :=
  [("AD", "quocslib.optimizationalgorithms.ADAlgorithm", "ADAlgorithm"),
   ("dCRAB", "quocslib.optimizationalgorithms.dCRABAlgorithm", "dCRABAlgorithm"),
   ("DirectSearch", "quocslib.optimizationalgorithms.DirectSearchAlgorithm", "DirectSearchAlgorithm"),
   ("GRAPE", "quocslib.optimizationalgorithms.GRAPEAlgorithm", "GRAPEAlgorithm")]

/-- `map_dictionary.json`: `dsm_settings_map` (lines 15-21). -/
def dsmMap : List MapEntry :=
  [("NelderMead", "quocslib.gradientfreemethods.NelderMead", "NelderMead"),
   ("CMAES", "quocslib.gradientfreemethods.CMAES", "CMAES")]

/-- `map_dictionary.json`: `basis_map` (lines 22-52). -/
def basisMap : List MapEntry :=
  [("Chebyshev", "quocslib.pulses.basis.Chebyshev", "Chebyshev"),
   ("ChoppedBasis", "quocslib.pulses.basis.ChoppedBasis", "ChoppedBasis"),
   ("Fourier", "quocslib.pulses.basis.Fourier", "Fourier"),
   ("PiecewiseBasis", "quocslib.pulses.basis.PiecewiseBasis", "PiecewiseBasis"),
   ("Sigmoid", "quocslib.pulses.basis.Sigmoid", "Sigmoid"),
   ("SigmoidTimeDep", "quocslib.pulses.basis.SigmoidTimeDep", "SigmoidTimeDep"),
   ("SigmoidSigmas", "quocslib.pulses.basis.SigmoidSigmas", "SigmoidSigmas"),
   ("SigmoidAllParas", "quocslib.pulses.basis.SigmoidAllParas", "SigmoidAllParas"),
   ("Sinc", "quocslib.pulses.basis.Sinc", "Sinc"),
   ("Walsh", "quocslib.pulses.basis.Walsh", "Walsh")]

/-- `map_dictionary.json`: `superparameter_distribution_map` (lines 53-56). -/
def distributionMap : List MapEntry :=
  [("Uniform", "quocslib.pulses.superparameter.Uniform", "Uniform")]

/-- The map for a class type (dynamicimport.py:46-57): `none` is the exception for a missing type, an unknown type has
an empty map. -/
def typeMap : Option String → Option (List MapEntry)
  | none => none
  | some t =>
    if t = "algorithm" then some algorithmMap
    else if t = "dsm_settings" then some dsmMap
    else if t = "basis" then some basisMap
    else if t = "superparameter_distribution" then some distributionMap
    else some []

/-- The arguments of `dynamic_import` (dynamicimport.py:26-30). -/
structure ImportArgs (A : Type) where
  attr : Option A := none
  moduleName : Option String := none
  className : Option String := none
  name : Option String := none
  classType : Option String := none

/-- `getattr(importlib.import_module(module_name), class_name)` for possibly missing names; every exception is caught by
the callers (dynamicimport.py:66-72, 80-87), so only success matters. `load` is the import system. -/
def loadClass {A : Type} (load : String → String → Option A) : Option String → Option String → Option A
  | some m, some c => load m c
  | _, _ => none

/-- The middle branch (dynamicimport.py:45-74): lookup by name. -/
def importByName {A : Type} (load : String → String → Option A) (a : ImportArgs A) (name : String) : Option A :=
  match typeMap a.classType with
  | none => none
  | some entries =>
    match entries.lookup name with
    | some (m, c) => load m c
    | none => loadClass load a.moduleName a.className

/-- `dynamic_import` (dynamicimport.py:26-89). -/
def dynamicImport {A : Type} (load : String → String → Option A) (a : ImportArgs A) : Option A :=
  match a.attr with
  | some x => some x
  | none =>
    match a.name with
    | some n => importByName load a n
    | none => loadClass load a.moduleName a.className

/-! ### Log messages -/

/-- Where a message goes. -/
inductive Sink
  | console
  | file (path : String)
  deriving DecidableEq, Repr

/-- Settings of `create_logger` (logger.py:23): paths of the log files, and the three switches. -/
structure LoggerCfg where
  logfile : String
  debugfile : String
  createLogfile : Bool
  consoleInfo : Bool
  isDebug : Bool

/-- The logger `"oc_logger"`: it exists once per process. Levels: 10 debug, 20 info, 30 warning, 40 error. -/
structure Logger where
  level : ℕ
  handlers : List (Sink × ℕ)

/-- `create_logger` (logger.py:41-73): takes the logger of the process, removes its handlers and adds new ones; the
previous state plays no role. -/
def createLogger (cfg : LoggerCfg) (_old : Logger) : Logger :=
  { level := 20
    handlers :=
      (if cfg.createLogfile then [(Sink.file cfg.logfile, 20)] else []) ++
      [(Sink.console, if cfg.consoleInfo then 20 else 40)] ++
      (if cfg.isDebug then [(Sink.file cfg.debugfile, 10)] else []) }

/-- The `logging` library: a message below the level of the logger is dropped, otherwise every handler with a level not
above it writes it. (Handlers of the root logger are not modelled.) -/
def Logger.log (l : Logger) (level : ℕ) : List Sink :=
  if l.level ≤ level then (l.handlers.filter (fun h => h.2 ≤ level)).map Prod.fst else []

/-- `print_logger` (AllInOneCommunication.py:111-120): the level of the message is rounded up to one of four levels. -/
def printLevel (level : ℤ) : ℕ :=
  if level ≤ 10 then 10 else if level ≤ 20 then 20 else if level ≤ 30 then 30 else 40

/-- `print_logger`: where a message ends up. -/
def printLogger (l : Logger) (level : ℤ) : List Sink := l.log (printLevel level)

/-- The runs of one process create their communication objects one after the other (AllInOneCommunication.py:98); the
state of the logger after that. -/
def createRuns (l : Logger) (runs : List LoggerCfg) : Logger := runs.foldl (fun l c => createLogger c l) l

end QuOCS

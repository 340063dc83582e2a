/-
Model of the life of an `Optimizer` object: begin, run and end, also several times.
-/
import Verif.Model.Results

namespace QuOCS

/-- What the user sees of an execution besides the evaluations: the start message, the file `optimized_parameters.json` and the
report of the final results in the log. `reason` is the entry `"terminate_reason"`, `higher` the entry `"Termination Reason"`. -/
inductive LifeEv (V F : Type)
  | started
  | stored (r : FinalResults V F) (reason : Option String) (higher : Option String)
  | reported (r : FinalResults V F) (reason : Option String) (higher : Option String)

section
variable {K V C O F : Type} [LE K] [DecidableLE K]
variable [Add F] [Sub F] [Mul F] [Div F] [Neg F] [Zero F] [One F] [NatCast F] [LE F] [LT F] [DecidableLE F]
  [DecidableLT F]

/-- `end` (OptimizationAlgorithm.py:318-330): the results are stored before the entry `"Termination Reason"` is added.
DirectSearch raises `AttributeError` if nothing was evaluated (`self.xx` in DirectSearchAlgorithm.py:336). GRAPE has no entry
`"terminate_reason"` (GRAPEAlgorithm.py:241-244). Failures of the file system and of the JSON encoder are not modelled. -/
def endEvents (cfg : AlgCfg K F) (s : AlgState V C O F) : Py (List (LifeEv V F)) :=
  let r := finalResults cfg s
  let reason := if cfg.kind = .grape then none else some s.terminateReason
  if r.parameters.any Option.isNone then .error .attributeError
  else .ok [.stored r reason none, .reported r reason (if s.hoReason = "" then none else some s.hoReason)]

/-- `execute` (Optimizer.py:86-92) of an object in the state `s`, without `begin`: an exception of `run` goes through to the caller. -/
def runAndEnd (cfg : AlgCfg K F) (env : Env V C F) (ops : CtlOps O V C) (dsm : Dsm K V F) (s : AlgState V C O F) :
    Py Unit × AlgState V C O F × List (LifeEv V F) :=
  match run cfg env ops dsm s with
  | (.error e, s') => (.error e, s', [.started])
  | (.ok _, s') =>
    match endEvents cfg s' with
    | .error e => (.error e, s', [.started])
    | .ok evs => (.ok (), s', .started :: evs)

/-- The first `execute`; `initState` includes `begin` (OptimizationAlgorithm.py:122-137). -/
def executeFirst (cfg : AlgCfg K F) (env : Env V C F) (ops : CtlOps O V C) (dsm : Dsm K V F) (o : O) :
    Py Unit × AlgState V C O F × List (LifeEv V F) := runAndEnd cfg env ops dsm (initState cfg env o)

/-- A later `execute` of the same object: `begin` sets only the start time (OptimizationAlgorithm.py:137). -/
def executeAgain (cfg : AlgCfg K F) (env : Env V C F) (ops : CtlOps O V C) (dsm : Dsm K V F) (s : AlgState V C O F) :
    Py Unit × AlgState V C O F × List (LifeEv V F) :=
  runAndEnd cfg env ops dsm { s with optStart := env.clock s.ticks, ticks := s.ticks + 1 }

/-- The state after `n + 1` executions, also after ones that raised. -/
def afterExecutions (cfg : AlgCfg K F) (env : Env V C F) (ops : CtlOps O V C) (dsm : Dsm K V F) (o : O) : ℕ → AlgState V C O F
  | 0 => (executeFirst cfg env ops dsm o).2.1
  | n + 1 => (executeAgain cfg env ops dsm (afterExecutions cfg env ops dsm o n)).2.1

/-- A new `Optimizer` that gets the `HandleExit` object of an earlier one (Optimizer.py:50-56): its flag is not set again. -/
def executeWithHandle (cfg : AlgCfg K F) (env : Env V C F) (ops : CtlOps O V C) (dsm : Dsm K V F) (o : O) (flag : Bool) :
    Py Unit × AlgState V C O F × List (LifeEv V F) := runAndEnd cfg env ops dsm { initState cfg env o with running := flag }

end
end QuOCS

/-
Model of `optimizationalgorithms/OptimizationAlgorithm.py`, `dCRABAlgorithm.py`, `DirectSearchAlgorithm.py`,
`GRAPEAlgorithm.py` (evaluation part) and of the part of `communication/AllInOneCommunication.py` they use.

Parameters of the model
* `V` search vectors, `C` the controls handed to the user's `get_FoM`, `O` the controls object, `F` figures of merit,
  `K` the number type of the stopping criteria (`xatol`).
* No law is assumed for the arithmetic of `F`, so that it may contain `NaN`.
-/
import Verif.Model.Stopping
import Verif.Model.Strat

namespace QuOCS

/-- Which algorithm class is run. -/
inductive AlgKind
  | dcrab | directSearch | grape
  deriving DecidableEq, Repr

/-- The settings (OptimizationAlgorithm.py:58-93, dCRABAlgorithm.py:76-107, DirectSearchAlgorithm.py:74-96). -/
structure AlgCfg (K F : Type) where
  kind : AlgKind
  maxEvalTotal : ℤ
  totalTimeLim : ℚ
  /-- `optimization_direction == "maximization"`; `FoM_factor` is `-1` then, `1` otherwise, in the algorithm
  (OptimizationAlgorithm.py:75-84) and in the communication object (AllInOneCommunication.py:107-109) -/
  maximize : Bool
  /-- `FoM_goal` as given by the user -/
  userGoal : Option F
  /-- `INITIAL_FOM` = 1e10 -/
  fomMax : F
  /-- `0.1`, the initial `std` (OptimizationAlgorithm.py:92) -/
  initStd : F
  /-- `re_evaluation_steps` -/
  reEval : Option (List F)
  /-- `0.5` (dCRABAlgorithm.py:326) -/
  half : F
  /-- `10**(-14)` (dCRABAlgorithm.py:415) -/
  tiny : F
  driftAfterSI : Bool
  driftMinutes : ℚ
  driftAverage : ℕ
  maxSI : ℕ
  sc : ScCfg K F

/-- What the user's `get_FoM` returns: `{"FoM": ..., "std": ..., "status_code": ...}`; the last two keys are optional,
the figure of merit may be `None`. -/
structure Answer (F : Type) where
  fom : Option F
  std : Option F
  status : Option ℤ
  deriving DecidableEq, Repr

/-- Asynchronous events: a stop from the GUI (`handle_exit_obj.is_user_running = False`) or SIGINT. -/
inductive Async
  | none | guiStop | sigint
  deriving DecidableEq, Repr

/-- One call of the user's `get_FoM`: search vector, controls, and what happened. The last two fields are time stamps
(not in the code): the number of points passed so far where stop requests are seen, and of clock readings. -/
structure Call (V C F : Type) where
  vec : V
  ctl : C
  ans : Py (Answer F)
  polls : ℕ
  ticks : ℕ

/-- The environment of a run. `getFoM` sees the whole history of earlier calls (so it may be noisy, drifting, stateful);
`async n` is the event that arrives before the `n`-th point where the code looks at the running state;
`clock n` is the `n`-th reading of the clock in minutes. -/
structure Env (V C F : Type) where
  getFoM : List (Call V C F) → C → Py (Answer F)
  async : ℕ → Async
  clock : ℕ → ℚ
  sqrt : F → F
  /-- `scipy.stats.norm.cdf` -/
  cdf : F → F

/-- The controls object as used by the algorithms. `selectBasis k` and `simplex k` get the number of the
super-iteration as source of randomness. -/
structure CtlOps (O V C : Type) where
  getControls : O → V → Py (O × C)
  mean : O → Py V
  sigma : O → Py V
  updateBase : O → V → Py O
  selectBasis : ℕ → O → Py O
  /-- `simplex_creation(mean, sigma, rng)` -/
  simplex : ℕ → V → V → Py (List V)

/-- `FoM_dict` after `get_data` (the figure of merit is already multiplied by `FoM_factor`). -/
structure FoMDict (F : Type) where
  fom : F
  std : Option F
  status : Option ℤ

/-- One call of `dump_obj.dump_controls` (AllInOneCommunication.py:196-200): what is reported for one evaluation.
`calls` (not in the code) is the number of `get_FoM` calls made so far, i.e. the report is about call number `calls`. -/
structure DumpCall (C F : Type) where
  ctl : Option C
  isRecord : Bool
  fom : F
  iteration : ℕ
  calls : ℕ

/-- A signal emitted to the graphical interface (AllInOneCommunication.py:143-148, 187-189): new controls, or the number and the value of an evaluation for
the plot. -/
inductive Signal (C F : Type) where
  | controls (c : C)
  | plot (iteration : ℕ) (fom : F)
  deriving DecidableEq

/-- The attributes of the algorithm, communication and stopping-criteria objects. -/
structure AlgState (V C O F : Type) where
  /-- `he_obj.is_user_running` -/
  running : Bool
  /-- `iteration_number` -/
  iter : ℕ
  algIter : ℕ
  xx : Option V
  bestFoM : F
  bestSigma : F
  bestXX : Option V
  fomDict : FoMDict F
  isRecord : Bool
  stepNumber : ℕ
  fomTest : List F
  sigmaTest : List F
  /-- `higher_order_terminate_reason` -/
  hoReason : String
  terminateReason : String
  sc : Sc F
  optStart : ℚ
  ctl : O
  /-- `comm_obj.controls_dict` (`{}` before the first `send_controls`) -/
  commCtl : Option C
  superIt : ℕ
  fomList : List F
  iterList : List ℕ
  /-- `dcrab_parameters_list` -/
  paraList : List V
  /-- all calls of the results dump -/
  dumps : List (DumpCall C F)
  /-- all signals emitted to the interface -/
  signals : List (Signal C F)
  /-- number of points passed where asynchronous events are seen -/
  polls : ℕ
  /-- number of clock readings -/
  ticks : ℕ
  /-- all calls of the user's `get_FoM` so far (not in the code: it records what the user can observe) -/
  log : List (Call V C F)

section
variable {K V C O F : Type} [LE K] [DecidableLE K]
variable [Add F] [Sub F] [Mul F] [Div F] [Neg F] [Zero F] [One F] [NatCast F] [LE F] [LT F] [DecidableLE F]
  [DecidableLT F]

/-- Multiplication by `FoM_factor`, i.e. by `1` or `-1`. -/
def dirMul (maximize : Bool) (x : F) : F := if maximize then -x else x

/-- `self.FoM_goal` (OptimizationAlgorithm.py:88-90). -/
def AlgCfg.goal (cfg : AlgCfg K F) : Option F := cfg.userGoal.map (dirMul cfg.maximize)

/-- Does the algorithm object have a `dsm_obj`? -/
def AlgCfg.hasDsm (cfg : AlgCfg K F) : Bool := decide (cfg.kind ≠ .grape)

/-- State after construction and `begin()` (OptimizationAlgorithm.py:58-92, 122-137; dCRABAlgorithm.py:75-142;
StoppingCriteria.py:35-50). -/
def initState (cfg : AlgCfg K F) (env : Env V C F) (ctl : O) : AlgState V C O F :=
  { running := true, iter := 0, algIter := 0, xx := none
    bestFoM := cfg.fomMax, bestSigma := 0, bestXX := none
    fomDict := { fom := cfg.fomMax, std := some cfg.initStd, status := none }
    isRecord := false, stepNumber := 0
    fomTest := (match cfg.reEval with | some l => List.replicate (l.length + 1) 0 | none => [])
    sigmaTest := (match cfg.reEval with | some l => List.replicate (l.length + 1) 0 | none => [])
    hoReason := "", terminateReason := ""
    sc := { isConverged := false, reason := "Global Stopping Criterion reached.", startTime := env.clock 0, track := [] }
    optStart := env.clock 1, ctl := ctl, commCtl := none, superIt := 0, fomList := [], iterList := [], paraList := []
    dumps := [], signals := [], polls := 0, ticks := 2, log := [] }

/-- The clock. -/
def readClock (env : Env V C F) : Prog (AlgState V C O F) ℚ :=
  fun s => (.ok (env.clock s.ticks), { s with ticks := s.ticks + 1 })

/-- `stop_optimization` with the bookkeeping around it (OptimizationAlgorithm.py:151-155, 162-166, 174-178, 289-291). -/
def stopWith (cfg : AlgCfg K F) (reason : String) : Prog (AlgState V C O F) Unit :=
  Prog.modify (fun s =>
    { s with hoReason := reason, running := false
             sc := if cfg.hasDsm then { s.sc with isConverged := true } else s.sc })

/-- A point where asynchronous events become visible. SIGINT runs `handle_user_cancellation`
(OptimizationAlgorithm.py:111-120), which needs `dsm_obj`. -/
def poll (cfg : AlgCfg K F) (env : Env V C F) : Prog (AlgState V C O F) Unit := fun s =>
  let s' := { s with polls := s.polls + 1 }
  match env.async s.polls with
  | .none => (.ok (), s')
  | .guiStop => (.ok (), { s' with running := false })
  | .sigint =>
      if cfg.hasDsm then stopWith cfg "User stopped the optimization" s'
      else (.error .attributeError, { s' with hoReason := "User stopped the optimization" })

/-- `update_controls` (AllInOneCommunication.py:196-200). -/
def dumpControls (isRecord : Bool) (fom : F) : Prog (AlgState V C O F) Unit :=
  Prog.modify (fun s => { s with dumps := s.dumps ++ [⟨s.commCtl, isRecord, fom, s.iter, s.log.length⟩] })

/-- `get_data` (AllInOneCommunication.py:153-168) for the controls `c` sent just before, and the assignment to
`self.FoM_dict` (OptimizationAlgorithm.py:204). -/
def getData (cfg : AlgCfg K F) (env : Env V C F) (x : V) (c : C) : Prog (AlgState V C O F) Unit := fun s =>
  let a := env.getFoM s.log c
  let s1 := { s with log := s.log ++ [⟨x, c, a, s.polls, s.ticks⟩] }
  match a with
  | .error e => (.error e, s1)
  | .ok a =>
    match a.fom with
    | none => (.error .typeError, s1)
    | some f =>
      (.ok (), { s1 with
        fomDict := { fom := dirMul cfg.maximize f, std := a.std, status := some (a.status.getD 0) }
        running := if a.status.getD 0 = 0 then s1.running else false })

/-- `_get_average_FoM_std` without arguments (dCRABAlgorithm.py:385-397). -/
def averageCurrent (s : AlgState V C O F) : F :=
  if s.stepNumber = 0 then s.fomDict.fom
  else
    let n : F := (s.stepNumber : F)
    (mean (s.fomTest.take s.stepNumber) * (n - 1) + s.fomDict.fom) / n

/-- `_get_response_for_client` (dCRABAlgorithm.py:144-189, DirectSearchAlgorithm.py:254-287, GRAPEAlgorithm.py:107-133, which has no re-evaluation):
record logic, summary lists; returns the reported figure of merit. -/
def response (cfg : AlgCfg K F) : Prog (AlgState V C O F) F := fun s =>
  let fom := if cfg.kind = .dcrab then averageCurrent s else s.fomDict.fom
  let s1 :=
    if (cfg.kind = .grape ∨ cfg.reEval.isNone) ∧ fom < s.bestFoM then { s with bestFoM := fom, bestXX := s.xx, isRecord := true }
    else s
  let listed := if cfg.kind = .directSearch ∧ cfg.reEval.isSome then averageCurrent s else fom
  let s2 :=
    if s.fomDict.status.getD 0 = 0 then
      { s1 with fomList := s1.fomList ++ [dirMul cfg.maximize listed], iterList := s1.iterList ++ [s1.iter] }
    else s1
  (.ok fom, s2)

/-- `send_FoM_response` (AllInOneCommunication.py:170-189). -/
def sendResponse (fom : F) : Prog (AlgState V C O F) Unit := fun s =>
  if s.fomDict.status.getD 0 ≠ 0 then (.ok (), { s with running := false })
  else
    let r := dumpControls s.isRecord fom s
    (r.1, { r.2 with signals := r.2.signals ++ [.plot s.iter fom] })

/-- Feeding the advanced stopping criteria (OptimizationAlgorithm.py:212-247); without `dsm_obj` the exception is
swallowed. -/
def trackFoM (cfg : AlgCfg K F) : Prog (AlgState V C O F) Unit :=
  Prog.modify (fun s =>
    if cfg.hasDsm then { s with sc := checkAdvanced cfg.sc (addToTrack cfg.sc s.sc s.fomDict.fom) } else s)

/-- Check of the total number of evaluations (OptimizationAlgorithm.py:149-155). -/
def budgetCheck (cfg : AlgCfg K F) : Prog (AlgState V C O F) Unit := fun s =>
  if (s.iter : ℤ) ≥ cfg.maxEvalTotal then
    stopWith cfg "Maximum number of total function evaluations reached" s
  else (.ok (), s)

/-- Check of the goal (OptimizationAlgorithm.py:157-166). -/
def goalCheck (cfg : AlgCfg K F) : Prog (AlgState V C O F) Unit := fun s =>
  match cfg.goal with
  | some g => if s.bestFoM ≤ g then stopWith cfg "Goal FoM reached" s else (.ok (), s)
  | none => (.ok (), s)

/-- Comparison of the time `now` with the limit (OptimizationAlgorithm.py:171-178). -/
def timeCheckAt (cfg : AlgCfg K F) (now : ℚ) : Prog (AlgState V C O F) Unit := fun s =>
  if now - s.optStart ≥ cfg.totalTimeLim then stopWith cfg "Maximum optimization runtime reached" s
  else (.ok (), s)

/-- Check of the total time (OptimizationAlgorithm.py:168-178). -/
def timeCheck (cfg : AlgCfg K F) (env : Env V C F) : Prog (AlgState V C O F) Unit :=
  if cfg.totalTimeLim < 10 ^ 10 then do
    let now ← readClock env
    timeCheckAt cfg now
  else pure ()

/-- The three checks at the start of `_routine_call` (OptimizationAlgorithm.py:149-178). -/
def stopChecks (cfg : AlgCfg K F) (env : Env V C F) : Prog (AlgState V C O F) Unit := do
  budgetCheck cfg
  goalCheck cfg
  timeCheck cfg env

/-- `_get_controls` and `send_controls` (OptimizationAlgorithm.py:193, AllInOneCommunication.py:143-148). -/
def sendControls (ops : CtlOps O V C) (x : V) : Prog (AlgState V C O F) C := fun s =>
  match ops.getControls s.ctl x with
  | .error e => (.error e, s)
  | .ok (o, c) => (.ok c, { s with ctl := o, commCtl := some c, signals := s.signals ++ [.controls c] })

/-- Measuring the sent controls and reporting (OptimizationAlgorithm.py:203-250). -/
def measure (cfg : AlgCfg K F) (env : Env V C F) (x : V) (c : C) : Prog (AlgState V C O F) F := do
  getData cfg env x c
  let fom ← response cfg
  sendResponse fom
  trackFoM cfg
  let s ← Prog.get
  pure s.fomDict.fom

/-- `_routine_call` (OptimizationAlgorithm.py:139-250). -/
def routineCall (cfg : AlgCfg K F) (env : Env V C F) (ops : CtlOps O V C) (x : V) (it : ℕ) :
    Prog (AlgState V C O F) F := do
  poll cfg env
  stopChecks cfg env
  poll cfg env
  let s ← Prog.get
  if s.running = false then pure cfg.fomMax
  else do
    Prog.modify (fun s => { s with xx := some x, algIter := it, iter := s.iter + 1 })
    let c ← sendControls ops x
    poll cfg env
    let s ← Prog.get
    if s.running = false then pure cfg.fomMax
    else measure cfg env x c

/-- `_get_average_FoM_std(mu_sum, sigma_sum)` with sums given, `step_number > 0` (dCRABAlgorithm.py:396). -/
def averageSum (s : AlgState V C O F) : F × F :=
  (s.fomTest.sum / (s.stepNumber : F), s.sigmaTest.sum / (s.stepNumber : F))

/-- `_probabnormx1betterx2` (dCRABAlgorithm.py:399-425). -/
def probBetter (cfg : AlgCfg K F) (env : Env V C F) (mu1 sigma1 mu2 sigma2 : F) : F :=
  let muz := mu2 - mu1
  let std := env.sqrt (sigma1 * sigma1 + sigma2 * sigma2)
  let std := if pyAbs std < cfg.tiny then 1 else std
  env.cdf (muz / std)

/-- Assignment `a[i] = v` of NumPy. -/
def setIdx (l : List F) (i : ℕ) (v : F) : Py (List F) :=
  if i < l.length then .ok (l.set i v) else .error .indexError

/-- Store a measurement in `FoM_test[i]`, `sigma_test[i]` and increase `step_number`
(dCRABAlgorithm.py:333-338, 350-353). -/
def storeTest (i : ℕ) (fom : F) : Prog (AlgState V C O F) Unit := fun s =>
  match setIdx s.fomTest i fom with
  | .error e => (.error e, s)
  | .ok ft =>
    let s := { s with fomTest := ft }
    match setIdx s.sigmaTest i (s.fomDict.std.getD 1) with
    | .error e => (.error e, s)
    | .ok st => (.ok (), { s with sigmaTest := st, stepNumber := s.stepNumber + 1 })

/-- The last part of the re-evaluation: decide about a new record (dCRABAlgorithm.py:355-375). -/
def reEvalFinish (cfg : AlgCfg K F) (env : Env V C F) (last : F) : Prog (AlgState V C O F) F := fun s =>
  let (mu1, sigma1) := averageSum s
  if probBetter cfg env mu1 sigma1 s.bestFoM s.bestSigma > last then
    match s.xx with
    | none => (.error .attributeError, { s with bestSigma := sigma1, bestFoM := mu1, isRecord := true })
    | some x =>
      (dumpControls true mu1 >>= fun _ => pure mu1)
        { s with bestSigma := sigma1, bestFoM := mu1, isRecord := true, bestXX := some x }
  else (.ok mu1, s)

/-- The loop over the re-evaluation steps from index `i` on (dCRABAlgorithm.py:340-353), followed by the final decision.
`last` is `re_evaluation_steps[-1]`. -/
def reEvalLoop (cfg : AlgCfg K F) (env : Env V C F) (ops : CtlOps O V C) (x : V) (it : ℕ) (last : F) :
    ℕ → List F → Prog (AlgState V C O F) F
  | _, [] => reEvalFinish cfg env last
  | i, p :: ps => do
      let s ← Prog.get
      let a := averageSum s
      if probBetter cfg env a.1 a.2 s.bestFoM s.bestSigma < p then pure a.1
      else do
        let f ← routineCall cfg env ops x it
        storeTest (i + 1) f
        reEvalLoop cfg env ops x it last (i + 1) ps

/-- `_inner_routine_call` without drift value (dCRABAlgorithm.py:301-375, DirectSearchAlgorithm.py:133-202).
The tables are reset by `0.0 * ...` (lines 330-331), which keeps a `NaN`.
`re_evaluation_steps[-1]` of an empty array raises `IndexError` (line 361, after the record test). -/
def innerCall (cfg : AlgCfg K F) (env : Env V C F) (ops : CtlOps O V C) (x : V) (it : ℕ) :
    Prog (AlgState V C O F) F := do
  Prog.modify (fun s => { s with isRecord := false, stepNumber := 0 })
  let fom ← routineCall cfg env ops x it
  match cfg.reEval with
  | none => pure fom
  | some steps => do
      let s ← Prog.get
      let steps := if s.iter = 1 then [cfg.half] else steps
      Prog.modify (fun s => { s with fomTest := s.fomTest.map (fun v => 0 * v), sigmaTest := s.sigmaTest.map (fun v => 0 * v) })
      storeTest 0 fom
      match steps.getLast? with
      | none => Prog.raise .indexError
      | some last => reEvalLoop cfg env ops x it last 0 steps

/-- `_inner_routine_call` with a drift value (dCRABAlgorithm.py:289-300, DirectSearchAlgorithm.py:121-132). -/
def innerDrift (v : F) : Prog (AlgState V C O F) F := fun s =>
  let s1 := { s with bestFoM := v, isRecord := true }
  match s.xx with
  | none => (.error .attributeError, s1)
  | some x => (dumpControls true v >>= fun _ => pure v) { s1 with bestXX := some x }

/-- Building the controls for the gradient (GRAPEAlgorithm.py:143). -/
def gradientControls (ops : CtlOps O V C) (x : V) : Prog (AlgState V C O F) Unit := fun s =>
  match ops.getControls s.ctl x with
  | .error e => (.error e, s)
  | .ok (o, _) => (.ok (), { s with ctl := o })

/-- `inner_routine_call` of GRAPE (GRAPEAlgorithm.py:186-191): the gradient builds the controls once more
(line 143) before the figure of merit is evaluated. The user's propagator function is part of `ops.getControls` here;
the numerical gradient is modelled separately. -/
def innerGrape (cfg : AlgCfg K F) (env : Env V C F) (ops : CtlOps O V C) (x : V) : Prog (AlgState V C O F) F := do
  Prog.modify (fun s => { s with isRecord := false })
  gradientControls ops x
  routineCall cfg env ops x 0

/-- Writing the stopping-criteria object. -/
def withSc (f : Sc F → Sc F) : Prog (AlgState V C O F) Unit := Prog.modify (fun s => { s with sc := f s.sc })

/-- The implementation of the calls of a direct-search method by the algorithm object. -/
def algHandler (cfg : AlgCfg K F) (env : Env V C F) (ops : CtlOps O V C) :
    (o : Op K V F) → Prog (AlgState V C O F) o.Res
  | .eval x it => if cfg.kind = .grape then innerGrape cfg env ops x else innerCall cfg env ops x it
  | .drift _ _ v => innerDrift v
  | .readConv => do
      poll cfg env
      let s ← Prog.get
      pure s.sc.isConverged
  | .setConv b => withSc (fun sc => { sc with isConverged := b })
  | .callback => do
      poll cfg env
      let s ← Prog.get
      pure s.running
  | .userStop => withSc (fun sc => { sc with isConverged := true, reason :=
      "User stopped the optimization or higher order stopping criterion has been reached" })
  | .checkNM size fsim calls => do
      let now ← readClock env
      let s ← Prog.get
      let sc ← Prog.lift (nmCheck env.sqrt cfg.sc s.sc size fsim calls now)
      withSc (fun _ => sc)
  | .checkCMA fsim calls => do
      let now ← readClock env
      withSc (fun sc => cmaCheck env.sqrt cfg.sc sc fsim calls now)
  | .now => readClock env
  | .reason => do
      let s ← Prog.get
      pure s.sc.reason
  | .fail e => Prog.raise e

/-- The dictionary returned by `run_dsm` (NelderMead.py:216-222, CMAES.py:220-226). -/
structure DsmResult (V F : Type) where
  fMin : F
  xOpt : V
  nit : ℕ
  nfev : ℕ
  reason : String

/-- A direct-search method: from the start point, the start simplex and the start sizes to an interaction. It may be another one in every
super-iteration (first argument), as it may use random numbers. -/
abbrev Dsm (K V F : Type) := ℕ → V → List V → V → Strat K V F (DsmResult V F)

/-- `_dsm_build` (dCRABAlgorithm.py:251-277, DirectSearchAlgorithm.py:296-314). -/
def dsmBuild (cfg : AlgCfg K F) (env : Env V C F) (ops : CtlOps O V C) (dsm : Dsm K V F) :
    Prog (AlgState V C O F) Unit := do
  let s ← Prog.get
  let x0 ← Prog.lift (ops.mean s.ctl)
  let sigma ← Prog.lift (ops.sigma s.ctl)
  let sim ← Prog.lift (ops.simplex s.superIt x0 sigma)
  Prog.modify (fun s => { s with bestXX := some x0 })
  let r ← (dsm s.superIt x0 sim sigma).interp (algHandler cfg env ops)
  Prog.modify (fun s => { s with terminateReason := r.reason })

/-- The sum of `n` routine calls at `x` (dCRABAlgorithm.py:233-234). -/
def sumRoutine (cfg : AlgCfg K F) (env : Env V C F) (ops : CtlOps O V C) (x : V) : ℕ → F → Prog (AlgState V C O F) F
  | 0, acc => pure acc
  | n + 1, acc => do
      let f ← routineCall cfg env ops x 0
      sumRoutine cfg env ops x n (acc + f)

/-- `_update_FoM` (dCRABAlgorithm.py:225-242). -/
def updateFoM (cfg : AlgCfg K F) (env : Env V C F) (ops : CtlOps O V C) : Prog (AlgState V C O F) Unit := do
  let s ← Prog.get
  let x0 ← Prog.lift (ops.mean s.ctl)
  Prog.modify (fun s => { s with isRecord := true, stepNumber := 0 })
  let f ← sumRoutine cfg env ops x0 cfg.driftAverage 0
  if cfg.driftAverage = 0 then Prog.raise .zeroDivision
  else Prog.modify (fun s => { s with bestFoM := f / (cfg.driftAverage : F) })

/-- `_update_base_pulses` (dCRABAlgorithm.py:244-249) and the last line of GRAPE's `run` (GRAPEAlgorithm.py:217,
which does not keep the list of vectors; the list is not reported there).
`best_xx` is undefined (`AttributeError`) before its first assignment. -/
def updateBasePulses (ops : CtlOps O V C) : Prog (AlgState V C O F) Unit := fun s =>
  match s.bestXX with
  | none => (.error .attributeError, s)
  | some x =>
    match ops.updateBase s.ctl x with
    | .error e => (.error e, s)
    | .ok o => (.ok (), { s with ctl := o, paraList := s.paraList ++ [x] })

/-- Drift compensation before a super-iteration (dCRABAlgorithm.py:216-217). -/
def driftStep (cfg : AlgCfg K F) (env : Env V C F) (ops : CtlOps O V C) (k : ℕ) : Prog (AlgState V C O F) Unit :=
  if cfg.driftAfterSI = true ∧ k ≥ 2 then updateFoM cfg env ops else pure ()

/-- Body of the super-iteration loop (dCRABAlgorithm.py:196-223). -/
def superIteration (cfg : AlgCfg K F) (env : Env V C F) (ops : CtlOps O V C) (dsm : Dsm K V F) (k : ℕ) :
    Prog (AlgState V C O F) Unit := do
  let now ← readClock env
  withSc (fun sc => { sc with startTime := now, track := [] })
  Prog.modify (fun s => { s with superIt := k })
  driftStep cfg env ops k
  let s ← Prog.get
  let o ← Prog.lift (ops.selectBasis k s.ctl)
  Prog.modify (fun s => { s with ctl := o })
  dsmBuild cfg env ops dsm
  updateBasePulses ops

/-- `run` of dCRAB: super-iterations `k, k+1, ...`, at most `n` of them (dCRABAlgorithm.py:191-223). -/
def dcrabLoop (cfg : AlgCfg K F) (env : Env V C F) (ops : CtlOps O V C) (dsm : Dsm K V F) :
    ℕ → ℕ → Prog (AlgState V C O F) Unit
  | 0, _ => pure ()
  | n + 1, k => do
      poll cfg env
      let s ← Prog.get
      if s.running = false then pure ()
      else do
        superIteration cfg env ops dsm k
        dcrabLoop cfg env ops dsm n (k + 1)

/-- `run` of the three algorithms: dCRAB (dCRABAlgorithm.py:191-223), DirectSearch (DirectSearchAlgorithm.py:289-295),
GRAPE (GRAPEAlgorithm.py:193-217; the random start vector is part of `ops.simplex`, L-BFGS-B is an arbitrary search
method). -/
def run (cfg : AlgCfg K F) (env : Env V C F) (ops : CtlOps O V C) (dsm : Dsm K V F) : Prog (AlgState V C O F) Unit :=
  match cfg.kind with
  | .dcrab => dcrabLoop cfg env ops dsm cfg.maxSI 1
  | .directSearch => dsmBuild cfg env ops dsm
  | .grape => do
      let s ← Prog.get
      let x0 ← Prog.lift (ops.mean s.ctl)
      let sigma ← Prog.lift (ops.sigma s.ctl)
      let sim ← Prog.lift (ops.simplex 0 x0 sigma)
      let _ ← (dsm 0 x0 sim sigma).interp (algHandler cfg env ops)
      updateBasePulses ops

/-- A whole optimization from construction to the end of `run` (Optimizer.py:86-92): the state in which `end()` builds
the final results. -/
def execute (cfg : AlgCfg K F) (env : Env V C F) (ops : CtlOps O V C) (dsm : Dsm K V F) (o : O) :
    Py Unit × AlgState V C O F :=
  run cfg env ops dsm (initState cfg env o)

/-- `"Figure of merit"` of the final results (dCRABAlgorithm.py:450, DirectSearchAlgorithm.py:335,
GRAPEAlgorithm.py:242). -/
def finalFoM (cfg : AlgCfg K F) (s : AlgState V C O F) : F := dirMul cfg.maximize s.bestFoM

/-- The best-controls file after the given calls of the results dump: each record overwrites it, other calls return at
once (BestDump.py:70-71, 113-118). How the content is arranged in the file is modelled in `Verif.Model.Dump`. -/
def bestFile (ds : List (DumpCall C F)) : Option (DumpCall C F) :=
  ds.foldl (fun file d => if d.isRecord then some d else file) none

/-- `get_best_controls` (OptimizationAlgorithm.py:293-298). -/
def bestControls (ops : CtlOps O V C) (s : AlgState V C O F) : Py C := do
  let x ← ops.mean s.ctl
  let r ← ops.getControls s.ctl x
  pure r.2

end
end QuOCS

/-
The whole program with GRAPE: from the optimization dictionary to the results.
-/
import Verif.Model.Program

namespace QuOCS

/-- `scipy.optimize.minimize(fun, x0, method="L-BFGS-B", jac=True)` as a program that asks for the figure of merit and the gradient at
some vectors, in any order and as often as it likes (GRAPEAlgorithm.py:204-213). -/
inductive Minimizer (V F : Type) : Type
  | stop
  | ask (x : V) (k : F → V → Minimizer V F)

/-- The calls of `inner_routine_call` (GRAPEAlgorithm.py:186-191); `g` is the gradient, `x` and `f` the latest vector and value. -/
def Minimizer.calls {K V F : Type} (g : V → V) : V → F → Minimizer V F → Strat K V F (DsmResult V F)
  | x, f, .stop => .ret ⟨f, x, 0, 0, ""⟩
  | _, _, .ask x k => .op (.eval x 0) fun f => (k f (g x)).calls g x f

/-- What GRAPE uses in addition: L-BFGS-B with the options `ftol`, `maxfun`, `gtol`, `maxls`, and the gradient, which depends on the
propagators of the user (`get_gradient`, GRAPEAlgorithm.py:134-184, modelled in `Model/GrapeControls.lean`). The function for the propagators is
assumed to return the same matrices for the same controls. -/
structure GrapeLib where
  minimize : (ftol maxfun gtol maxls : PVal) → {n : ℕ} → Vec ℚ n → Minimizer (Vec ℚ n) ℚ
  gradient : {n : ℕ} → Vec ℚ n → Vec ℚ n

/-- The start vector (GRAPEAlgorithm.py:198-202); `u` are random numbers. -/
def grapeStart {n : ℕ} (u mean sigma : Vec ℚ n) : Vec ℚ n := fun i => mean i + 2 * (1 / 2 - u i) * sigma i

/-- The controls object and the start vector as used by GRAPE (GRAPEAlgorithm.py:143, 198-202, 217, 226). GRAPE never selects a
basis. -/
def grapeOps (M : MathFns ℚ) {n : ℕ} (u : Vec ℚ n) : CtlOps (Controls ℚ) (Vec ℚ n) (ControlsOut ℚ) where
  getControls c x := getControlsFor .grape M c (List.ofFn x)
  mean c := do vecOfList n (← c.mean)
  sigma c := do vecOfList n (← c.sigma)
  updateBase c x := c.updateBase M (List.ofFn x)
  selectBasis _ c := .ok c
  simplex _ mean sigma := .ok [grapeStart u mean sigma]

/-- The settings of a GRAPE run (GRAPEAlgorithm.py:57-104); it has no re-evaluation, no compensation of drifts and no object for
stopping criteria. `none`: entries whose types are not the documented ones. -/
def GradientSettings.cfg (s : GradientSettings) : Option (AlgCfg ℚ ℚ) := do
  let tl ← s.core.totalTimeLim.num?
  let goal ← s.core.goal.goal?
  pure { kind := .grape, maxEvalTotal := s.core.maxEvalTotal, totalTimeLim := tl, maximize := s.core.maximize, userGoal := goal,
         fomMax := 10 ^ 10, initStd := 1 / 10, reEval := none, half := 1 / 2, tiny := 1 / 10 ^ 14, driftAfterSI := false,
         driftMinutes := 0, driftAverage := 1, maxSI := 1,
         sc := { maxEval := 0, timeLim := 0, xatol := 0, fatol := 0, cbsEvals := 0, cbsChange := 0 } }

/-- The search of a GRAPE run: L-BFGS-B from the start vector. -/
def GradientSettings.search (L : GrapeLib) (s : GradientSettings) (n : ℕ) : Dsm ℚ (Vec ℚ n) ℚ := fun _ x sim _ =>
  (L.minimize s.ftol s.maxEval s.gtol s.maxls (sim.head?.getD x)).calls L.gradient x 0

/-- Creating and executing an optimizer with GRAPE (Optimizer.py:50-92). `none`: another algorithm, entries whose types are not
the documented ones, or a gradient (one entry per bin of the first pulse, GRAPEAlgorithm.py:174-181) with another number of entries than
the search vector, for which the behaviour of L-BFGS-B is not modelled. -/
def optimizeGrape (w : Surroundings) (L : GrapeLib) (d : PDict) : Option (Py Outcome) :=
  match (createOptimizer w.lib d).1 with
  | .error e => some (.error e)
  | .ok c =>
    match c.alg with
    | .grape s =>
      match s.cfg, mkControls w.lib.M s.controls.pulses s.controls.times s.controls.params with
      | some cfg, .ok o =>
        if (s.controls.pulses.head?.map PulseDict.binsNumber) = some s.controls.dim then
          let ops := grapeOps w.lib.M (w.draws (n := s.controls.dim) 0)
          let r := execute cfg (w.env s.controls.dim) ops (s.search L s.controls.dim) o
          some (.ok { calls := r.2.log.map fun k => (k.ctl, k.ans), ended := r.1, fom := finalFoM cfg r.2, best := bestControls ops r.2
                      foms := r.2.fomList, numbers := r.2.iterList, told := r.2.signals
                      saved := fun n => resultsFile cfg.kind c.dumpFormat s.core (r.2.dumps.filter fun k => k.calls ≤ n) })
        else none
      | _, .error e => some (.error e)
      | none, _ => none
    | _ => none

end QuOCS

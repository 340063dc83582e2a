/-
The whole program with automatic differentiation: from the optimization dictionary to the results.
-/
import Verif.Model.ProgramGrape
import Verif.Model.AD
import Verif.Model.ControlsAD

namespace QuOCS

/-- `scipy.optimize.minimize(f_call, x0, jac=get_gradient, method='L-BFGS-B')` as a program that asks for figures of merit and for
gradients at some vectors, in any order and as often as it likes (ADAlgorithm.py:159-169). -/
inductive AdMinimizer (V F : Type) : Type
  | stop
  | value (x : V) (k : F → AdMinimizer V F)
  | gradient (x : V) (k : V → AdMinimizer V F)

/-- The calls of `f_call` and `get_gradient` (ADAlgorithm.py:153-157). -/
def AdMinimizer.calls {V F : Type} : AdMinimizer V F → AdStrat V F Unit
  | .stop => .ret ()
  | .value x k => .value x fun f => (k f).calls
  | .gradient x k => .grad x fun g => (k g).calls

/-- What the algorithm uses in addition: L-BFGS-B with the options `ftol`, `maxfun`, `gtol`, `maxls`, and the gradient of JAX, which may
depend on everything that happened. -/
structure AdProgramLib where
  minimize : (ftol maxfun gtol maxls : PVal) → {n : ℕ} → Vec ℚ n → AdMinimizer (Vec ℚ n) ℚ
  gradient : List Seen → {n : ℕ} → Vec ℚ n → Vec ℚ n

/-- The controls object as used by the algorithm (ADAlgorithm.py:94-101, 127, 138-142, 147-151, 186). -/
def adOps {K : Type} [Field K] [LinearOrder K] (M : MathFns K) (rnd : ℕ → ℕ → List K) {n : ℕ} :
    CtlOps (Controls K) (Vec K n) (ControlsOut K) where
  getControls c x := c.getControlsAD M (List.ofFn x)
  mean c := do vecOfList n (← c.mean)
  sigma c := do vecOfList n (← c.sigma)
  updateBase c x := c.updateBase M (List.ofFn x)
  selectBasis k c := c.selectBasis (rnd k)
  simplex _ _ _ := .ok []

/-- Gradient, start vectors (ADAlgorithm.py:146-151, the same formula as in GRAPE) and search of a run (ADAlgorithm.py:159-169). -/
def GradientSettings.adLib (w : Surroundings) (L : AdProgramLib) (s : GradientSettings) (n : ℕ) :
    AdLib (Vec ℚ n) (ControlsOut ℚ) ℚ where
  grad h x := L.gradient (h.map fun k => (k.ctl, k.ans)) x
  start k mean sigma := .ok (grapeStart (w.draws k) mean sigma)
  search x := (L.minimize s.ftol s.maxEval s.gtol s.maxls x).calls

/-- The settings of a run (ADAlgorithm.py:56-71); as in GRAPE there is no re-evaluation, no compensation of drifts and no object for
stopping criteria. -/
def GradientSettings.adCfg (s : GradientSettings) : Option (AlgCfg ℚ ℚ) := s.cfg.map fun cfg => { cfg with maxSI := s.maxSI.toNat }

/-- A call of the user's function, and whether it was made for a gradient. -/
structure AdCall where
  forGradient : Bool
  seen : Seen

/-- What the user sees of an optimization: the calls of their function, how the run ended, the reported figure of merit and the controls
returned by `get_best_controls`; also the lists `FoM_list` and `iteration_number_list` (ADAlgorithm.py:215-217), what a graphical interface
was told, and the file with the best controls after a number of calls that were made for a figure of merit. -/
structure AdOutcome where
  calls : List AdCall
  ended : Py Unit
  fom : ℚ
  best : Py (ControlsOut ℚ)
  foms : List ℚ
  numbers : List ℕ
  told : List (Signal (ControlsOut ℚ) ℚ)
  saved : ℕ → Py (Option ResultsDict)

/-- The calls of a run as seen by the user. -/
def AdState.calls {n : ℕ} {O : Type} (s : AdState (Vec ℚ n) (ControlsOut ℚ) O ℚ) : List AdCall :=
  s.alg.log.zipIdx.map fun k => ⟨decide (k.2 ∈ s.gradAt), k.1.ctl, k.1.ans⟩

/-- Creating and executing an optimizer with automatic differentiation (Optimizer.py:50-92). `none`: another algorithm, or entries whose
types are not the documented ones. -/
def optimizeAD (w : Surroundings) (L : AdProgramLib) (d : PDict) : Option (Py AdOutcome) :=
  match (createOptimizer w.lib d).1 with
  | .error e => some (.error e)
  | .ok c =>
    match c.alg with
    | .ad s =>
      match s.adCfg, mkControls w.lib.M s.controls.pulses s.controls.times s.controls.params with
      | some cfg, .ok o =>
        let ops := adOps w.lib.M w.rnd (n := s.controls.dim)
        let r := adExecute (s.adLib w L s.controls.dim) cfg (w.env s.controls.dim) ops o
        some (.ok { calls := r.2.calls, ended := r.1, fom := finalFoM cfg r.2.alg, best := bestControls ops r.2.alg
                    foms := r.2.alg.fomList, numbers := r.2.alg.iterList, told := r.2.alg.signals
                    saved := fun n => resultsFileAD c.dumpFormat s.core (r.2.alg.dumps.filter fun k => k.iteration ≤ n) })
      | _, .error e => some (.error e)
      | none, _ => none
    | _ => none

end QuOCS

/-
The whole program: from the optimization dictionary to the results, for dCRAB and DirectSearch with the search methods of
the library (`Optimizer(optimization_dict, FoM_object)` followed by `execute`, Optimizer.py:50-92).
-/
import Verif.Model.Settings
import Verif.Model.System
import Verif.Model.NelderMead
import Verif.Model.CMAES
import Verif.Model.ResultsFile

namespace QuOCS

/-- A call of the user's function as the user sees it: the controls and what the function did. -/
abbrev Seen := ControlsOut ℚ × Py (Answer ℚ)

/-- Everything outside of QuOCS: Python's import system and the functions of the user in the dictionary (`lib`), the user's
figure of merit, which may depend on all earlier calls, stop requests, the clock, numerical functions and random numbers. -/
structure Surroundings where
  lib : PyLib
  user : List Seen → ControlsOut ℚ → Py (Answer ℚ)
  async : ℕ → Async
  clock : ℕ → ℚ
  sqrt : ℚ → ℚ
  /-- `scipy.stats.norm.cdf` -/
  cdf : ℚ → ℚ
  /-- the random numbers of super-iteration `k` for pulse `i` -/
  rnd : ℕ → ℕ → List ℚ
  /-- the random numbers of `simplex_creation` in super-iteration `k` -/
  draws : {n : ℕ} → ℕ → Vec ℚ n
  /-- NumPy and SciPy as used by the search methods -/
  num : CmaLib ℚ ℚ

/-- The environment of a run with `n` search variables. -/
def Surroundings.env (w : Surroundings) (n : ℕ) : Env (Vec ℚ n) (ControlsOut ℚ) ℚ :=
  { getFoM := fun h c => w.user (h.map fun k => (k.ctl, k.ans)) c
    async := w.async, clock := w.clock, sqrt := w.sqrt, cdf := w.cdf }

/-- The search method of the dictionary (dCRABAlgorithm.py:67-70, 253-268, DirectSearchAlgorithm.py:60-68, 299-312). The loop of a
search is cut off after more steps than the budget allows, which never happens (C09). -/
def SearchSettings.dsm (w : Surroundings) (s : SearchSettings) (cfg : AlgCfg ℚ ℚ) (n : ℕ) : Option (Dsm ℚ (Vec ℚ n) ℚ) :=
  match s.method.method with
  | .nelderMead => some (nelderMead { adaptive := truthy s.method.adaptive, driftMinutes := cfg.driftMinutes
                                      driftAverage := cfg.driftAverage, argsort := w.num.argsort } (cfg.maxEvalTotal.toNat + 2))
  | .cmaes => s.method.population.goal?.map fun p => cmaes w.num p (cfg.maxEvalTotal.toNat + 2)
  | .other _ _ => none

/-- What the user sees of an optimization: the calls of the user's function, how the run ended, the reported figure of merit
and the controls returned by `get_best_controls`; also the attributes `FoM_list` and `iteration_number_list` of the algorithm object
(dCRABAlgorithm.py:180-183, read by the example scripts), what a graphical interface was told, and the file with the best controls after the
first `n` calls. -/
structure Outcome where
  calls : List Seen
  ended : Py Unit
  fom : ℚ
  best : Py (ControlsOut ℚ)
  foms : List ℚ
  numbers : List ℕ
  told : List (Signal (ControlsOut ℚ) ℚ)
  saved : ℕ → Py (Option ResultsDict)

/-- The number of search variables: coefficients of all pulses and parameters (Controls.py:98-107). -/
def ControlDicts.dim (c : ControlDicts) : ℕ := (c.pulses.map fun d => basisParams d.binsNumber d.basis).sum + c.params.length

/-- Creating and executing an optimizer (Optimizer.py:50-92). `none`: another algorithm or search method, or entries whose
types are not the documented ones. `some (.error e)`: the creation raises. -/
def optimize (w : Surroundings) (d : PDict) : Option (Py Outcome) :=
  match (createOptimizer w.lib d).1 with
  | .error e => some (.error e)
  | .ok c =>
    match c.alg with
    | .search s =>
      match s.cfg, mkControls w.lib.M s.controls.pulses s.controls.times s.controls.params with
      | some cfg, .ok o =>
        (s.dsm w cfg s.controls.dim).map fun dsm =>
          let ops := systemOps cfg.kind w.lib.M w.sqrt w.rnd w.draws
          let r := execute cfg (w.env s.controls.dim) ops dsm o
          .ok { calls := r.2.log.map fun k => (k.ctl, k.ans), ended := r.1, fom := finalFoM cfg r.2, best := bestControls ops r.2
                foms := r.2.fomList, numbers := r.2.iterList, told := r.2.signals
                saved := fun n => resultsFile cfg.kind c.dumpFormat s.core (r.2.dumps.filter fun k => k.calls ≤ n) }
      | _, .error e => some (.error e)
      | none, _ => none
    | _ => none

end QuOCS

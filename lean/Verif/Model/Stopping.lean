/-
Model of `src/quocslib/stoppingcriteria/`.
-/
import Verif.Model.Prog

namespace QuOCS

/-- The settings of a stopping-criteria object (StoppingCriteria.py:35-50, NelderMeadStoppingCriteria.py:34-35,
CMAESStoppingCriteria.py:35-36). Times are in minutes. -/
structure ScCfg (K F : Type) where
  maxEval : ℤ
  timeLim : ℚ
  xatol : K
  fatol : F
  /-- `change_based_stop["cbs_funct_evals"]` (default 1: inactive) -/
  cbsEvals : ℤ
  /-- `change_based_stop["cbs_change"]` -/
  cbsChange : F

/-- The mutable attributes of a stopping-criteria object. -/
structure Sc (F : Type) where
  isConverged : Bool
  reason : String
  /-- `direct_search_start_time` -/
  startTime : ℚ
  /-- `curr_FoM_track` -/
  track : List F

/-- Result of a single check: `[is_converged, terminate_reason]`. -/
abbrev Check := Bool × String

section
variable {K F : Type}

/-- `check_func_eval_single_direct_search` (StoppingCriteria.py:64-76). -/
def checkFuncEval (c : ScCfg K F) (evals : ℕ) : Check :=
  (decide ((evals : ℤ) ≥ c.maxEval), "Exceeded number of allowed function evaluations per direct search.")

/-- `check_simplex_criterion` (StoppingCriteria.py:78-90). `size` is
`np.max(np.ravel(np.abs(sim[1:] - sim[0])))`, which raises `ValueError` for an empty array. -/
def checkSimplex [LE K] [DecidableLE K] (c : ScCfg K F) (size : Py K) : Py Check :=
  match size with
  | .ok m => .ok (decide (m ≤ c.xatol), "Convergence of the simplex.")
  | .error e => .error e

/-- `np.mean` (the mean of an empty array is not modelled specially: it is `0/0 = 0` here, `nan` in NumPy). -/
def mean [Add F] [Div F] [Zero F] [NatCast F] (f : List F) : F := f.sum / (f.length : F)

/-- Population variance, i.e. the square of `np.std`. -/
def variance [Add F] [Sub F] [Mul F] [Div F] [Zero F] [NatCast F] (f : List F) : F :=
  mean (f.map (fun x => (x - mean f) * (x - mean f)))

/-- `check_f_size` (StoppingCriteria.py:92-106); `np.std` is `sqrt` of the variance. -/
def checkFSize [Add F] [Sub F] [Mul F] [Div F] [Zero F] [NatCast F] [LE F] [DecidableLE F]
    (sqrt : F → F) (c : ScCfg K F) (fsim : List F) : Check :=
  if sqrt (variance fsim) ≤ c.fatol then (true, "Convergence of the FoM (fatol).")
  else (false, "Convergence of the FoM.")

/-- `check_direct_search_time_out` (StoppingCriteria.py:114-127); `now` is `datetime.now()`. -/
def checkTimeOut (c : ScCfg K F) (sc : Sc F) (now : ℚ) : Check :=
  (decide (now - sc.startTime ≥ c.timeLim), "Optimization time for direct search exceeded limit.")

/-- `NelderMeadStoppingCriteria.check_stopping_criteria` (NelderMeadStoppingCriteria.py:38-77). -/
def nmCheck [LE K] [DecidableLE K]
    [Add F] [Sub F] [Mul F] [Div F] [Zero F] [NatCast F] [LE F] [DecidableLE F]
    (sqrt : F → F) (c : ScCfg K F) (sc : Sc F) (size : Py K) (fsim : List F) (evals : ℕ) (now : ℚ) : Py (Sc F) :=
  if sc.isConverged then .ok sc
  else
    let r1 := checkFuncEval c evals
    let sc := { sc with isConverged := r1.1, reason := r1.2 }
    if sc.isConverged then .ok sc
    else
      match checkSimplex c size with
      | .error e => .error e
      | .ok r2 =>
        let sc := { sc with isConverged := r2.1, reason := r2.2 }
        if sc.isConverged then .ok sc
        else
          let r3 := checkFSize sqrt c fsim
          let sc := { sc with isConverged := r3.1, reason := r3.2 }
          if sc.isConverged then .ok sc
          else
            let r4 := checkTimeOut c sc now
            -- lines 74-77: the reason is only overwritten when the check fires
            let sc := { sc with isConverged := r4.1 }
            if sc.isConverged then .ok { sc with reason := r4.2 } else .ok sc

/-- `CMAESStoppingCriteria.check_stopping_criteria` (CMAESStoppingCriteria.py:40-84). -/
def cmaCheck [Add F] [Sub F] [Mul F] [Div F] [Zero F] [NatCast F] [LE F] [DecidableLE F]
    (sqrt : F → F) (c : ScCfg K F) (sc : Sc F) (fsim : List F) (evals : ℕ) (now : ℚ) : Sc F :=
  if sc.isConverged then sc
  else
    let r1 := checkFuncEval c evals
    let sc := { sc with isConverged := r1.1, reason := r1.2 }
    if sc.isConverged then sc
    else
      let r3 := checkFSize sqrt c fsim
      let sc := { sc with isConverged := r3.1, reason := r3.2 }
      if sc.isConverged then sc
      else
        let r4 := checkTimeOut c sc now
        { sc with isConverged := r4.1, reason := r4.2 }

/-- `add_to_FoM_track` (StoppingCriteria.py:135-142). -/
def addToTrack (c : ScCfg K F) (sc : Sc F) (fom : F) : Sc F :=
  if c.cbsEvals > 1 then { sc with track := sc.track ++ [fom] } else sc

/-- Slope of the least-squares line through the points `(0, f_0), ..., (n-1, f_(n-1))`:
the first coefficient of `np.polyfit(range(n), f, 1)` in exact arithmetic. -/
def lsSlope [Add F] [Sub F] [Mul F] [Div F] [Zero F] [NatCast F] (f : List F) : F :=
  let n : F := (f.length : F)
  let xs : List F := (List.range f.length).map (fun (i : ℕ) => (i : F))
  let sx := xs.sum
  let sy := f.sum
  let sxy := (List.zipWith (· * ·) xs f).sum
  let sxx := (xs.map (fun x => x * x)).sum
  (n * sxy - sx * sy) / (n * sxx - sx * sx)

/-- `abs` of Python. -/
def pyAbs [Neg F] [Zero F] [LT F] [DecidableLT F] (x : F) : F := if x < 0 then -x else x

/-- `_check_cbs_stopping_crit` (StoppingCriteria.py:144-157). -/
def checkCbs [Add F] [Sub F] [Mul F] [Div F] [Neg F] [Zero F] [NatCast F] [LT F] [DecidableLT F]
    (c : ScCfg K F) (sc : Sc F) : Sc F :=
  let sc := { sc with reason := "Change-based stopping criterion reached." }
  let n := c.cbsEvals.toNat
  if sc.track.length ≥ n then
    let last := sc.track.drop (sc.track.length - n)
    let change := pyAbs (lsSlope last * (n : F))
    if change < c.cbsChange then { sc with isConverged := true } else sc
  else sc

/-- `check_advanced_stopping_criteria` (StoppingCriteria.py:159-169). The `try/except` only guards ill-typed settings,
which the model excludes by typing. -/
def checkAdvanced [Add F] [Sub F] [Mul F] [Div F] [Neg F] [Zero F] [NatCast F] [LT F] [DecidableLT F]
    (c : ScCfg K F) (sc : Sc F) : Sc F :=
  if c.cbsEvals > 1 then checkCbs c sc else sc

end
end QuOCS

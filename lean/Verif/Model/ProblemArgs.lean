/-
Model of the constructors of the control problems in src/quocslib/optimalcontrolproblems that read a dictionary of arguments:
OneQubitProblem.py, OneQubitProblem_2fields.py and RosenbrockProblem.py.
-/
import Verif.Model.Problems
import Verif.Model.Settings

namespace QuOCS

/-- `np.asarray(eval(args_dict.setdefault(k, v)), dtype="complex")` (OneQubitProblem.py:46-48, OneQubitProblem_2fields.py:48-52). `ev` is the value of
a text as a state. Simplification: states have two components. -/
def stateSetting (ev : String → Py Ket) (k v : String) : Prog PDict Ket := do
  let x ← setdefault k (.str v)
  match x with
  | .atom (.str s) => Prog.lift (ev s)
  | _ => Prog.lift (.error .typeError)

/-- `args_dict.setdefault(k, False)`, used as a condition (e.g. OneQubitProblem.py:55, 106). -/
def flagSetting (k : String) : Prog PDict Bool := do
  let x ← setdefault k (.bool false)
  pure (truthy x)

/-- The texts of the default states (OneQubitProblem.py:46-48). -/
def defaultTarget : String := "[1.0/np.sqrt(2), -1j/np.sqrt(2)]"
@[inherit_doc defaultTarget] def defaultInitial : String := "[1.0, 0.0]"

/-- `OneQubit.__init__` (OneQubitProblem.py:46-71) for a dictionary. Simplification: numbers are read as numbers at once. -/
def oneQubitArgs (ev : String → Py Ket) : Prog PDict OneQubit := do
  let target ← stateSetting ev "target_state" defaultTarget
  let psi0 ← stateSetting ev "initial_state" defaultInitial
  let delta1 ← numSetting "delta1" (1 / 10)
  let delta2 ← numSetting "delta2" (1 / 10)
  let noisy ← flagSetting "is_noisy"
  let factor ← numSetting "noise_factor" (1 / 20)
  let drift ← flagSetting "include_drift"
  let slope ← numSetting "linear_drift_val_over_iteration" (1 / 500)
  let opt ← numSetting "optimization_factor" (-1)
  pure { target := target, psi0 := psi0, delta1 := delta1, delta2 := delta2, isNoisy := noisy, noiseFactor := factor, includeDrift := drift,
         driftSlope := slope, optFactor := opt, fomList := [], evalNumber := 0 }

/-- `OneQubit2Fields.__init__` (OneQubitProblem_2fields.py:48-60) for a dictionary. Simplification: as above. -/
def twoFieldsArgs (ev : String → Py Ket) : Prog PDict TwoFields := do
  let target ← stateSetting ev "target_state" defaultTarget
  let psi0 ← stateSetting ev "initial_state" defaultInitial
  let delta1 ← numSetting "delta1" (1 / 10)
  let delta2 ← numSetting "delta2" (1 / 10)
  let noisy ← flagSetting "is_noisy"
  let factor ← numSetting "noise_factor" (1 / 20)
  pure { target := target, psi0 := psi0, delta1 := delta1, delta2 := delta2, isNoisy := noisy, noiseFactor := factor }

/-- `Rosenbrock.__init__` (RosenbrockProblem.py:33-34) for a dictionary: the attributes `is_noisy` and `noise_factor`. -/
def rosenbrockArgs : Prog PDict (Bool × ℝ) := do
  let noisy ← flagSetting "is_noisy"
  let factor ← numSetting "noise_factor" (1 / 20)
  pure (noisy, (factor : ℝ))

/-- The constructors with or without a dictionary. Without one, `OneQubit` and `OneQubit2Fields` use an empty one (OneQubitProblem.py:43-44,
OneQubitProblem_2fields.py:45-46). -/
def oneQubitInit (ev : String → Py Ket) : Option PDict → Py OneQubit
  | none => (oneQubitArgs ev .nil).1
  | some d => (oneQubitArgs ev d).1
@[inherit_doc oneQubitInit] def twoFieldsInit (ev : String → Py Ket) : Option PDict → Py TwoFields
  | none => (twoFieldsArgs ev .nil).1
  | some d => (twoFieldsArgs ev d).1

/-- `Rosenbrock(args_dict)`: the default value `None` of the argument has no method `setdefault` (RosenbrockProblem.py:27, 33). -/
def rosenbrockInit : Option PDict → Py (Bool × ℝ)
  | none => .error .attributeError
  | some d => (rosenbrockArgs d).1

end QuOCS

/-
Starting a new optimization from the results of an earlier one.
-/
import Verif.Spec.Controls
import Verif.Spec.Usable
import Verif.Spec.EndToEnd
import Verif.Model.Algorithm

namespace QuOCS

section
variable {K : Type}

/-- The pulse with earlier samples as initial guess (`"initial_guess": {"function_type": "list_function", "list_function": u}`). -/
def PulseDict.startingFrom (d : PulseDict K) (u : List K) : PulseDict K := { d with guess := .array u }

/-- The parameter with an earlier value as `"initial_value"`. -/
def ParamDict.startingFrom (d : ParamDict K) (v : K) : ParamDict K := { d with initialValue := v }

/-- The user's list of pulses with earlier pulses as initial guesses. -/
def pulsesFrom (pd : List (PulseDict K)) (out : ControlsOut K) : List (PulseDict K) :=
  List.zipWith PulseDict.startingFrom pd out.pulses

/-- The user's list of parameters with earlier parameters as initial values. -/
def paramsFrom (rd : List (ParamDict K)) (out : ControlsOut K) : List (ParamDict K) :=
  List.zipWith ParamDict.startingFrom rd out.parameters

/-- The pulse is not rescaled: the scaling is one in every bin (the default). -/
def UnitScaling [One K] (d : PulseDict K) : Prop :=
  d.scaling = .array (List.replicate d.binsNumber 1) ∨
    ∃ f, d.scaling = .callable f ∧ ∀ t : List K, f t = List.replicate t.length 1

end

section
variable {K : Type} [Field K] [LinearOrder K]

/-- The conditions on the user's lists under which results can be continued. -/
structure Continuable (pd : List (PulseDict K)) (td : List (TimeDict K)) (rd : List (ParamDict K)) : Prop where
  usable : Usable pd td rd
  shaping : ∀ d ∈ pd, d.shapingOptions = none
  scaling : ∀ d ∈ pd, UnitScaling d
  bins : ∀ d ∈ pd, 2 ≤ d.binsNumber
  bases : ∀ d ∈ pd, ∀ n m f, d.basis ≠ .custom n m f
  times : FixedTimes td
  limits : ∀ d ∈ rd, d.lower ≤ d.upper

end

/-- The user's function has no memory: its answer depends on the controls only. -/
def Memoryless {V C F : Type} (env : Env V C F) (user : C → Py (Answer F)) : Prop := ∀ log c, env.getFoM log c = user c

/-- Every recorded call has the answer that the user's function gave after the earlier calls. -/
def Answered {V C F : Type} (env : Env V C F) (log : List (Call V C F)) : Prop :=
  ∀ before c after, log = before ++ c :: after → c.ans = env.getFoM before c.ctl

end QuOCS

/-
Vocabulary for whole optimizations with repeated measurements: entries of the optimization dictionary and the calls the user sees.
-/
import Verif.Spec.Program
import Verif.Spec.ReEval
import Mathlib.Data.List.ReduceOption

namespace QuOCS

/-- If the dictionary gives the steps of the re-evaluation, there is at least one. -/
def HasSteps (lib : PyLib) (d : PDict) : Prop :=
  ∀ v, entry d ["algorithm_settings", "re_evaluation", "re_evaluation_steps"] = some v → ¬ IsArray lib v []

/-- If the dictionary gives the steps of the re-evaluation, there is at least one; and no drift compensation by minutes. With or without
re-evaluation, with or without drift compensation after super-iterations. -/
structure RepeatedMeasurements (lib : PyLib) (d : PDict) : Prop where
  steps : HasSteps lib d
  minutes : ∀ m : ℚ, setting d ["algorithm_settings", "compensate_drift", "compensate_after_minutes"] (.num 0) = .num m → m ≤ 0

/-- The number of measurements of a drift compensation is at least one. -/
def AveragesSomething (d : PDict) : Prop :=
  ∀ q : ℚ, setting d ["algorithm_settings", "compensate_drift", "num_average"] (.num 1) = .num q → 1 ≤ q

/-- The dictionary asks for re-evaluation or for drift compensation by minutes. -/
def MeasuresAgain (d : PDict) : Prop :=
  entry d ["algorithm_settings", "re_evaluation"] ≠ none ∨
  ∃ m : ℚ, setting d ["algorithm_settings", "compensate_drift", "compensate_after_minutes"] (.num 0) = .num m ∧ 0 < m

/-- The last call failed with `e`: the user's function raised `e`, or it returned no figure of merit (`None`), which Python notices
as a `TypeError` when the value is multiplied. -/
def LastCallFailed (calls : List Seen) (e : PyErr) : Prop :=
  ∃ before c, calls = before ++ [c] ∧ (c.2 = .error e ∨ (e = .typeError ∧ ∃ a, c.2 = .ok a ∧ a.fom = none))

/-- What counts for a measurement of a group: the figure of merit that the call returned or, for a call that was not made because the
optimization had been stopped, the start value: `10 ^ 10`, for a maximization `-10 ^ 10`. -/
inductive SeenCounts (d : PDict) : Option Seen → ℚ → Prop
  | made {c : Seen} {f : ℚ} : c.value = some f → SeenCounts d (some c) f
  | skippedMax : Maximizes d → SeenCounts d none (-10 ^ 10)
  | skippedMin : ¬ Maximizes d → SeenCounts d none (10 ^ 10)

/-- `v` is the mean over a group of measurements, at least one of them a call, the calls directly after each other in `calls` and
all with the controls `best`. -/
def MeanOverCalls (d : PDict) (calls : List Seen) (best : ControlsOut ℚ) (v : ℚ) : Prop :=
  ∃ (group : List (Option Seen)) (fs : List ℚ), (∃ c, some c ∈ group) ∧ group.reduceOption <:+: calls ∧
    (∀ c, some c ∈ group → c.1 = best) ∧ List.Forall₂ (SeenCounts d) group fs ∧ v = average fs

end QuOCS

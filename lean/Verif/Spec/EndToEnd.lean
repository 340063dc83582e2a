/-
What a user may expect of the controls they get in a whole run, in terms of their lists of pulses, times and parameters.
-/
import Verif.Spec.Controls
import Verif.Spec.Pulse

namespace QuOCS

section
variable {K : Type} [Field K] [LinearOrder K]

/-- The entry of the list of times that a pulse refers to: the last one with this name. -/
def lastNamed (td : List (TimeDict K)) (n : String) : Option (TimeDict K) := td.reverse.find? (fun d => decide (d.name = n))

/-- `T` is a duration allowed by the user: the given value, or a value within the limits if the time is optimized. -/
def AllowedDuration (d : TimeDict K) (T : K) : Prop :=
  (d.isOptimization = false → T = d.initialValue) ∧
  (d.isOptimization = true → min d.lower d.upper ≤ T ∧ T ≤ max d.lower d.upper)

/-- A delivered pulse `u` with its time grid `t`, for the description `d` of the pulse. -/
structure AdmissiblePulse (td : List (TimeDict K)) (d : PulseDict K) (u t : List K) : Prop where
  limits : LimitLast d → ∀ s ∈ u, min d.lowerLimit d.upperLimit ≤ s ∧ s ≤ max d.lowerLimit d.upperLimit
  samples : 2 ≤ d.binsNumber → ScalingKeepsLength d.scaling → u.length = d.binsNumber
  grid : t.length = d.binsNumber ∧ ∃ time T, lastNamed td d.timeName = some time ∧ AllowedDuration time T ∧
    ∀ i, i < d.binsNumber → t[i]? = some (i * (T / (d.binsNumber - 1 : ℕ)))

/-- A delivered set of controls. -/
structure Admissible (pd : List (PulseDict K)) (td : List (TimeDict K)) (rd : List (ParamDict K)) (o : ControlsOut K) : Prop where
  number : o.pulses.length = pd.length ∧ o.timegrids.length = pd.length ∧ o.parameters.length = rd.length
  pulses : ∀ (i : ℕ) (d : PulseDict K) (u t : List K), pd[i]? = some d → o.pulses[i]? = some u → o.timegrids[i]? = some t →
    AdmissiblePulse td d u t
  parameters : ∀ (j : ℕ) (d : ParamDict K) (v : K), rd[j]? = some d → o.parameters[j]? = some v → d.lower ≤ d.upper →
    d.lower ≤ v ∧ v ≤ d.upper

/-- The largest number of bins. -/
def width (pd : List (PulseDict K)) : ℕ := (pd.map (·.binsNumber)).foldl max 0

/-- A set of controls in a run with automatic differentiation: the rows of two arrays. Each row starts with the samples of an
admissible pulse (time grid), the rest is filled with zeros. -/
structure AdmissibleRows (pd : List (PulseDict K)) (td : List (TimeDict K)) (rd : List (ParamDict K)) (o : ControlsOut K) : Prop where
  number : o.pulses.length = pd.length ∧ o.timegrids.length = pd.length ∧ o.parameters.length = rd.length
  pulses : ∀ (i : ℕ) (d : PulseDict K) (row grid : List K), pd[i]? = some d → o.pulses[i]? = some row →
    o.timegrids[i]? = some grid → 2 ≤ d.binsNumber → ScalingKeepsLength d.scaling →
    ∃ u t, AdmissiblePulse td d u t ∧ row = u ++ List.replicate (width pd - d.binsNumber) 0 ∧
      grid = t ++ List.replicate (width pd - d.binsNumber) 0
  parameters : ∀ (j : ℕ) (d : ParamDict K) (v : K), rd[j]? = some d → o.parameters[j]? = some v → d.lower ≤ d.upper →
    d.lower ≤ v ∧ v ≤ d.upper

/-- Every pulse is sampled with the same number of bins. -/
def SameBins (pd : List (PulseDict K)) : Prop := ∀ d ∈ pd, ∀ d' ∈ pd, d.binsNumber = d'.binsNumber

end
end QuOCS

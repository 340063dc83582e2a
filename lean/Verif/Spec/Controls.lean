/-
Vocabulary used to state the properties of the controls object.
-/
import Verif.Model.Controls
import Verif.Spec.Pulse

namespace QuOCS

section
variable {K : Type*} [Field K] [LinearOrder K]

/-- `ControlsReach M pd td rd c`: the object `c` was constructed from the user's lists of pulses, times and parameters
and then went through any sequence of calls of its public methods. -/
inductive ControlsReach (M : MathFns K) (pd : List (PulseDict K)) (td : List (TimeDict K)) (rd : List (ParamDict K)) :
    Controls K → Prop
  | create {c : Controls K} : mkControls M pd td rd = .ok c → ControlsReach M pd td rd c
  | select {c c' : Controls K} {rnd : ℕ → List K} :
      ControlsReach M pd td rd c → c.selectBasis rnd = .ok c' → ControlsReach M pd td rd c'
  | get {c c' : Controls K} {x : List K} {o : ControlsOut K} :
      ControlsReach M pd td rd c → c.getControls M x = .ok (c', o) → ControlsReach M pd td rd c'
  | bare {c c' : Controls K} {x : List K} {o : List (List K)} :
      ControlsReach M pd td rd c → c.getBare M x = .ok (c', o) → ControlsReach M pd td rd c'
  | base {c c' : Controls K} {x : List K} :
      ControlsReach M pd td rd c → c.updateBase M x = .ok c' → ControlsReach M pd td rd c'

/-- The slots of the search vector owned by each control: first the pulses, then the parameters, in the order of the
user's lists. -/
def Controls.slots (c : Controls K) : List (List ℕ) :=
  c.pulses.map (·.ctrlList) ++ c.params.map (·.ctrlList)

/-- No evolution time is optimized. -/
def FixedTimes (td : List (TimeDict K)) : Prop := ∀ d ∈ td, d.isOptimization = false

/-- Number of coefficients the user's choice of basis introduces (documented per basis). -/
def PulseDict.declared (d : PulseDict K) : ℕ := basisParams d.binsNumber d.basis

/-- Documented initial step of every coefficient of a pulse: the amplitude variation, divided by `sqrt 2` for the
expansions in random frequencies. -/
def PulseDict.startSize (M : MathFns K) (d : PulseDict K) : K :=
  match d.basis with
  | .fourier _ | .chebyshev _ | .sinc _ _ | .walsh _ => d.amplitudeVariation / M.sqrt2
  | _ => d.amplitudeVariation

/-- With all coefficients zero the update of a pulse built from `d` is zero, whatever basis was drawn. -/
def ZeroUpdate (M : MathFns K) (d : PulseDict K) : Prop :=
  ∀ p, PulseReach M d p → ∀ T, ∃ q, p.getBarePulse M (zeros d.declared) T = .ok (q, zeros d.binsNumber)

/-- Shaping options that keep the results of earlier super-iterations: the default, or a list in which the base pulse and directly after
it the new update are added, both once. Anything else (guess, scaling, limits, unknown names) may come before and after. -/
def KeepsBase (d : PulseDict K) : Prop :=
  d.shapingOptions = none ∨ ∃ pre post, d.shapingOptions = some (pre ++ "add_base_pulse" :: "add_new_update_pulse" :: post) ∧
    ∀ s ∈ pre ++ post, s ≠ "add_base_pulse" ∧ s ≠ "add_new_update_pulse"

/-- The standard configuration: shaping options that keep the base pulse, base pulses accumulate, zero coefficients mean no update, no optimized
time, ordered limits of the parameters. -/
structure StandardControls (M : MathFns K) (pd : List (PulseDict K)) (td : List (TimeDict K)) (rd : List (ParamDict K)) :
    Prop where
  shaping : ∀ d ∈ pd, KeepsBase d
  accumulate : ∀ d ∈ pd, d.overwrite = false
  zero : ∀ d ∈ pd, ZeroUpdate M d
  times : FixedTimes td
  limits : ∀ d ∈ rd, d.lower ≤ d.upper

end
end QuOCS

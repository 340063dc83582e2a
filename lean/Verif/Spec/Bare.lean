/-
Vocabulary for C113: pulses without guess and scaling.
-/
import Verif.Spec.Controls

namespace QuOCS

section
variable {K : Type*} [Field K] [LinearOrder K]

/-- `pulse` belongs to the bare pulse `bare`, for a pulse with the dictionary `d`, default shaping and limits by cutting: guess (cut to the limits)
plus bare pulse, multiplied by the scaling, cut to the limits, in every bin. `sc` and `g` are the samples of scaling and guess, given as arrays or as
functions of the time grid. -/
def FromBare (d : PulseDict K) (grid bare pulse : List K) : Prop :=
  let cut := fun y => max (min y (max d.lowerLimit d.upperLimit)) (min d.lowerLimit d.upperLimit)
  ∀ sc g : List K, (d.scaling = .array sc ∨ ∃ f, d.scaling = .callable f ∧ f grid = sc) →
    (d.guess = .array g ∨ ∃ f, d.guess = .callable f ∧ f grid = g) → sc.length = d.binsNumber → g.length = d.binsNumber →
    pulse = List.zipWith (fun s y => cut (s * y)) sc (List.zipWith (fun y b => cut y + b) g bare)

end
end QuOCS

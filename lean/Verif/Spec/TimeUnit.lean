/-
Vocabulary for C102: the same optimization problem with another unit of time.
-/
import Verif.Spec.Recoord

namespace QuOCS

section
variable {K : Type} [Field K] [LinearOrder K]

/-- A time in the unit that is `α` times smaller: what was `t` is now `α * t` (nanoseconds instead of microseconds: `α = 1000`). -/
def timesInUnit (α : K) (ts : List K) : List K := ts.map (α * ·)

/-- The same function of time, for time grids in the new unit: a callable converts the time grid back, an array stays what it is. -/
def Sampler.inTimeUnit (α : K) : Sampler K → Sampler K
  | .callable f => .callable fun t => f (t.map (· / α))
  | .array l => .array l

/-- The same scaling function, for time grids in the new unit. -/
def Scaling.inTimeUnit (α : K) : Scaling K → Scaling K
  | .callable f => .callable fun t => f (t.map (· / α))
  | .callable2 f => .callable2 fun t u => f (t.map (· / α)) u
  | .array l => .array l

/-- The settings of the basis in the new unit: offset, step width and the variation of the step times of the sigmoid bases are times. The
variation of the step widths is a number. -/
def Basis.inTimeUnit (α : K) : Basis K → Basis K
  | .sigmoid n o s => .sigmoid n (α * o) (α * s)
  | .sigmoidTimeDep n o s tv => .sigmoidTimeDep n (α * o) (α * s) (α * tv)
  | .sigmoidSigmas n o s sv => .sigmoidSigmas n (α * o) (α * s) sv
  | .sigmoidAllParas n o s tv sv => .sigmoidAllParas n (α * o) (α * s) (α * tv) sv
  | b => b

/-- The unit of the super-parameters: the Sinc and sigmoid bases draw times, the others draw numbers (of oscillations in the whole pulse). -/
def Basis.superUnit (α : K) : Basis K → K
  | .sinc _ _ => α
  | .sigmoid _ _ _ => α
  | .sigmoidTimeDep _ _ _ _ => α
  | .sigmoidSigmas _ _ _ _ => α
  | .sigmoidAllParas _ _ _ _ _ => α
  | _ => 1

/-- The pulse declared in the new unit of time. -/
def PulseDict.inTimeUnit (α : K) (d : PulseDict K) : PulseDict K :=
  { d with guess := d.guess.inTimeUnit α, scaling := d.scaling.inTimeUnit α, basis := d.basis.inTimeUnit α
           wLower := d.basis.superUnit α * d.wLower, wUpper := d.basis.superUnit α * d.wUpper }

/-- The time declared in the new unit. -/
def TimeDict.inTimeUnit (α : K) (d : TimeDict K) : TimeDict K :=
  { d with initialValue := α * d.initialValue, lower := α * d.lower, upper := α * d.upper
           amplitudeVariation := α * d.amplitudeVariation }

/-- What the basis compares with the fixed number `1e-10` comes out the same in both units: the two bases with optimized step widths do so with
the offset and the variation of the step times. A basis written by the user depends on the time only in relation to the duration of the pulse. -/
def Basis.UnitFree (α : K) : Basis K → Prop
  | .sigmoidSigmas _ o _ _ => 1 / 10 ^ 10 ≤ o ∧ 1 / 10 ^ 10 ≤ α * o
  | .sigmoidAllParas _ o _ tv sv => (1 / 10 ^ 10 ≤ α * o ↔ 1 / 10 ^ 10 ≤ o) ∧ (1 / 10 ^ 10 < α * tv ↔ 1 / 10 ^ 10 < tv) ∧
      (1 / 10 ^ 10 < sv → 1 / 10 ^ 10 ≤ o)
  | .custom _ _ f => ∀ w x t T, f w x (timesInUnit α t) (α * T) = f w x t T
  | _ => True

/-- The delivered controls with the time grids in the new unit; pulses and parameters are the same. -/
def ControlsOut.inTimeUnit (α : K) (o : ControlsOut K) : ControlsOut K := { o with timegrids := o.timegrids.map (timesInUnit α) }

end
end QuOCS

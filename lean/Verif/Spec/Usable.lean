/-
What makes an optimization dictionary usable: conditions on the user's lists of pulses, times and parameters only.
-/
import Verif.Spec.Controls

namespace QuOCS

section
variable {K : Type*} [Field K] [LinearOrder K]

/-- An array that NumPy can combine with `bins` samples: `bins` entries, or a single number. -/
def Fits (bins : ℕ) (l : List K) : Prop := l.length = bins ∨ l.length = 1

/-- The initial guess can be combined with the pulse. -/
def Sampler.Usable (bins : ℕ) : Sampler K → Prop
  | .callable f => ∀ t : List K, t.length = bins → Fits bins (f t)
  | .array l => Fits bins l

/-- The scaling function can be combined with the pulse. -/
def Scaling.Usable (bins : ℕ) : Scaling K → Prop
  | .callable f => ∀ t : List K, t.length = bins → Fits bins (f t)
  | .callable2 f => ∀ t u : List K, t.length = bins → u.length = bins → (f t u).length = bins
  | .array l => Fits bins l

/-- The basis: the two sigmoid bases that move their steps need at least one step; a basis written by the user always
builds a pulse with the right number of samples. -/
def Basis.Usable (bins : ℕ) : Basis K → Prop
  | .sigmoidTimeDep n _ _ _ => 1 ≤ n
  | .sigmoidAllParas n _ _ _ _ => 1 ≤ n
  | .custom _ _ f => ∀ w x t T, ∃ u : List K, f w x t T = .ok u ∧ u.length = bins
  | _ => True

/-- A usable entry of the list of pulses: at least one time bin, at least one coefficient, guess and scaling that fit,
and a time that is in the list of times. -/
structure UsablePulse (td : List (TimeDict K)) (d : PulseDict K) : Prop where
  bins : 1 ≤ d.binsNumber
  coefficients : 1 ≤ d.declared
  basis : d.basis.Usable d.binsNumber
  guess : d.guess.Usable d.binsNumber
  scaling : d.scaling.Usable d.binsNumber
  time : ∃ t ∈ td, t.name = d.timeName

/-- A usable optimization dictionary: something to optimize, usable pulses, and an optimized duration has an interval
with two different ends. -/
structure Usable (pd : List (PulseDict K)) (td : List (TimeDict K)) (rd : List (ParamDict K)) : Prop where
  nonempty : pd ≠ [] ∨ rd ≠ []
  pulses : ∀ d ∈ pd, UsablePulse td d
  times : ∀ t ∈ td, t.isOptimization = true → t.upper ≠ t.lower

/-- The number of search variables: one per declared coefficient and one per parameter. -/
def searchDim (pd : List (PulseDict K)) (rd : List (ParamDict K)) : ℕ := (pd.map (·.declared)).sum + rd.length

/-- The source of random numbers yields at least the numbers asked for (`np.random.rand(n)`). -/
def EnoughRandom (pd : List (PulseDict K)) (rnd : ℕ → List K) : Prop :=
  ∀ i d, pd[i]? = some d → basisSuper d.basis ≤ (rnd i).length

end
end QuOCS

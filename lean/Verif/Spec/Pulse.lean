/-
Vocabulary used to state the properties of pulses.
-/
import Verif.Model.Pulse

namespace QuOCS

section
variable {K : Type*} [Field K] [LinearOrder K]

/-- `PulseReach M d p`: the pulse object `p` was constructed from the user's dictionary `d` and then went through any
sequence of calls of its public methods (in any order, any number of super-iterations).
`inputs` covers calls that ended with an exception after the inputs had been stored. -/
inductive PulseReach (M : MathFns K) (d : PulseDict K) : Pulse K → Prop
  | create {mi : ℤ} {p : Pulse K} : mkPulse M mi d = .ok p → PulseReach M d p
  | inputs {p : Pulse K} (x : List K) (T : K) : PulseReach M d p → PulseReach M d (p.setInputs x T)
  | get {p q : Pulse K} {x u : List K} {T : K} :
      PulseReach M d p → p.getPulse M x T = .ok (q, u) → PulseReach M d q
  | bare {p q : Pulse K} {x u : List K} {T : K} :
      PulseReach M d p → p.getBarePulse M x T = .ok (q, u) → PulseReach M d q
  | base {p q : Pulse K} {x : List K} {T : K} :
      PulseReach M d p → p.setBasePulse M x T = .ok q → PulseReach M d q
  | draw {p q : Pulse K} {rnd : List K} : PulseReach M d p → p.drawSuper rnd = .ok q → PulseReach M d q
  | index {p : Pulse K} (mi : ℤ) : PulseReach M d p → PulseReach M d (p.setCtrlList mi)

/-- `BaseHist M d p us`: as `PulseReach`, and `us` are the bare update pulses (what `get_bare_pulse` would return) of
the super-iterations finished so far, i.e. of all calls of `set_base_pulse`, in order. -/
inductive BaseHist (M : MathFns K) (d : PulseDict K) : Pulse K → List (List K) → Prop
  | create {mi : ℤ} {p : Pulse K} : mkPulse M mi d = .ok p → BaseHist M d p []
  | inputs {p : Pulse K} {us : List (List K)} (x : List K) (T : K) :
      BaseHist M d p us → BaseHist M d (p.setInputs x T) us
  | get {p q : Pulse K} {us : List (List K)} {x u : List K} {T : K} :
      BaseHist M d p us → p.getPulse M x T = .ok (q, u) → BaseHist M d q us
  | bare {p q : Pulse K} {us : List (List K)} {x u : List K} {T : K} :
      BaseHist M d p us → p.getBarePulse M x T = .ok (q, u) → BaseHist M d q us
  | draw {p q : Pulse K} {us : List (List K)} {rnd : List K} :
      BaseHist M d p us → p.drawSuper rnd = .ok q → BaseHist M d q us
  | index {p : Pulse K} {us : List (List K)} (mi : ℤ) : BaseHist M d p us → BaseHist M d (p.setCtrlList mi) us
  | base {p q q' : Pulse K} {us : List (List K)} {x u : List K} {T : K} :
      BaseHist M d p us → p.getBarePulse M x T = .ok (q', u) → p.setBasePulse M x T = .ok q →
      BaseHist M d q (us ++ [u])

/-- The last shaping option is `limit_pulse`: the default, or the user's list ends with it. -/
def LimitLast (d : PulseDict K) : Prop :=
  d.shapingOptions = none ∨ ∃ pre, d.shapingOptions = some (pre ++ ["limit_pulse"])

/-- The five documented shaping option names. -/
def knownShapingNames : List String :=
  ["add_initial_guess", "add_base_pulse", "add_new_update_pulse", "scale_pulse", "limit_pulse"]

/-- A scaling function of two arguments `(time_grid, pulse)` returns as many samples as the pulse has. -/
def ScalingKeepsLength (s : Scaling K) : Prop :=
  ∀ f, s = .callable2 f → ∀ t u, (f t u).length = u.length

/-- Sample-wise linear combination `a * x + b * y`. -/
def lincomb (a b : K) (x y : List K) : List K := List.zipWith (fun s t => a * s + b * t) x y

end
end QuOCS

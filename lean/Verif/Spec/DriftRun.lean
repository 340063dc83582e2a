/-
Vocabulary for dCRAB optimizations with drift compensation between the super-iterations.
-/
import Verif.Spec.DcrabSearch

namespace QuOCS

section
variable {K V C F : Type} [Neg F] [LT F] [Add F] [Div F] [Zero F] [NatCast F]

/-- The call `c` returned a figure of merit, `v` is its value (negated for a maximization). -/
def ReturnsValue (cfg : AlgCfg K F) (c : Call V C F) (v : F) : Prop := ∃ f, c.value = some f ∧ v = dirMul cfg.maximize f

/-- The values `vs` of `number` measurements `comp` give the new value `b`: their average. -/
def AverageOf (cfg : AlgCfg K F) (number : ℕ) (comp : List (Call V C F)) (b : F) : Prop :=
  comp.length = number ∧ ∃ vs, List.Forall₂ (ReturnsValue cfg) comp vs ∧ b = vs.foldl (· + ·) 0 / (number : F)

/-- The vector `x` and the value `b'` kept at the end of a search with the calls `calls`, which started at `x0` with the value `b` to beat:
those of the best call if it beats `b`, else the start. -/
def KeptFrom (cfg : AlgCfg K F) (b : F) (calls : List (Call V C F)) (x0 x : V) (b' : F) : Prop :=
  (∀ c ∈ calls, ∀ v, ReturnsValue cfg c v → ¬ v < b') ∧
  (x = x0 ∧ b' = b ∨ ∃ c ∈ calls, ReturnsValue cfg c b' ∧ x = c.vec ∧ b' < b)

/-- A measurement of the drift compensation: the pulses of the call are the base pulses `bs` without an update, the parameters have the
values `vals`. -/
def ShowsStart (pd : List (PulseDict ℝ)) (rd : List (ParamDict ℝ)) (T : String → ℝ) (bs : List (List ℝ)) (vals : List ℝ) {n : ℕ}
    (c : Call (Vec ℝ n) (ControlsOut ℝ) F) : Prop :=
  StartsAt pd vals (List.ofFn c.vec) ∧ NoUpdate pd (List.ofFn c.vec) ∧
    (∃ ws, CallShows pd T ws bs (List.ofFn c.vec) c.ctl) ∧ ParameterValues pd rd (List.ofFn c.vec) c.ctl.parameters

/-- How a run ends: normally with the object or the controls `a` and the value `v` kept, with an exception, or stopped (or with an exception)
during the measurements of a drift compensation. -/
inductive RunEnd (A F : Type) where
  | kept (a : A) (v : F)
  | failed
  | inMeasurements

/-- The average of the figures of merit of the measurements `comp`. -/
def MeanOfValues (number : ℕ) (comp : List (C × Option F)) (v : F) : Prop :=
  comp.length = number ∧ ∃ fs : List F, comp.map Prod.snd = fs.map some ∧ v = fs.sum / (number : F)

/-- A dCRAB run with drift compensation, in terms of the controls and figures of merit of the calls: at most `m` super-iterations, the first
one with number `k`, with the current controls `cur` and the value `v` to beat. `better x y`: the figure of merit `x` is better than `y`;
`number`: measurements in a compensation.
* Every super-iteration except the first one begins with `number` measurements of the current controls; their mean becomes the value to beat.
* If a call of the search beats it, the controls of the best call become the current ones, with its figure of merit. -/
inductive ReMeasures (better : F → F → Prop) (number : ℕ) : ℕ → ℕ → C → F → List (C × Option F) → RunEnd C F → Prop
  /-- no further super-iteration -/
  | stop (m k cur v) : ReMeasures better number m k cur v [] (.kept cur v)
  /-- the run ends during the measurements -/
  | measuring {m k cur v comp} (hk : 2 ≤ k) (hc : ∀ c ∈ comp, c.1 = cur) (hl : comp.length ≤ number) :
      ReMeasures better number (m + 1) k cur v comp .inMeasurements
  /-- the run fails before the first call -/
  | nothing (m k cur v) : ReMeasures better number m k cur v [] .failed
  /-- the run fails during a search -/
  | fails {m k cur v comp calls} (v1 : F) (hc : ∀ c ∈ comp, c.1 = cur)
      (hv : if 2 ≤ k then MeanOfValues number comp v1 else comp = [] ∧ v1 = v) :
      ReMeasures better number (m + 1) k cur v (comp ++ calls) .failed
  /-- a super-iteration with the measurements `comp` and the calls `calls`, and the super-iterations after it -/
  | next {m k cur v comp calls rest fin} (v1 v2 : F) (cur2 : C) (hc : ∀ c ∈ comp, c.1 = cur)
      (hv : if 2 ≤ k then MeanOfValues number comp v1 else comp = [] ∧ v1 = v)
      (hall : ∀ c ∈ calls, ∀ f, c.2 = some f → ¬ better f v2)
      (hkept : cur2 = cur ∧ v2 = v1 ∨ (cur2, some v2) ∈ calls ∧ better v2 v1)
      (hr : ReMeasures better number m (k + 1) cur2 v2 rest fin) : ReMeasures better number (m + 1) k cur v (comp ++ calls ++ rest) fin

/-- The calls of at most `m` super-iterations, the first one with number `k`, with the base pulses `bs`, the parameter values `vals` and the
value `b` to beat. The last index is the value at the end. `Search k x0 sizes calls`: what is known about the calls of the search of
super-iteration `k` from `x0` with the start sizes `sizes`. -/
inductive DriftRun (cfg : AlgCfg K F) (pd : List (PulseDict ℝ)) (rd : List (ParamDict ℝ)) (T : String → ℝ) (rnd : ℕ → ℕ → List ℝ) {n : ℕ}
    (Search : ℕ → Vec ℝ n → Vec ℝ n → List (Call (Vec ℝ n) (ControlsOut ℝ) F) → Prop) : ℕ → ℕ → List (List ℝ) → List ℝ → F → List (Call (Vec ℝ n) (ControlsOut ℝ) F) → F → Prop
  /-- no further super-iteration -/
  | stop (m k bs vals b) : DriftRun cfg pd rd T rnd Search m k bs vals b [] b
  /-- the run ends during the drift compensation -/
  | broken {m k bs vals b comp} (b' : F) (hk : 2 ≤ k) (hc : ∀ c ∈ comp, ShowsStart pd rd T bs vals c) (hl : comp.length ≤ cfg.driftAverage) :
      DriftRun cfg pd rd T rnd Search (m + 1) k bs vals b comp b'
  /-- the last super-iteration -/
  | last {m k bs vals b comp calls} (b1 b2 : F) (ws : List (List ℝ)) (x0 sizes x : Vec ℝ n)
      (hc : ∀ c ∈ comp, ShowsStart pd rd T bs vals c)
      (hb : if 2 ≤ k then AverageOf cfg cfg.driftAverage comp b1 else comp = [] ∧ b1 = b)
      (hw : NewFrequencies pd (rnd k) ws) (h0 : StartsAt pd vals (List.ofFn x0)) (h1 : StartSizes pd rd (List.ofFn sizes))
      (hq : Search k x0 sizes calls)
      (hs : ∀ c ∈ calls, CallShows pd T ws bs (List.ofFn c.vec) c.ctl ∧ ParameterValues pd rd (List.ofFn c.vec) c.ctl.parameters)
      (hk : KeptFrom cfg b1 calls x0 x b2) : DriftRun cfg pd rd T rnd Search (m + 1) k bs vals b (comp ++ calls) b2
  /-- a super-iteration with the measurements `comp` and the calls `calls`, and the super-iterations after it -/
  | next {m k bs vals b comp calls rest bEnd} (b1 b2 : F) (ws : List (List ℝ)) (x0 sizes x : Vec ℝ n) (bs' : List (List ℝ)) (vals' : List ℝ)
      (hc : ∀ c ∈ comp, ShowsStart pd rd T bs vals c)
      (hb : if 2 ≤ k then AverageOf cfg cfg.driftAverage comp b1 else comp = [] ∧ b1 = b)
      (hw : NewFrequencies pd (rnd k) ws) (h0 : StartsAt pd vals (List.ofFn x0)) (h1 : StartSizes pd rd (List.ofFn sizes))
      (hq : Search k x0 sizes calls)
      (hs : ∀ c ∈ calls, CallShows pd T ws bs (List.ofFn c.vec) c.ctl ∧ ParameterValues pd rd (List.ofFn c.vec) c.ctl.parameters)
      (hk : KeptFrom cfg b1 calls x0 x b2) (hn : NextBase pd T ws bs (List.ofFn x) bs') (hv : ParameterValues pd rd (List.ofFn x) vals')
      (hr : DriftRun cfg pd rd T rnd Search m (k + 1) bs' vals' b2 rest bEnd) :
      DriftRun cfg pd rd T rnd Search (m + 1) k bs vals b (comp ++ calls ++ rest) bEnd

end
end QuOCS

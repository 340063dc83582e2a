/-
Vocabulary for whole dCRAB optimizations: the super-iterations together with their searches.
-/
import Verif.Spec.Dcrab
import Verif.Spec.NmReference
import Verif.Spec.CmaReference

namespace QuOCS

/-! ### What a search starts with -/

/-- The values of the parameters that belong to the search vector `x`: its entries after those of the pulses, brought into the limits. -/
def ParameterValues (pd : List (PulseDict ℝ)) (rd : List (ParamDict ℝ)) (x vals : List ℝ) : Prop :=
  vals.length = rd.length ∧ ∀ (i : ℕ) (d : ParamDict ℝ), rd[i]? = some d →
    ∃ y, x[(pd.map coefficientNumber).sum + i]? = some y ∧ vals[i]? = some (min (max d.lower y) d.upper)

/-- The start vector of a search: zero for all coefficients of the pulses, then the values of the parameters. -/
def StartsAt (pd : List (PulseDict ℝ)) (vals x0 : List ℝ) : Prop :=
  x0 = List.replicate (pd.map coefficientNumber).sum 0 ++ vals

/-- The start size of the coefficients of a pulse: its amplitude variation, divided by `√2` for Fourier, Chebyshev and sinc. -/
noncomputable def coefficientSize (d : PulseDict ℝ) : ℝ :=
  match d.basis with
  | .fourier _ => d.amplitudeVariation / √2
  | .chebyshev _ => d.amplitudeVariation / √2
  | .sinc _ _ => d.amplitudeVariation / √2
  | _ => d.amplitudeVariation

/-- The start sizes of a search: those of the coefficients of the pulses, then the amplitude variations of the parameters. -/
def StartSizes (pd : List (PulseDict ℝ)) (rd : List (ParamDict ℝ)) (sizes : List ℝ) : Prop :=
  sizes = (pd.map fun d => List.replicate (coefficientNumber d) (coefficientSize d)).flatten ++ rd.map (·.amplitudeVariation)

/-! ### Searches -/

section
variable {K C F : Type} [Neg F] {n : ℕ}

/-- Points and values of the calls; all of them have a figure of merit, which is negated for a maximization. -/
def PointsAre (cfg : AlgCfg K F) (pts : List (Vec ℝ n × F)) (calls : List (Call (Vec ℝ n) C F)) : Prop :=
  List.Forall₂ (fun p c => p.1 = c.vec ∧ ∃ f, c.value = some f ∧ p.2 = if cfg.maximize then -f else f) pts calls

/-- Every call is made at the point which is `next` after the points and values of the calls before. -/
def EachCall (cfg : AlgCfg K F) (next : List (Vec ℝ n × F) → Vec ℝ n → Prop) (calls : List (Call (Vec ℝ n) C F)) : Prop :=
  ∀ before c after, calls = before ++ c :: after → ∃ pts, PointsAre cfg pts before ∧ next pts c.vec

/-- The calls of a search with the published CMA-ES with population `L` and the standard normal random vectors `normal`: first the start
point, then mean plus step size times factor of the covariance matrix times random vector. -/
def CmaSearch [LE F] (cfg : AlgCfg K F) (L : ℕ) (normal : ℕ → Vec ℝ n) (x0 sizes : Vec ℝ n) (calls : List (Call (Vec ℝ n) C F)) : Prop :=
  EachCall cfg (fun pts x => ∃ d : CmaRef.Dist n, CmaRef.Follows L x0 sizes pts (pts.length / L) d ∧
    (pts = [] → x = x0) ∧ (pts ≠ [] → x = d.mean + d.sigma • d.factor.mulVec (normal pts.length))) calls

end

/-- The calls of a search with the published Nelder-Mead method: the start vertices are `x0` and the rows of an orthogonal matrix times
the start sizes, relative to `x0`. -/
def NelderMeadSearch {K C F : Type} [Field F] [LinearOrder F] {n : ℕ} (cfg : AlgCfg K F) (p : NmRef.Factors ℝ) (x0 sizes : Vec ℝ n) (calls : List (Call (Vec ℝ n) C F)) : Prop :=
  ∃ start : Fin (n + 1) → Vec ℝ n, start 0 = x0 ∧
    (∃ Q : Matrix (Fin n) (Fin n) ℝ, Q * Q.transpose = 1 ∧ ∀ i j, start i.succ j = x0 j + Q i j * sizes j) ∧
    EachCall cfg (NmRef.Asks p start none) calls

/-! ### Runs -/

section
variable {K F : Type} [Neg F] [LT F]

/-- The calls of at most `m` super-iterations, the first one with number `k`, with the base pulses `bs` and the parameter values `vals`,
after the calls `before`: each one draws new frequencies and makes a search that starts without update and with the parameter values;
`Search k x0 sizes calls` are the calls of a search from `x0` with sizes `sizes` in super-iteration `k`. All its calls show base pulse plus
update in these frequencies, and the parameter values; the best update is included into the base pulse, and the best parameter values
are where the next search starts. -/
inductive DcrabRun (cfg : AlgCfg K F) (pd : List (PulseDict ℝ)) (rd : List (ParamDict ℝ)) (T : String → ℝ) (rnd : ℕ → ℕ → List ℝ) {n : ℕ}
    (Search : ℕ → Vec ℝ n → Vec ℝ n → List (Call (Vec ℝ n) (ControlsOut ℝ) F) → Prop) :
    ℕ → ℕ → List (List ℝ) → List ℝ → List (Call (Vec ℝ n) (ControlsOut ℝ) F) → List (Call (Vec ℝ n) (ControlsOut ℝ) F) → Prop
  /-- no further super-iteration -/
  | stop (m k bs vals before) : DcrabRun cfg pd rd T rnd Search m k bs vals before []
  /-- the last super-iteration -/
  | last {m k bs vals before calls} (ws : List (List ℝ)) (x0 sizes : Vec ℝ n) (hw : NewFrequencies pd (rnd k) ws)
      (h0 : StartsAt pd vals (List.ofFn x0)) (hs : StartSizes pd rd (List.ofFn sizes)) (hse : Search k x0 sizes calls)
      (hc : ∀ c ∈ calls, CallShows pd T ws bs (List.ofFn c.vec) c.ctl ∧ ParameterValues pd rd (List.ofFn c.vec) c.ctl.parameters) :
      DcrabRun cfg pd rd T rnd Search (m + 1) k bs vals before calls
  /-- a super-iteration with the calls `calls` and the super-iterations after it -/
  | next {m k bs vals before calls rest} (ws : List (List ℝ)) (x0 sizes x : Vec ℝ n) (bs' : List (List ℝ)) (vals' : List ℝ)
      (hw : NewFrequencies pd (rnd k) ws)
      (h0 : StartsAt pd vals (List.ofFn x0)) (hs : StartSizes pd rd (List.ofFn sizes)) (hse : Search k x0 sizes calls)
      (hc : ∀ c ∈ calls, CallShows pd T ws bs (List.ofFn c.vec) c.ctl ∧ ParameterValues pd rd (List.ofFn c.vec) c.ctl.parameters)
      (hk : KeptVector cfg before calls x0 x) (hb : NextBase pd T ws bs (List.ofFn x) bs') (hv : ParameterValues pd rd (List.ofFn x) vals')
      (hr : DcrabRun cfg pd rd T rnd Search m (k + 1) bs' vals' (before ++ calls) rest) :
      DcrabRun cfg pd rd T rnd Search (m + 1) k bs vals before (calls ++ rest)

end
end QuOCS

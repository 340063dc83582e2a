/-
Vocabulary for optimizations with automatic differentiation: the super-iterations together with their searches.
-/
import Verif.Spec.DcrabSearch
import Verif.Spec.EndToEnd
import Verif.Model.ProgramAD

namespace QuOCS

/-! ### Calls -/

/-- The calls of a run in their order; `true`: for a gradient, `false`: for a figure of merit. -/
def AdState.marked {V C O F : Type} (s : AdState V C O F) : List (Bool × Call V C F) :=
  s.alg.log.zipIdx.map fun k => (decide (k.2 ∈ s.gradAt), k.1)

/-- The calls that were made for a figure of merit. -/
def evaluationsOf {V C : Type} (l : List (Bool × Call V C ℚ)) : List (Call V C ℚ) := (l.filter fun k => !k.1).map (·.2)

/-- The rows of the array of pulses: row `i` contains the pulse for the search vector `x`, the frequencies `ws` and the base pulses `bs`,
followed by zeros up to the length of the longest pulse. -/
def RowsShow (pd : List (PulseDict ℝ)) (T : String → ℝ) (ws bs : List (List ℝ)) (x : List ℝ) (c : ControlsOut ℝ) : Prop :=
  c.pulses.length = pd.length ∧ ∀ (i : ℕ) (d : PulseDict ℝ) (w b row : List ℝ), pd[i]? = some d → ws[i]? = some w → bs[i]? = some b →
    c.pulses[i]? = some row →
      ∃ u, row = u ++ List.replicate (width pd - d.binsNumber) 0 ∧ IsPulse d (T d.timeName) w b (coefficientsOf pd i x) u

/-! ### Searches -/

/-- The reasons for which a run computes no further figures of merit after the calls `l` for figures of merit: a stop request or Ctrl-C, the
number of evaluations, a time limit, the goal, or a status code of the user's function. -/
def StopReason {V C : Type} (cfg : AlgCfg ℚ ℚ) (env : Env V C ℚ) (l : List (Call V C ℚ)) : Prop :=
  (∃ n, env.async n ≠ .none) ∨ cfg.maxEvalTotal ≤ (l.length : ℤ) ∨ cfg.totalTimeLim < 10 ^ 10 ∨
  (∃ t, cfg.goal = some t ∧ (cfg.fomMax ≤ t ∨ ∃ k ∈ l, ∃ f, k.value = some f ∧ (if cfg.maximize then -f else f) ≤ t)) ∨
  ∃ k ∈ l, ∃ a, k.ans = .ok a ∧ a.status.getD 0 ≠ 0

/-- The calls `l` made by a search after the calls `before`: each one is made at the vector that L-BFGS-B asks for. It gets the figure of merit
(negated for a maximization) or the gradient. If there is a reason to stop, it may get the start value `fomMax` instead of a figure of merit,
without a call; with Ctrl-C the search may also be left. A call without figure of merit is the last one. -/
def AdMinimizer.Makes {V C : Type} (cfg : AlgCfg ℚ ℚ) (env : Env V C ℚ) (grad : List (Call V C ℚ) → V → V) :
    AdMinimizer V ℚ → List (Bool × Call V C ℚ) → List (Bool × Call V C ℚ) → Prop
  | .stop, _, l => l = []
  | .value x k, before, l =>
      (StopReason cfg env (evaluationsOf before) ∧
        (((∃ n, env.async n = .sigint) ∧ l = []) ∨ (k cfg.fomMax).Makes cfg env grad before l)) ∨
      ∃ c cs, l = (false, c) :: cs ∧ c.vec = x ∧ match c.value with
        | some f => (k (if cfg.maximize then -f else f)).Makes cfg env grad (before ++ [(false, c)]) cs
        | none => cs = []
  | .gradient x k, before, l => ∃ c cs, l = (true, c) :: cs ∧ c.vec = x ∧ match c.value with
        | some _ => (k (grad (before.map (·.2) ++ [c]) x)).Makes cfg env grad (before ++ [(true, c)]) cs
        | none => cs = []

/-- `x` is the vector of a call for a figure of merit, the best one of all calls `l`. -/
def BestVector {V C : Type} (cfg : AlgCfg ℚ ℚ) (l : List (Bool × Call V C ℚ)) (x : V) : Prop :=
  ∃ c ∈ evaluationsOf l, ∃ f, c.value = some f ∧ x = c.vec ∧ ∀ c' ∈ evaluationsOf l, ∀ g, c'.value = some g → ¬ Better cfg.maximize g f

/-- The reasons for which a super-iteration with number smaller than the maximum is the last one: a call without figure of merit, Ctrl-C, or
no figure of merit better than the start value. -/
def EndReason {V C : Type} (cfg : AlgCfg ℚ ℚ) (env : Env V C ℚ) (l : List (Bool × Call V C ℚ)) : Prop :=
  (∃ a c, l = a ++ [c] ∧ c.2.value = none) ∨ (∃ n, env.async n = .sigint) ∨
  ∀ c ∈ evaluationsOf l, ∀ f, c.value = some f → cfg.fomMax ≤ if cfg.maximize then -f else f

/-! ### Runs -/

/-- The calls of `m` super-iterations, the first one with number `k`, with the base pulses `bs` and the parameter values `vals`,
after the calls `before`. Each one draws new frequencies; L-BFGS-B (`search`) starts at a random vector: coefficients zero and parameter
values, plus up to the start size in each direction (`u k` are the random numbers of super-iteration `k`). All calls, also those for
gradients, show base pulse plus update in these frequencies, and the parameter values. Afterwards the update of the vector with the best
figure of merit *of all super-iterations so far* is included into the base pulses, in the *new* frequencies. -/
inductive AdSuperIterations {n : ℕ} (cfg : AlgCfg ℚ ℚ) (env : Env (Vec ℝ n) (ControlsOut ℝ) ℚ)
    (search : Vec ℝ n → AdMinimizer (Vec ℝ n) ℚ) (grad : List (Call (Vec ℝ n) (ControlsOut ℝ) ℚ) → Vec ℝ n → Vec ℝ n) (u : ℕ → Vec ℝ n)
    (pd : List (PulseDict ℝ)) (rd : List (ParamDict ℝ)) (T : String → ℝ) (rnd : ℕ → ℕ → List ℝ) :
    ℕ → ℕ → List (List ℝ) → List ℝ → List (Bool × Call (Vec ℝ n) (ControlsOut ℝ) ℚ) → List (Bool × Call (Vec ℝ n) (ControlsOut ℝ) ℚ) → Prop
  /-- no further super-iteration -/
  | stop (k bs vals before) : AdSuperIterations cfg env search grad u pd rd T rnd 0 k bs vals before []
  /-- a super-iteration with the calls `calls`, after which the run ends -/
  | last {m k bs vals before calls} (ws : List (List ℝ)) (x0 sizes : Vec ℝ n) (hw : NewFrequencies pd (rnd k) ws)
      (h0 : StartsAt pd vals (List.ofFn x0)) (hs : StartSizes pd rd (List.ofFn sizes))
      (hse : (search fun i => x0 i + 2 * (1 / 2 - u k i) * sizes i).Makes cfg env grad before calls)
      (hc : ∀ c ∈ calls, RowsShow pd T ws bs (List.ofFn c.2.vec) c.2.ctl ∧ ParameterValues pd rd (List.ofFn c.2.vec) c.2.ctl.parameters)
      (he : EndReason cfg env (before ++ calls)) :
      AdSuperIterations cfg env search grad u pd rd T rnd (m + 1) k bs vals before calls
  /-- a super-iteration with the calls `calls` and the super-iterations after it -/
  | next {m k bs vals before calls rest} (ws : List (List ℝ)) (x0 sizes x : Vec ℝ n) (bs' : List (List ℝ)) (vals' : List ℝ)
      (hw : NewFrequencies pd (rnd k) ws) (h0 : StartsAt pd vals (List.ofFn x0)) (hs : StartSizes pd rd (List.ofFn sizes))
      (hse : (search fun i => x0 i + 2 * (1 / 2 - u k i) * sizes i).Makes cfg env grad before calls)
      (hc : ∀ c ∈ calls, RowsShow pd T ws bs (List.ofFn c.2.vec) c.2.ctl ∧ ParameterValues pd rd (List.ofFn c.2.vec) c.2.ctl.parameters)
      (hk : BestVector cfg (before ++ calls) x) (hb : NextBase pd T ws bs (List.ofFn x) bs') (hv : ParameterValues pd rd (List.ofFn x) vals')
      (hr : AdSuperIterations cfg env search grad u pd rd T rnd m (k + 1) bs' vals' (before ++ calls) rest) :
      AdSuperIterations cfg env search grad u pd rd T rnd (m + 1) k bs vals before (calls ++ rest)

end QuOCS

/-
Vocabulary for the super-iterations of dCRAB: what the user's function is called with, in terms of the documented formulas.
-/
import Verif.Spec.Run
import Verif.Model.NelderMead
import Verif.Spec.Usable
import Verif.Spec.BasisFormulas

namespace QuOCS
open Finset

/-! ### One pulse -/

/-- The pulses considered: documented basis, default shaping, samples outside of the limits are cut off, and a scaling function of the
time only. -/
structure DcrabPulse (d : PulseDict ℝ) : Prop where
  basis : (∃ n, d.basis = .fourier n) ∨ (∃ n, d.basis = .chebyshev n) ∨ (∃ n m, d.basis = .sinc n m) ∨
    (∃ n o σ, d.basis = .sigmoid n o σ) ∨ d.basis = .piecewise
  shaping : d.shapingOptions = none
  cut : d.shrink = false
  scaling : ∀ f, d.scaling ≠ .callable2 f

/-- Number of random frequencies (times) of a pulse: one for every basis vector. -/
def frequencyNumber (d : PulseDict ℝ) : ℕ :=
  match d.basis with
  | .fourier n => n
  | .chebyshev n => n
  | .sinc n _ => n
  | .sigmoid n _ _ => n
  | _ => 0

/-- Number of coefficients of a pulse: two for every Fourier or Chebyshev term, one for every sinc, one for every step of a sigmoid and
the first one, one for every bin. -/
def coefficientNumber (d : PulseDict ℝ) : ℕ :=
  match d.basis with
  | .fourier n => 2 * n
  | .chebyshev n => 2 * n
  | .sinc n _ => n
  | .sigmoid n _ _ => n + 1
  | .piecewise => d.binsNumber
  | _ => 0

/-- The coefficients of pulse `i` in a search vector: the pulses share the vector in their order. -/
def coefficientsOf (pd : List (PulseDict ℝ)) (i : ℕ) (x : List ℝ) : List ℝ :=
  (x.drop ((pd.take i).map coefficientNumber).sum).take ((pd.map coefficientNumber).getD i 0)

/-- The frequencies `w` are drawn with the random numbers `r`: frequency `j` of `n` lies in the `j`-th of `n` equal parts of the interval
of the distribution, at the position of the random number `j`. -/
def DrawnWith (d : PulseDict ℝ) (r w : List ℝ) : Prop :=
  w.length = frequencyNumber d ∧ ∀ j < frequencyNumber d, ∃ y, r[j]? = some y ∧
    w[j]? = some (d.wLower + (j + y) * ((d.wUpper - d.wLower) / frequencyNumber d))

/-- `up` are the samples of the update pulse with frequencies `w` and coefficients `X` for the duration `T`, by the documented formula of
the basis. Sinc: up to `10⁻⁴⁰ Σ |A_i|`, Chebyshev: up to `3·10⁻⁵ Σ |A_i| |ω_i|` (see C87). -/
def IsUpdate (d : PulseDict ℝ) (w X : List ℝ) (T : ℝ) (up : List ℝ) : Prop :=
  up.length = d.binsNumber ∧ ∀ j < d.binsNumber, ∃ y, up[j]? = some y ∧
    match d.basis with
    | .fourier n => y = docFourier n (fun i => X.getD (2 * i) 0) (fun i => X.getD (2 * i + 1) 0) (fun i => w.getD i 0) T
        (sampleTime T d.binsNumber j)
    | .chebyshev n => 0 < T → 2 ≤ d.binsNumber →
        |y - docChebyshev n (fun i => X.getD (2 * i) 0) (fun i => X.getD (2 * i + 1) 0) (fun i => w.getD i 0) T
          (sampleTime T d.binsNumber j)| ≤ 3 / 10 ^ 5 * ∑ i ∈ range n, |X.getD (2 * i) 0| * |w.getD i 0|
    | .sinc n ωmax =>
        |y - docSinc n (fun i => X.getD i 0) (fun i => w.getD i 0) ωmax T (sampleTime T d.binsNumber j)| ≤
          1 / 10 ^ 40 * ∑ i ∈ range n, |X.getD i 0|
    | .sigmoid n offset σ => y = docStep (X.getD 0 0) offset σ (sampleTime T d.binsNumber j) +
        ∑ i ∈ range n, docStep (X.getD (i + 1) 0) (w.getD i 0) σ (sampleTime T d.binsNumber j) +
        docStep (-X.sum) (T - offset) σ (sampleTime T d.binsNumber j)
    | .piecewise => X[j]? = some y
    | _ => False

/-- Entry `j` of an array with `b` entries, or a single number that stands for all of them. -/
def SampleIs (b : ℕ) (l : List ℝ) (j : ℕ) (v : ℝ) : Prop := l.length = b ∧ l[j]? = some v ∨ l = [v]

/-- The times of the samples of a pulse. -/
noncomputable def sampleTimes (T : ℝ) (b : ℕ) : List ℝ := (List.range b).map (sampleTime T b)

/-- Sample `j` of the initial guess. -/
def GuessIs (d : PulseDict ℝ) (T : ℝ) (j : ℕ) (v : ℝ) : Prop :=
  match d.guess with
  | .callable f => SampleIs d.binsNumber (f (sampleTimes T d.binsNumber)) j v
  | .array l => SampleIs d.binsNumber l j v

/-- Sample `j` of the scaling function. -/
def ScalingIs (d : PulseDict ℝ) (T : ℝ) (j : ℕ) (v : ℝ) : Prop :=
  match d.scaling with
  | .callable f => SampleIs d.binsNumber (f (sampleTimes T d.binsNumber)) j v
  | .array l => SampleIs d.binsNumber l j v
  | .callable2 _ => False

/-- `v`, or the limit beyond which it is. -/
noncomputable def cutOff (d : PulseDict ℝ) (v : ℝ) : ℝ :=
  max (min d.lowerLimit d.upperLimit) (min v (max d.lowerLimit d.upperLimit))

/-- `u` are the samples of the pulse with base pulse `b`, frequencies `w` and coefficients `X`: initial guess within the limits plus base
pulse plus update, scaled and brought into the limits. -/
def IsPulse (d : PulseDict ℝ) (T : ℝ) (w b X u : List ℝ) : Prop :=
  ∃ up, IsUpdate d w X T up ∧ u.length = d.binsNumber ∧ ∀ j < d.binsNumber, ∃ g s bj y, GuessIs d T j g ∧ ScalingIs d T j s ∧
    b[j]? = some bj ∧ up[j]? = some y ∧ u[j]? = some (cutOff d (s * (cutOff d g + bj + y)))

/-! ### All pulses -/

/-- All times are fixed, and `T` gives the duration for each name. -/
def DurationsAre (td : List (TimeDict ℝ)) (T : String → ℝ) : Prop := ∀ t ∈ td, t.isOptimization = false ∧ T t.name = t.initialValue

/-- New frequencies of all pulses except piecewise ones; `r i` are the random numbers for pulse `i`. -/
def NewFrequencies (pd : List (PulseDict ℝ)) (r : ℕ → List ℝ) (ws : List (List ℝ)) : Prop :=
  ws.length = pd.length ∧ ∀ (i : ℕ) (d : PulseDict ℝ) (w : List ℝ), pd[i]? = some d → ws[i]? = some w → d.basis ≠ .piecewise →
    DrawnWith d (r i) w

/-- The pulses of the controls `c` belong to the search vector `x`, the frequencies `ws` and the base pulses `bs`. `T` is the duration of
each time. -/
def CallShows (pd : List (PulseDict ℝ)) (T : String → ℝ) (ws bs : List (List ℝ)) (x : List ℝ) (c : ControlsOut ℝ) : Prop :=
  c.pulses.length = pd.length ∧ ∀ (i : ℕ) (d : PulseDict ℝ) (w b u : List ℝ), pd[i]? = some d → ws[i]? = some w → bs[i]? = some b →
    c.pulses[i]? = some u → IsPulse d (T d.timeName) w b (coefficientsOf pd i x) u

/-- The base pulses `bs'` of the next super-iteration: the update of the vector `x` is added to the base pulse, or replaces it if the
pulse has this setting. -/
def NextBase (pd : List (PulseDict ℝ)) (T : String → ℝ) (ws bs : List (List ℝ)) (x : List ℝ) (bs' : List (List ℝ)) : Prop :=
  bs'.length = pd.length ∧ ∀ (i : ℕ) (d : PulseDict ℝ) (w b b' : List ℝ), pd[i]? = some d → ws[i]? = some w → bs[i]? = some b →
    bs'[i]? = some b' → ∃ up, IsUpdate d w (coefficientsOf pd i x) (T d.timeName) up ∧ b'.length = d.binsNumber ∧
      ∀ j < d.binsNumber, ∃ bj y, b[j]? = some bj ∧ up[j]? = some y ∧ b'[j]? = some (if d.overwrite then y else bj + y)

/-- All coefficients of all pulses are zero. -/
def NoUpdate (pd : List (PulseDict ℝ)) (x : List ℝ) : Prop :=
  ∀ (i : ℕ) (d : PulseDict ℝ), pd[i]? = some d → coefficientsOf pd i x = List.replicate (coefficientNumber d) 0

/-! ### Runs -/

section
variable {K V C F : Type} [Neg F] [LT F]

/-- The vector `x` kept at the end of a super-iteration with the calls `calls`, after the calls `before` and starting at `x0`: the vector
of a call which is the best of all so far, or, if no call of the super-iteration is better than all earlier ones (and than the start
value), the start vector. -/
def KeptVector (cfg : AlgCfg K F) (before calls : List (Call V C F)) (x0 x : V) : Prop :=
  (x = x0 ∧ ∀ c ∈ calls, ∀ f, c.value = some f →
    ∃ g, (g = dirMul cfg.maximize cfg.fomMax ∨ ∃ c' ∈ before, c'.value = some g) ∧ ¬ Better cfg.maximize f g) ∨
  ∃ c ∈ calls, ∃ f, c.value = some f ∧ x = c.vec ∧ ∀ c' ∈ before ++ calls, ∀ g, c'.value = some g → ¬ Better cfg.maximize g f

/-- The calls of at most `m` super-iterations, the first one with number `k`, with the base pulses `bs`, after the calls `before`:
each one draws new frequencies, all its calls show base pulse plus update in these frequencies, and its best update is included into
the base pulse. -/
inductive SuperIterations (cfg : AlgCfg K F) (pd : List (PulseDict ℝ)) (T : String → ℝ) (rnd : ℕ → ℕ → List ℝ) {n : ℕ} :
    ℕ → ℕ → List (List ℝ) → List (Call (Vec ℝ n) (ControlsOut ℝ) F) → List (Call (Vec ℝ n) (ControlsOut ℝ) F) → Prop
  /-- no further super-iteration -/
  | stop (m k bs before) : SuperIterations cfg pd T rnd m k bs before []
  /-- the last super-iteration -/
  | last {m k bs before calls} (ws : List (List ℝ)) (hw : NewFrequencies pd (rnd k) ws)
      (hc : ∀ c ∈ calls, CallShows pd T ws bs (List.ofFn c.vec) c.ctl) : SuperIterations cfg pd T rnd (m + 1) k bs before calls
  /-- a super-iteration with the calls `calls` and the super-iterations after it -/
  | next {m k bs before calls rest} (ws : List (List ℝ)) (x0 x : Vec ℝ n) (bs' : List (List ℝ)) (hw : NewFrequencies pd (rnd k) ws)
      (hc : ∀ c ∈ calls, CallShows pd T ws bs (List.ofFn c.vec) c.ctl) (h0 : NoUpdate pd (List.ofFn x0))
      (hk : KeptVector cfg before calls x0 x) (hb : NextBase pd T ws bs (List.ofFn x) bs')
      (hr : SuperIterations cfg pd T rnd m (k + 1) bs' (before ++ calls) rest) :
      SuperIterations cfg pd T rnd (m + 1) k bs before (calls ++ rest)

end
end QuOCS

/-
Model of `src/quocslib/pulses/BasePulse.py` and of the bases in `src/quocslib/pulses/basis/`.
-/
import Verif.Model.Numpy
import Mathlib.Data.List.Sort

namespace QuOCS

/-- The shaping steps known to `BasePulse` (BasePulse.py:95-101). -/
inductive Shaping
  | addInitialGuess | addBasePulse | addNewUpdatePulse | scalePulse | limitPulse
  deriving DecidableEq, Repr

/-- Lookup of a shaping-option name in `shaping_option_dict` (BasePulse.py:95-101, 111-112). -/
def shapingOfName (s : String) : Option Shaping :=
  if s = "add_initial_guess" then some .addInitialGuess
  else if s = "add_base_pulse" then some .addBasePulse
  else if s = "add_new_update_pulse" then some .addNewUpdatePulse
  else if s = "scale_pulse" then some .scalePulse
  else if s = "limit_pulse" then some .limitPulse
  else none

/-- Construction of `self.shaping_options` (BasePulse.py:102-114): default list, or the known names of the
user's list in order; unknown names only cause a printed warning. -/
def shapingOptions : Option (List String) → List Shaping
  | none => [.addInitialGuess, .addBasePulse, .addNewUpdatePulse, .scalePulse, .limitPulse]
  | some names => names.filterMap shapingOfName

/-- A user supplied function of time: a callable on the whole time grid or a fixed array
(BasePulse.py:117-150 for the guess, 152-186 for the scaling).
Simplification: how the callable is obtained (`eval`, `importlib`) is not modelled, only that it is some function
of the time grid; a callable that returns a scalar is one that returns a list of length one. -/
inductive Sampler (K : Type*)
  | callable (f : List K → List K)
  | array (l : List K)

/-- The scaling function: as `Sampler`, or a callable with two parameters `(time_grid, pulse)`
(BasePulse.py:464-478). -/
inductive Scaling (K : Type*)
  | callable (f : List K → List K)
  | callable2 (f : List K → List K → List K)
  | array (l : List K)

/-- The real functions and constants used by the bases (`np.sin`, `np.cos`, `np.arccos`, `scipy.special.erf`,
`np.pi`, `np.sqrt(2)`); they are parameters of the model. -/
structure MathFns (K : Type*) where
  sin : K → K
  cos : K → K
  arccos : K → K
  erf : K → K
  pi : K
  sqrt2 : K

/-- The basis classes of `src/quocslib/pulses/basis/` with their basis specific settings
(`n` is `super_parameter_number`, i.e. `basis_vector_number`). `custom` is a user-written basis class. -/
inductive Basis (K : Type*)
  | fourier (n : ℕ)
  | chebyshev (n : ℕ)
  | sinc (n : ℕ) (basisMax : K)
  | walsh (n : ℕ)
  | piecewise
  | sigmoid (n : ℕ) (offset sigma : K)
  | sigmoidTimeDep (n : ℕ) (offset sigma tauVar : K)
  | sigmoidSigmas (n : ℕ) (offset sigma sigmaVar : K)
  | sigmoidAllParas (n : ℕ) (offset sigma tauVar sigmaVar : K)
  | custom (n : ℕ) (nParams : ℕ) (f : (w params timeGrid : List K) → (finalTime : K) → Py (List K))

/-- The state of one pulse object (attributes set in BasePulse.py:36-200 and by the bases). -/
structure Pulse (K : Type*) where
  pulseName : String
  timeName : String
  binsNumber : ℕ
  /-- `amplitude_lower`, after the swap in BasePulse.py:86-88 -/
  lower : K
  /-- `amplitude_upper`, after the swap in BasePulse.py:86-88 -/
  upper : K
  amplitudeVariation : K
  shrink : Bool
  guess : Sampler K
  scaling : Scaling K
  shaping : List Shaping
  overwrite : Bool
  basis : Basis K
  /-- `control_parameters_number`, set by the basis before `BasePulse.__init__` -/
  nParams : ℕ
  /-- `control_parameters_list` -/
  ctrlList : List ℕ
  lastIndex : ℤ
  scaleCoeffs : List K
  offsetCoeffs : List K
  /-- super-parameters `super_parameter_distribution_obj.w` -/
  w : List K
  /-- `lower_limit_w`, `upper_limit_w` of the super-parameter distribution
  (SuperParameterDistribution.py:26-27) -/
  wLower : K
  wUpper : K
  basePulse : List K
  timeGrid : List K
  finalTime : K
  /-- `optimized_control_parameters` -/
  params : List K

/-- The pulse dictionary given by the user (the arguments of BasePulse.py:36-51). -/
structure PulseDict (K : Type*) where
  pulseName : String
  timeName : String
  binsNumber : ℕ
  lowerLimit : K
  upperLimit : K
  amplitudeVariation : K
  shrink : Bool
  guess : Sampler K
  scaling : Scaling K
  shapingOptions : Option (List String)
  overwrite : Bool
  basis : Basis K
  /-- limits of `random_super_parameter_distribution` -/
  wLower : K
  wUpper : K

section
variable {K : Type*} [Field K] [LinearOrder K]

/-- `control_parameters_number` declared by each basis: Fourier.py:45, Chebyshev.py:46, Sinc.py:47, Walsh.py:44,
PiecewiseBasis.py:41, Sigmoid.py:48, SigmoidTimeDep.py:53, SigmoidSigmas.py:50, SigmoidAllParas.py:53-57. -/
def basisParams (bins : ℕ) : Basis K → ℕ
  | .fourier n => 2 * n
  | .chebyshev n => 2 * n
  | .sinc n _ => n
  | .walsh n => 2 * n
  | .piecewise => bins
  | .sigmoid n _ _ => n + 1
  | .sigmoidTimeDep n _ _ _ => 2 * n + 1
  | .sigmoidSigmas n _ _ _ => 2 * n + 1
  | .sigmoidAllParas n _ _ tv sv =>
      n + 1 + (if tv > 1 / 10 ^ 10 then n else 0) + (if sv > 1 / 10 ^ 10 then n else 0)
  | .custom _ m _ => m

/-- Number of super-parameters drawn by the basis (`super_parameter_number`). -/
def basisSuper : Basis K → ℕ
  | .fourier n => n
  | .chebyshev n => n
  | .sinc n _ => n
  | .walsh n => n
  | .piecewise => 0
  | .sigmoid n _ _ => n
  | .sigmoidTimeDep n _ _ _ => n
  | .sigmoidSigmas n _ _ _ => n
  | .sigmoidAllParas n _ _ _ _ => n
  | .custom n _ _ => n

/-- `scale_coefficients`: Fourier.py:49, Chebyshev.py:50, Sinc.py:51, Walsh.py:55 (amplitude variation divided by
`sqrt 2`), PiecewiseBasis.py:47, Sigmoid.py:52, SigmoidTimeDep.py:59, SigmoidSigmas.py:56, SigmoidAllParas.py:63
(amplitude variation). -/
def basisScale (M : MathFns K) (av : K) (n : ℕ) : Basis K → List K
  | .fourier _ => List.replicate n (av / M.sqrt2)
  | .chebyshev _ => List.replicate n (av / M.sqrt2)
  | .sinc _ _ => List.replicate n (av / M.sqrt2)
  | .walsh _ => List.replicate n (av / M.sqrt2)
  | .piecewise => List.replicate n av
  | .sigmoid _ _ _ => List.replicate n av
  | .sigmoidTimeDep _ _ _ _ => List.replicate n av
  | .sigmoidSigmas _ _ _ _ => List.replicate n av
  | .sigmoidAllParas _ _ _ _ _ => List.replicate n av
  | .custom _ _ _ => List.replicate n av

/-- `[map_index + i + 1 for i in range(n)]` (BasePulse.py:92, 239; BaseParameter.py:57, 84). -/
def ctrlIndices (mapIndex : ℤ) (n : ℕ) : List ℕ :=
  (List.range n).map (fun (i : ℕ) => (mapIndex + (i : ℤ) + 1).toNat)

/-- `BasePulse.__init__` together with the constructor of the basis (BasePulse.py:36-200).
`control_parameters_list[-1]` (line 94) raises `IndexError` when the basis has no control parameter. -/
def mkPulse (M : MathFns K) (mapIndex : ℤ) (d : PulseDict K) : Py (Pulse K) :=
  let n := basisParams d.binsNumber d.basis
  let (lo, up) := if d.lowerLimit > d.upperLimit then (d.upperLimit, d.lowerLimit) else (d.lowerLimit, d.upperLimit)
  if n = 0 then .error .indexError
  else .ok {
    pulseName := d.pulseName, timeName := d.timeName, binsNumber := d.binsNumber
    lower := lo, upper := up, amplitudeVariation := d.amplitudeVariation
    shrink := d.shrink, guess := d.guess, scaling := d.scaling
    shaping := shapingOptions d.shapingOptions, overwrite := d.overwrite
    basis := d.basis, nParams := n
    ctrlList := ctrlIndices mapIndex n
    lastIndex := mapIndex + n
    scaleCoeffs := basisScale M d.amplitudeVariation n d.basis
    offsetCoeffs := zeros n
    w := zeros (basisSuper d.basis)
    wLower := d.wLower, wUpper := d.wUpper
    basePulse := zeros d.binsNumber
    timeGrid := zeros d.binsNumber
    finalTime := 0
    params := [] }

/-- The cut `np.maximum(np.minimum(x, upper), lower)` of one sample (BasePulse.py:491, 330). -/
def cutSample (lo up x : K) : K := max (min x up) lo

/-- One branch of `_shrink_pulse_2`: the correction factor `min(1, width_aim / width_current)`
(BasePulse.py:335-340 and 348-353). -/
def shrinkCorrection (widthAim widthCurrent : K) : K :=
  if widthAim / widthCurrent > 1 then 1 else widthAim / widthCurrent

/-- `_shrink_pulse_2` (BasePulse.py:313-358). -/
def shrinkPulse (lb ub : K) (u : List K) : Py (List K) := do
  let tmax ← amax u
  let tmin ← amin u
  if (tmax ≥ ub ∧ tmin ≥ ub) ∨ (tmax ≤ lb ∧ tmin ≤ lb) then
    pure (u.map (cutSample lb ub))
  else do
    let ui := if tmax > ub then
        let c := shrinkCorrection |ub - tmin| |tmax - tmin|
        u.map (fun x => (x - tmin) * c + tmin)
      else u
    let tmax' ← amax ui
    let tmin' ← amin ui
    let ui' := if tmin' < lb then
        let c := shrinkCorrection |tmax' - lb| |tmax' - tmin'|
        ui.map (fun x => (x - tmax') * c + tmax')
      else ui
    pure ui'

/-- `_get_limited_pulse` (BasePulse.py:480-491). -/
def Pulse.limited (p : Pulse K) (u : List K) : Py (List K) :=
  if p.shrink then shrinkPulse p.lower p.upper u
  else .ok (u.map (cutSample p.lower p.upper))

/-- `_get_initial_guess` (BasePulse.py:421-435): the guess is itself limited. -/
def Pulse.initialGuess (p : Pulse K) : Py (List K) :=
  match p.guess with
  | .callable f => p.limited (f p.timeGrid)
  | .array l => p.limited l

/-- `add_initial_guess` (BasePulse.py:446-453). -/
def Pulse.addInitialGuess (p : Pulse K) (u : List K) : Py (List K) := do
  bop (· + ·) (← p.initialGuess) u

/-- `pulse += f(t)` for every term of a basis expansion: the loop `for ii in range(n)` of the bases,
starting from `np.zeros(bins)` (e.g. Fourier.py:60-70). -/
def sumTerms (init : List K) (n : ℕ) (term : ℕ → Py (List K)) : Py (List K) :=
  (List.range n).foldlM (fun acc i => do iadd acc (← term i)) init

/-- One term of the Fourier / Walsh expansion (Fourier.py:68-69, Walsh.py:77-78). -/
def fourierTerm (M : MathFns K) (w xx t : List K) (T : K) (i : ℕ) : Py (List K) := do
  let a ← getIdx xx (2 * i)
  let b ← getIdx xx (2 * i + 1)
  let wi ← getIdx w i
  pure (t.map (fun s => a * M.sin (2 * M.pi * wi * s / T) + b * M.cos (2 * M.pi * wi * s / T)))

/-- One term of the Chebyshev expansion (Chebyshev.py:70-71); the second coefficient is a phase. -/
def chebyshevTerm (M : MathFns K) (w xx t : List K) (T : K) (i : ℕ) : Py (List K) := do
  let a ← getIdx xx (2 * i)
  let wi ← getIdx w i
  let b ← getIdx xx (2 * i + 1)
  let e : K := 1 / 10 ^ 10
  pure (t.map (fun s => a * M.cos (wi * M.arccos (-1 + e + (2 * (1 - e) * s / T)) + b)))

/-- The local function `sinc` (Sinc.py:61-64): `sin y / y` with `y = 1e-20` at zero. -/
def sincFn (M : MathFns K) (t : K) : K :=
  let y : K := if t = 0 then 1 / 10 ^ 20 else t
  M.sin y / y

/-- One term of the Sinc expansion (Sinc.py:77). -/
def sincTerm (M : MathFns K) (bm : K) (w xx t : List K) (T : K) (i : ℕ) : Py (List K) := do
  let a ← getIdx xx i
  let wi ← getIdx w i
  pure (t.map (fun s => a * sincFn M (2 * M.pi * bm * (s - wi) / T)))

/-- The error-function step `erf((t - tau)/(sqrt 2 * sigma)) + 1` (Sigmoid.py:71-73). -/
def sigStep (M : MathFns K) (sigma tau s : K) : K := M.erf ((s - tau) / (M.sqrt2 * sigma)) + 1

/-- `Sigmoid._get_shaped_pulse` (Sigmoid.py:62-74). -/
def sigmoidShape (M : MathFns K) (n : ℕ) (offset sigma : K) (bins : ℕ) (w xx t : List K) (T : K) : Py (List K) := do
  let p ← sumTerms (zeros bins) n (fun i => do
    let a ← getIdx xx (i + 1)
    let wi ← getIdx w i
    pure (t.map (fun s => a / 2 * sigStep M sigma wi s)))
  let a0 ← getIdx xx 0
  let p ← iadd p (t.map (fun s => a0 / 2 * sigStep M sigma offset s))
  iadd p (t.map (fun s => -xx.sum / 2 * sigStep M sigma (T - offset) s))

/-- "making sure the time steps don't move outside of the pulse" (SigmoidTimeDep.py:77-91,
SigmoidAllParas.py:112-125). `np.sort` is `List.insertionSort`. -/
def rescaleTaus (offset T : K) (taus : List K) : Py (List K) :=
  match taus.insertionSort (· ≤ ·) with
  | [] => .error .indexError
  | [x] =>
      if x < offset then .ok [offset]
      else if x > T - offset then .ok [T - offset]
      else .ok taus
  | s0 :: s1 :: rest =>
      let sN := (s1 :: rest).getLast (by simp)
      if s0 < offset ∨ sN > T - offset then
        let sN' := if sN < T - offset then T - offset else sN
        let s0' := if s0 > offset then offset else s0
        .ok (taus.map (fun τ =>
          let rel := τ - (sN' - s0') / 2 - s0'
          T / 2 + rel * 2 * (T / 2 - offset) / (sN' - s0')))
      else .ok taus

/-- Building a sigmoid pulse from amplitudes `A`, step times `taus` and step widths `sigmas`
(SigmoidTimeDep.py:94-99, SigmoidSigmas.py:89-93, SigmoidAllParas.py:137-143);
`closing` tells whether the last, closing step is added (SigmoidAllParas.py:142). -/
def sigmoidBuild (M : MathFns K) (n : ℕ) (offset sigma : K) (closing : Bool) (bins : ℕ)
    (A taus sigmas t : List K) (T : K) : Py (List K) := do
  let p ← sumTerms (zeros bins) n (fun i => do
    let a ← getIdx A (i + 1)
    let ti ← getIdx taus i
    let si ← getIdx sigmas i
    pure (t.map (fun s => a / 2 * sigStep M si ti s)))
  let a0 ← getIdx A 0
  let p ← iadd p (t.map (fun s => a0 / 2 * sigStep M sigma offset s))
  if closing then iadd p (t.map (fun s => -A.sum / 2 * sigStep M sigma (T - offset) s))
  else pure p

/-- `SigmoidTimeDep._get_shaped_pulse` (SigmoidTimeDep.py:62-100). -/
def sigmoidTimeDepShape (M : MathFns K) (n : ℕ) (offset sigma tauVar av : K) (bins : ℕ)
    (w xx t : List K) (T : K) : Py (List K) := do
  let h := (xx.length + 1) / 2
  let A := xx.take h
  let delTau := (xx.drop h).map (fun x => x * tauVar / av)
  let taus ← bop (· + ·) w delTau
  let taus ← rescaleTaus offset T taus
  sigmoidBuild M n offset sigma true bins A taus (List.replicate n sigma) t T

/-- The limited step widths (SigmoidSigmas.py:79-86, SigmoidAllParas.py:127-134). -/
def limitSigmas (M : MathFns K) (offset sigma T : K) (active : Bool) (taus delSig : List K) : Py (List K) :=
  if active then
    (List.range delSig.length).mapM (fun i => do
      let τ ← getIdx taus i
      let d ← getIdx delSig i
      let kappa := sigma / offset
      let dmax := (T / 2 - |T / 2 - τ|) * kappa - sigma
      pure (sigma + dmax * (1 - M.cos (M.pi * d)) / 2))
  else .ok (delSig.map (fun d => d + sigma))

/-- `SigmoidSigmas._get_shaped_pulse` (SigmoidSigmas.py:59-94). -/
def sigmoidSigmasShape (M : MathFns K) (n : ℕ) (offset sigma sigmaVar : K) (bins : ℕ)
    (w xx t : List K) (T : K) : Py (List K) := do
  let h := (xx.length + 1) / 2
  let A := xx.take h
  let delSig := (xx.drop h).map (fun x => |x| * sigmaVar)
  let sigmas ← limitSigmas M offset sigma T (decide (offset ≥ 1 / 10 ^ 10)) w delSig
  sigmoidBuild M n offset sigma true bins A w sigmas t T

/-- `SigmoidAllParas._get_shaped_pulse` (SigmoidAllParas.py:66-144). -/
def sigmoidAllParasShape (M : MathFns K) (n : ℕ) (offset sigma tauVar sigmaVar av : K) (bins : ℕ)
    (w xx t : List K) (T : K) : Py (List K) := do
  let tauN := w.length
  let tauOn := decide (tauVar > 1 / 10 ^ 10)
  let sigOn := decide (sigmaVar > 1 / 10 ^ 10)
  let A := if tauOn || sigOn then xx.take (tauN + 1) else xx
  let delTau :=
    if tauOn then
      if sigOn then ((xx.drop (tauN + 1)).take tauN).map (fun x => x * tauVar / av)
      else (xx.drop (tauN + 1)).map (fun x => x * tauVar / av)
    else zeros tauN
  let delSig :=
    if tauOn then
      if sigOn then (xx.drop (2 * tauN + 1)).map (fun x => |x| * sigmaVar / av)
      else zeros tauN
    else if sigOn then (xx.drop (tauN + 1)).map (fun x => |x| * sigmaVar / av)
    else zeros tauN
  let taus ← if tauOn then do
      let ts ← iadd w delTau
      rescaleTaus offset T ts
    else pure w
  let sigmas ← limitSigmas M offset sigma T (sigOn && decide (offset ≥ 1 / 10 ^ 10)) taus delSig
  sigmoidBuild M n offset sigma (decide (offset ≥ 1 / 10 ^ 10)) bins A taus sigmas t T

/-- `_get_shaped_pulse` of the bases: Fourier.py:52-70, Chebyshev.py:53-72, Sinc.py:54-78, Walsh.py:59-89
(including `_limit_constraints`), PiecewiseBasis.py:49-62, Sigmoid.py:55-74,
SigmoidTimeDep.py:62-100, SigmoidSigmas.py:59-94, SigmoidAllParas.py:66-144. -/
def Pulse.shaped (M : MathFns K) (p : Pulse K) : Py (List K) :=
  match p.basis with
  | .fourier n => sumTerms (zeros p.binsNumber) n (fourierTerm M p.w p.params p.timeGrid p.finalTime)
  | .chebyshev n => sumTerms (zeros p.binsNumber) n (chebyshevTerm M p.w p.params p.timeGrid p.finalTime)
  | .sinc n bm => sumTerms (zeros p.binsNumber) n (sincTerm M bm p.w p.params p.timeGrid p.finalTime)
  | .walsh n => do
      let u ← sumTerms (zeros p.binsNumber) n (fourierTerm M p.w p.params p.timeGrid p.finalTime)
      let o ← p.addInitialGuess u
      let o ← p.limited o
      bop (· - ·) o (← p.initialGuess)
  | .piecewise => .ok p.params
  | .sigmoid n offset sigma => sigmoidShape M n offset sigma p.binsNumber p.w p.params p.timeGrid p.finalTime
  | .sigmoidTimeDep n offset sigma tv =>
      sigmoidTimeDepShape M n offset sigma tv p.amplitudeVariation p.binsNumber p.w p.params p.timeGrid p.finalTime
  | .sigmoidSigmas n offset sigma sv =>
      sigmoidSigmasShape M n offset sigma sv p.binsNumber p.w p.params p.timeGrid p.finalTime
  | .sigmoidAllParas n offset sigma tv sv =>
      sigmoidAllParasShape M n offset sigma tv sv p.amplitudeVariation p.binsNumber p.w p.params p.timeGrid p.finalTime
  | .custom _ _ f => f p.w p.params p.timeGrid p.finalTime

/-- `scale_pulse` with `_get_scaling_function` (BasePulse.py:409-419, 464-478). -/
def Pulse.scale (p : Pulse K) (u : List K) : Py (List K) :=
  match p.scaling with
  | .callable f => bop (· * ·) (f p.timeGrid) u
  | .callable2 f => .ok (f p.timeGrid u)
  | .array l => bop (· * ·) l u

/-- One shaping step (BasePulse.py:437-499). -/
def Pulse.applyStep (M : MathFns K) (p : Pulse K) (u : List K) : Shaping → Py (List K)
  | .addInitialGuess => p.addInitialGuess u
  | .addBasePulse => bop (· + ·) u p.basePulse
  | .addNewUpdatePulse => do bop (· + ·) u (← p.shaped M)
  | .scalePulse => p.scale u
  | .limitPulse => p.limited u

/-- `_get_build_pulse` (BasePulse.py:246-255). -/
def Pulse.build (M : MathFns K) (p : Pulse K) : Py (List K) :=
  p.shaping.foldlM (fun u s => p.applyStep M u s) (zeros p.binsNumber)

/-- `_set_control_parameters` and `_set_time_grid` (BasePulse.py:241-244, 399-407). -/
def Pulse.setInputs (p : Pulse K) (x : List K) (T : K) : Pulse K :=
  { p with params := x, finalTime := T, timeGrid := linspace0 T p.binsNumber }

/-- `get_pulse` (BasePulse.py:360-371): the object with updated inputs and the delivered pulse. -/
def Pulse.getPulse (M : MathFns K) (p : Pulse K) (x : List K) (T : K) : Py (Pulse K × List K) := do
  let p' := p.setInputs x T
  let u ← p'.build M
  pure (p', u)

/-- `get_bare_pulse` (BasePulse.py:373-383). -/
def Pulse.getBarePulse (M : MathFns K) (p : Pulse K) (x : List K) (T : K) : Py (Pulse K × List K) := do
  let p' := p.setInputs x T
  let u ← p'.shaped M
  pure (p', u)

/-- `set_base_pulse` (BasePulse.py:385-397). -/
def Pulse.setBasePulse (M : MathFns K) (p : Pulse K) (x : List K) (T : K) : Py (Pulse K) := do
  let p' := p.setInputs x T
  let s ← p'.shaped M
  if p'.overwrite then pure { p' with basePulse := s }
  else do
    let b ← iadd p'.basePulse s
    pure { p' with basePulse := b }

/-- `Uniform.set_random_super_parameter` (Uniform.py:33-48): `w[i] = a + i*k_bins + k_bins*random_array[i]`
with `k_bins = (b - a)/k`; `rnd` is the array of `k` random numbers. -/
def uniformDraw (a b : K) (k : ℕ) (rnd : List K) : Py (List K) :=
  (List.range k).mapM (fun (i : ℕ) => do
    let r ← getIdx rnd i
    let kBins := (b - a) / (k : K)
    pure (a + (i : K) * kBins + kBins * r))

/-- `isinstance(pulse, ChoppedBasis)`: all bases except the piecewise one (PiecewiseBasis.py inherits from BasePulse). -/
def Basis.isChopped : Basis K → Bool
  | .piecewise => false
  | _ => true

/-- `pulse.super_parameter_distribution_obj.set_random_super_parameter()` (Controls.py:133). -/
def Pulse.drawSuper (p : Pulse K) (rnd : List K) : Py (Pulse K) := do
  let w ← uniformDraw p.wLower p.wUpper (basisSuper p.basis) rnd
  pure { p with w := w }

/-- `set_control_parameters_list` (BasePulse.py:237-239): the index list is recomputed, `last_index` is not. -/
def Pulse.setCtrlList (p : Pulse K) (mapIndex : ℤ) : Pulse K :=
  { p with ctrlList := ctrlIndices mapIndex p.nParams }

end
end QuOCS

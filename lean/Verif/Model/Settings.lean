/-
Model of how an `Optimizer` is created from the optimization dictionary: `Optimizer.__init__`, the constructors of the algorithms, of
the direct search methods, of their stopping criteria and of the controls. The constructors read the dictionary and write missing
entries into it (`setdefault`), so the dictionary is the state.

Simplifications: an integer and a float with the same value are the same number; `NaN` and infinities do not occur as settings.
-/
import Verif.Model.Json
import Verif.Model.Prog
import Verif.Model.Lookup
import Verif.Model.Controls
import Verif.Model.Random
import Mathlib.Data.Rat.Floor

namespace QuOCS

/-! ### Dictionaries -/

/-- `d.get(k)`, `none` if the key is not there. -/
def PDict.get? (k : String) : PDict → Option PVal
  | .nil => none
  | .cons k' v l => if k = k' then some v else l.get? k

/-- The keys. -/
def PDict.keyList : PDict → List String
  | .nil => []
  | .cons k _ l => k :: l.keyList

/-- `None` -/
abbrev PVal.null : PVal := .atom .null
/-- a number -/
abbrev PVal.num (q : ℚ) : PVal := .atom (.num q)
/-- a string -/
abbrev PVal.str (s : String) : PVal := .atom (.str s)
/-- `True` or `False` -/
abbrev PVal.bool (b : Bool) : PVal := .atom (.bool b)

/-- `d.setdefault(k, v)` -/
def setdefault (k : String) (v : PVal) : Prog PDict PVal := fun d =>
  match d.get? k with
  | some w => (.ok w, d)
  | none => (.ok v, d.insert k v)

/-- `d.setdefault(k, v)` as a statement -/
def fillDefault (k : String) (v : PVal) : Prog PDict Unit := fun d => (.ok (), (setdefault k v d).2)

/-- `d[k]` -/
def item (k : String) : Prog PDict PVal := fun d =>
  match d.get? k with
  | some w => (.ok w, d)
  | none => (.error .keyError, d)

/-- `d.get(k, None)` -/
def getOpt (k : String) : Prog PDict (Option PVal) := fun d => (.ok (d.get? k), d)

/-- Working with the dictionary `d[k]`: the changes are made in `d[k]` itself. `KeyError` if it is not there; methods of dictionaries
on an object of another type: `AttributeError`. -/
def inDict {α : Type} (k : String) (m : Prog PDict α) : Prog PDict α := fun d =>
  match d.get? k with
  | some (.dict s) => ((m s).1, d.insert k (.dict (m s).2))
  | some _ => (.error .attributeError, d)
  | none => (.error .keyError, d)

/-- Working with the dictionary `d.setdefault(k, {})`. -/
def inDictDefault {α : Type} (k : String) (m : Prog PDict α) : Prog PDict α := fun d =>
  match d.get? k with
  | some (.dict s) => ((m s).1, d.insert k (.dict (m s).2))
  | some _ => (.error .attributeError, d)
  | none => ((m .nil).1, d.insert k (.dict (m .nil).2))

/-- `for x in l: …` for a list of dictionaries, each worked with in place; an exception ends the loop. Indexing an item that is not a
dictionary with a string: `TypeError`. -/
def forItems {α : Type} (m : Prog PDict α) : PList → Py (List α) × PList
  | .nil => (.ok [], .nil)
  | .cons (.dict s) l =>
    match (m s).1 with
    | .error e => (.error e, .cons (.dict (m s).2) l)
    | .ok a => ((forItems m l).1.map (a :: ·), .cons (.dict (m s).2) (forItems m l).2)
  | .cons v l => (.error .typeError, .cons v l)

/-- `for x in d[k]: …`. Simplification: the iteration over an object that is not a list is a `TypeError`. -/
def inItems {α : Type} (k : String) (m : Prog PDict α) : Prog PDict (List α) := fun d =>
  match d.get? k with
  | some (.list l) => ((forItems m l).1, d.insert k (.list (forItems m l).2))
  | some _ => (.error .typeError, d)
  | none => (.error .keyError, d)

/-! ### Values -/

/-- What is outside of the model: Python's parser of numbers, the import system and the user's functions. -/
structure PyLib where
  /-- `int(s)` for a string, `none`: `ValueError` -/
  intOfStr : String → Option ℤ
  /-- a string as an item of an array of floats, `none`: `ValueError` -/
  floatOfStr : String → Option ℚ
  /-- whether `module.class` can be imported -/
  exists_ : String → String → Bool
  /-- `eval(s)` for a function of the time -/
  evalGuess : String → Py (Sampler ℚ)
  /-- `eval(s)` for a function of the time and perhaps the pulse -/
  evalScaling : String → Py (Scaling ℚ)
  /-- the function in a Python file: path, function, path mode (BasePulse.py:124-147); also the default for missing files -/
  guessFile : PVal → PVal → PVal → Py (Sampler ℚ)
  /-- the function in a Python file: path, function, path mode (BasePulse.py:157-180); also the default for missing files -/
  scalingFile : PVal → PVal → PVal → Py (Scaling ℚ)
  /-- a number drawn by `np.random.randint(0, 10000)` (ADAlgorithm.py:79, 85) -/
  randint : ℕ
  /-- the functions of the bases -/
  M : MathFns ℚ

/-- `int(v)` -/
def pyInt (lib : PyLib) : PVal → Py ℤ
  | .atom (.num q) => .ok (if 0 ≤ q then ⌊q⌋ else ⌈q⌉)
  | .atom (.bool b) => .ok (if b then 1 else 0)
  | .atom (.str s) => match lib.intOfStr s with
    | some z => .ok z
    | none => .error .valueError
  | _ => .error .typeError

/-- A number. Simplification: where the code computes with a setting, another type is a `TypeError` when the setting is read. -/
def numOf : PVal → Py ℚ
  | .atom (.num q) => .ok q
  | .atom (.bool b) => .ok (if b then 1 else 0)
  | _ => .error .typeError

/-- A name. Simplification: names are strings. -/
def nameOf : PVal → Py String
  | .atom (.str s) => .ok s
  | _ => .error .typeError

/-- The truth value of an object. -/
def truthy : PVal → Bool
  | .atom .null => false
  | .atom (.bool b) => b
  | .atom (.num q) => q ≠ 0
  | .atom (.str s) => s ≠ ""
  | .list .nil => false
  | .dict .nil => false
  | _ => true

/-- A number of items: a list of negative length is empty, so its last item does not exist (BasePulse.py:92-94). -/
def countOf : PVal → Py ℕ
  | .atom (.num q) => if q < 0 then .error .indexError else if q.den = 1 then .ok q.num.toNat else .error .typeError
  | _ => .error .typeError

/-- Number of entries of an array (`np.zeros(n)`). -/
def lengthOf : PVal → Py ℕ
  | .atom (.num q) => if q.den = 1 then (if q < 0 then .error .valueError else .ok q.num.toNat) else .error .typeError
  | _ => .error .typeError

/-- `np.asarray(l, dtype=float)` for a list of numbers. Simplification: nested lists are a `ValueError`. -/
def floatList (lib : PyLib) : PList → Py (List ℚ)
  | .nil => .ok []
  | .cons v l => do
    let x ← match v with
      | .atom (.num q) => Except.ok q
      | .atom (.bool b) => Except.ok (if b then 1 else 0)
      | .atom (.str s) => match lib.floatOfStr s with
        | some q => Except.ok q
        | none => Except.error PyErr.valueError
      | .list _ => Except.error PyErr.valueError
      | _ => Except.error PyErr.typeError
    let xs ← floatList lib l
    pure (x :: xs)

/-- An array of floats from a setting; a number is an array without `shape[0]` (`IndexError` at dCRABAlgorithm.py:104). -/
def floatArray (lib : PyLib) : PVal → Py (List ℚ)
  | .list l => floatList lib l
  | .ndarray (.list l) => floatList lib l
  | .atom (.num _) => .error .indexError
  | .atom (.bool _) => .error .indexError
  | .atom (.str s) => match lib.floatOfStr s with
    | some _ => .error .indexError
    | none => .error .valueError
  | .atom .null => .error .indexError
  | _ => .error .typeError

/-- A list of names. -/
def nameList : PList → Py (List String)
  | .nil => .ok []
  | .cons v l => do
    let x ← nameOf v
    let xs ← nameList l
    pure (x :: xs)

/-! ### Classes -/

/-- A string or nothing, as an argument of `dynamic_import`; another object is not found. -/
def strOpt : Option PVal → Option String
  | some (.atom (.str s)) => some s
  | _ => none

/-- The class found by `dynamic_import`: module and class name; an object given as attribute is `("", "")`. -/
def importClass (lib : PyLib) (attr moduleName className name : Option PVal) (classType : String) : Option (String × String) :=
  dynamicImport (fun m c => if lib.exists_ m c then some (m, c) else none)
    { attr := match attr with
        | none => none
        | some (.atom .null) => none
        | some _ => some ("", "")
      moduleName := strOpt moduleName, className := strOpt className, name := strOpt name, classType := some classType }

/-- The algorithm class: the classes of the library or another one. -/
def algClass (c : String × String) : Option AlgName :=
  if c = ("quocslib.optimizationalgorithms.dCRABAlgorithm", "dCRABAlgorithm") then some .dcrab
  else if c = ("quocslib.optimizationalgorithms.DirectSearchAlgorithm", "DirectSearchAlgorithm") then some .directSearch
  else if c = ("quocslib.optimizationalgorithms.GRAPEAlgorithm", "GRAPEAlgorithm") then some .grape
  else if c = ("quocslib.optimizationalgorithms.ADAlgorithm", "ADAlgorithm") then some .ad
  else none

/-- The direct search method: a class of the library or another one. -/
inductive MethodName
  | nelderMead | cmaes | other (module cls : String)
  deriving DecidableEq, Repr

@[inherit_doc MethodName] def methodClass (c : String × String) : MethodName :=
  if c = ("quocslib.gradientfreemethods.NelderMead", "NelderMead") then .nelderMead
  else if c = ("quocslib.gradientfreemethods.CMAES", "CMAES") then .cmaes
  else .other c.1 c.2

/-! ### Controls -/

/-- A user supplied function given by a dictionary (BasePulse.py:117-150, 152-183): kind and argument. -/
inductive FnSource
  | lambda (v : PVal) | list (l : PVal) | file (path name mode : PVal) | default

/-- Whether `d.get(k)` is `None` or missing. -/
def isNone (k : String) : Prog PDict Bool := fun d =>
  (.ok (match d.get? k with
    | none => true
    | some (.atom .null) => true
    | some _ => false), d)

/-- Reading such a dictionary. -/
def readFnSource : Prog PDict FnSource := do
  let t ← item "function_type"
  if strOpt (some t) = some "lambda_function" then do
    let v ← item "lambda_function"
    pure (.lambda v)
  else if strOpt (some t) = some "list_function" then do
    let v ← item "list_function"
    pure (.list v)
  else if strOpt (some t) = some "python_file" then do
    let p ← setdefault "file_path" (.str "")
    let n ← setdefault "function_name" (.str "")
    let m ← setdefault "path_mode" (.str "relative")
    pure (.file p n m)
  else pure .default

/-- The argument `initial_guess` or `scaling_function`: `None` and a missing one are the same (BasePulse.py:78-83). -/
def readFn (k : String) : Prog PDict FnSource := do
  if ← isNone k then pure .default else inDict k readFnSource

/-- `np.asarray(l)` for the values of a function. -/
def valuesOf (lib : PyLib) : PVal → Py (List ℚ)
  | .list l => floatList lib l
  | .ndarray (.list l) => floatList lib l
  | .atom (.num q) => .ok [q]
  | _ => .error .typeError

/-- The initial guess (BasePulse.py:117-150); `eval` of an object that is no string: `TypeError`. -/
def guessOf (lib : PyLib) : FnSource → Py (Sampler ℚ)
  | .lambda (.atom (.str s)) => lib.evalGuess s
  | .lambda _ => .error .typeError
  | .list v => (valuesOf lib v).map .array
  | .file p n m => lib.guessFile p n m
  | .default => .ok (.callable fun t => t.map fun x => 0 * x)

/-- The scaling function (BasePulse.py:152-183). -/
def scalingOf (lib : PyLib) : FnSource → Py (Scaling ℚ)
  | .lambda (.atom (.str s)) => lib.evalScaling s
  | .lambda _ => .error .typeError
  | .list v => (valuesOf lib v).map .array
  | .file p n m => lib.scalingFile p n m
  | .default => .ok (.callable fun t => t.map fun x => 1 + 0 * x)

/-- `setdefault` of a number. -/
def numSetting (k : String) (v : ℚ) : Prog PDict ℚ := do
  let x ← setdefault k (.num v)
  Prog.lift (numOf x)

/-- `basis_dict.setdefault("basis_vector_number", 1)` (e.g. Fourier.py:43). -/
def vectorNumber : Prog PDict ℕ := do
  let x ← setdefault "basis_vector_number" (.num 1)
  Prog.lift (countOf x)

/-- The settings of a basis class `m`, read before `BasePulse.__init__`: Fourier.py:41-45, Chebyshev.py:42-46, Sinc.py:41-47,
Walsh.py:40-44, PiecewiseBasis.py:41, Sigmoid.py:40-48, SigmoidTimeDep.py:39-53, SigmoidSigmas.py:39-50, SigmoidAllParas.py:39-57.
`bins` is the value of `bins_number` in the dictionary of the pulse. Bases of users are not modelled: `NotImplementedError` stands for
whatever they do. -/
def readBasisSettings (bins : Option PVal) (m : String) : Prog PDict (Basis ℚ) :=
  if m = "quocslib.pulses.basis.PiecewiseBasis" then
    match bins with
    | none => Prog.raise .keyError
    | some b => do
      let _ ← Prog.lift (countOf b)
      pure .piecewise
  else if m = "quocslib.pulses.basis.Fourier" then do
    let n ← vectorNumber
    pure (.fourier n)
  else if m = "quocslib.pulses.basis.Chebyshev" then do
    let n ← vectorNumber
    pure (.chebyshev n)
  else if m = "quocslib.pulses.basis.Walsh" then do
    let n ← vectorNumber
    pure (.walsh n)
  else if m = "quocslib.pulses.basis.Sinc" then do
    let n ← vectorNumber
    let b ← numSetting "basis_max" 1
    pure (.sinc n b)
  else if m = "quocslib.pulses.basis.Sigmoid" then do
    let n ← vectorNumber
    let o ← numSetting "offset" (1 / 10)
    let s ← numSetting "sigma" (1 / 10)
    pure (.sigmoid n o s)
  else if m = "quocslib.pulses.basis.SigmoidTimeDep" then do
    let n ← vectorNumber
    let s ← numSetting "sigma" (1 / 10 ^ 10)
    let o ← numSetting "offset" (-10 * s)
    let t ← numSetting "tau_variation" (1 / 10)
    pure (.sigmoidTimeDep n o s t)
  else if m = "quocslib.pulses.basis.SigmoidSigmas" then do
    let n ← vectorNumber
    let s ← numSetting "sigma" (1 / 10 ^ 10)
    let o ← numSetting "offset" (-10 * s)
    let v ← numSetting "sigma_variation" 1
    pure (.sigmoidSigmas n o s v)
  else if m = "quocslib.pulses.basis.SigmoidAllParas" then do
    let n ← vectorNumber
    let s ← numSetting "sigma" (1 / 10 ^ 10)
    let o ← numSetting "offset" (-10 * s)
    let t ← numSetting "tau_variation" (1 / 10 ^ 20)
    let v ← numSetting "sigma_variation" (1 / 10 ^ 20)
    pure (.sigmoidAllParas n o s t v)
  else Prog.raise .notImplemented

/-- The dictionary `pulse["basis"]`: the class (Controls.py:54-60; calling `None`: `TypeError`) and its settings. -/
def readBasis (lib : PyLib) (bins : Option PVal) : Prog PDict (Basis ℚ) := do
  let attr ← setdefault "basis_attribute" .null
  let mod ← setdefault "basis_module" .null
  let cls ← setdefault "basis_class" .null
  let name ← setdefault "basis_name" .null
  match importClass lib (some attr) (some mod) (some cls) (some name) "basis" with
  | none => Prog.raise .typeError
  | some c => readBasisSettings bins c.1

/-- A keyword argument of a constructor that is not `None`: number, name or truth value with the default of the signature. -/
def numArg (k : String) (v : ℚ) : Prog PDict ℚ := do
  let x ← getOpt k
  Prog.lift (numOf (x.getD (.num v)))
@[inherit_doc numArg] def nameArg (k : String) (v : String) : Prog PDict String := do
  let x ← getOpt k
  Prog.lift (nameOf (x.getD (.str v)))
@[inherit_doc numArg] def boolArg (k : String) : Prog PDict Bool := do
  let x ← getOpt k
  pure (truthy (x.getD (.bool false)))

@[inherit_doc numArg] def lengthArg (k : String) (v : ℚ) : Prog PDict ℕ := do
  let x ← getOpt k
  Prog.lift (lengthOf (x.getD (.num v)))

/-- The distribution of the super-parameters of a chopped basis: ChoppedBasis.py:36-46, Uniform.py:24-32,
SuperParameterDistribution.py:23-27. The limits of the distribution. Distributions of users are not modelled. -/
def readDistribution (lib : PyLib) : Prog PDict (ℚ × ℚ) := do
  let attr ← setdefault "distribution_attribute" .null
  let mod ← setdefault "distribution_module" .null
  let cls ← setdefault "distribution_class" .null
  let name ← setdefault "distribution_name" .null
  match importClass lib (some attr) (some mod) (some cls) (some name) "superparameter_distribution" with
  | none => Prog.raise .typeError
  | some c =>
    if c.1 = "quocslib.pulses.superparameter.Uniform" then do
      let l ← numArg "lower_limit" 0
      let u ← numArg "upper_limit" 5
      pure (l, u)
    else Prog.raise .notImplemented

/-- The distribution is read by the chopped bases (ChoppedBasis.py:35-46). -/
def readSuper (lib : PyLib) (basis : Basis ℚ) : Prog PDict (ℚ × ℚ) :=
  if basis.isChopped then inDict "basis" (inDict "random_super_parameter_distribution" (readDistribution lib)) else pure (0, 0)

/-- `shaping_options` (BasePulse.py:102-114). Simplification: the items are strings. -/
def shapingOf : Option PVal → Py (Option (List String))
  | none => .ok none
  | some (.atom .null) => .ok none
  | some (.list l) => (nameList l).map some
  | some _ => .error .typeError

/-- The constructor is called with `map_index`, `rng` and `is_AD` and with all entries of the dictionary (e.g. Fourier.py:47): two
values for one argument are a `TypeError`. -/
def noClash : Prog PDict Unit := do
  let a ← getOpt "map_index"
  let b ← getOpt "rng"
  let c ← getOpt "is_AD"
  if a.isSome || b.isSome || c.isSome then Prog.raise .typeError else pure ()

/-- The basis of a pulse. -/
def readPulseBasis (lib : PyLib) : Prog PDict (Basis ℚ) := do
  let bins ← getOpt "bins_number"
  inDict "basis" (readBasis lib bins)

/-- One pulse: Controls.py:52-64, the constructor of the basis, BasePulse.py:36-200. -/
def readPulse (lib : PyLib) : Prog PDict (PulseDict ℚ) := do
  let basis ← readPulseBasis lib
  noClash
  let name ← nameArg "pulse_name" "pulse"
  let time ← nameArg "time_name" "time"
  let lower ← numArg "lower_limit" 0
  let upper ← numArg "upper_limit" 1
  let ampl ← numArg "amplitude_variation" 1
  let n ← lengthArg "bins_number" 101
  if basisParams n basis = 0 then Prog.raise .indexError else do
  let so ← getOpt "shaping_options"
  let so ← Prog.lift (shapingOf so)
  let g ← readFn "initial_guess"
  let g ← Prog.lift (guessOf lib g)
  let sc ← readFn "scaling_function"
  let sc ← Prog.lift (scalingOf lib sc)
  let shrink ← boolArg "shrink_ampl_lim"
  let over ← boolArg "overwrite_base_pulse"
  let w ← readSuper lib basis
  pure { pulseName := name, timeName := time, binsNumber := n, lowerLimit := lower, upperLimit := upper,
         amplitudeVariation := ampl, shrink := shrink, guess := g, scaling := sc, shapingOptions := so, overwrite := over,
         basis := basis, wLower := w.1, wUpper := w.2 }

/-- A constructor without `**kwargs`: an unknown keyword is a `TypeError`. -/
def onlyKeys (allowed : List String) : Prog PDict Unit := fun d =>
  (if d.keyList.all (· ∈ allowed) then .ok () else .error .typeError, d)

/-- One parameter: Controls.py:70-73, Parameter.py:22-23, BaseParameter.py:24-33; the other arguments `map_index` and `is_AD` are given
by the caller. -/
def readParam : Prog PDict (ParamDict ℚ) := do
  onlyKeys ["parameter_name", "initial_value", "lower_limit", "upper_limit", "amplitude_variation"]
  let name ← nameArg "parameter_name" "parameter"
  let value ← numArg "initial_value" 1
  let lower ← numArg "lower_limit" (1 / 10)
  let upper ← numArg "upper_limit" (11 / 10)
  let ampl ← numArg "amplitude_variation" (1 / 10)
  pure { name := name, initialValue := value, lower := lower, upper := upper, amplitudeVariation := ampl }

/-- One time: Controls.py:78-80, TimeParameter.py:36-45. -/
def readTime : Prog PDict (TimeDict ℚ) := do
  let t ← item "time_name"
  let name ← Prog.lift (nameOf t)
  onlyKeys ["map_index", "time_name", "initial_value", "is_optimization", "lower_limit", "upper_limit", "amplitude_variation"]
  let value ← numArg "initial_value" 1
  let isOpt ← boolArg "is_optimization"
  let lower ← numArg "lower_limit" 0
  let upper ← numArg "upper_limit" 1
  let ampl ← numArg "amplitude_variation" (1 / 10)
  pure { name := name, initialValue := value, isOptimization := isOpt, lower := lower, upper := upper, amplitudeVariation := ampl }

/-- The controls of an optimizer as configured. -/
structure ControlDicts where
  pulses : List (PulseDict ℚ)
  times : List (TimeDict ℚ)
  params : List (ParamDict ℚ)

/-- `Controls(optimization_dict["pulses"], optimization_dict["times"], optimization_dict["parameters"])` (Controls.py:33-96). -/
def readControls (lib : PyLib) : Prog PDict ControlDicts := do
  let ps ← inItems "pulses" (readPulse lib)
  let prs ← inItems "parameters" readParam
  let ts ← inItems "times" readTime
  let _ ← Prog.lift (mkControls lib.M ps ts prs)
  pure { pulses := ps, times := ts, params := prs }

/-! ### Algorithms -/

/-- The settings common to all algorithms. -/
structure CoreSettings where
  pulseNames : List PVal
  paramNames : List PVal
  timeNames : List PVal
  maxEvalTotal : ℤ
  totalTimeLim : PVal
  maximize : Bool
  /-- `FoM_goal` as configured -/
  goal : PVal

/-- The direction (OptimizationAlgorithm.py:75-84): `TypeError` for another one. -/
def directionOf (v : PVal) : Py Bool :=
  if strOpt (some v) = some "minimization" then .ok false
  else if strOpt (some v) = some "maximization" then .ok true
  else .error .typeError

/-- `self.FoM_goal * self.FoM_factor` (OptimizationAlgorithm.py:88-90): objects that cannot be multiplied with a number. -/
def goalOf : PVal → Py PVal
  | .dict _ => .error .typeError
  | .cls _ => .error .typeError
  | .fn _ => .error .typeError
  | .other _ => .error .typeError
  | v => .ok v

/-- `OptimizationAlgorithm.__init__` (OptimizationAlgorithm.py:49-109) with `_get_controls_names` (305-316). The dictionary is also
written to a file (line 57), which does not change it. -/
def readCore (lib : PyLib) : Prog PDict CoreSettings := do
  let pn ← inItems "pulses" (item "pulse_name")
  let an ← inItems "parameters" (item "parameter_name")
  let tn ← inItems "times" (item "time_name")
  inDict "algorithm_settings" do
    let m ← setdefault "max_eval_total" (.num (10 ^ 10))
    let m ← Prog.lift (pyInt lib m)
    let t ← setdefault "total_time_lim" (.num (10 ^ 10))
    let dir ← setdefault "optimization_direction" (.str "minimization")
    let mx ← Prog.lift (directionOf dir)
    let g ← setdefault "FoM_goal" .null
    let g ← Prog.lift (goalOf g)
    pure { pulseNames := pn, paramNames := an, timeNames := tn, maxEvalTotal := m, totalTimeLim := t, maximize := mx, goal := g }

/-- The settings of a direct search method. -/
structure MethodSettings where
  method : MethodName
  parallel : PVal
  adaptive : PVal
  /-- CMA-ES only, `None` otherwise -/
  population : PVal

/-- The settings of the stopping criteria of a direct search. -/
structure StopSettings where
  maxEval : PVal
  timeLim : PVal
  changeBased : PVal
  xatol : PVal
  fatol : PVal

/-- The entries written for `change_based_stop` (StoppingCriteria.py:44-47). -/
def changeBasedDefault : PVal := .dict (.cons "cbs_funct_evals" (.num 1) (.cons "cbs_change" (.num 0) .nil))

/-- StoppingCriteria.py:42-47, NelderMeadStoppingCriteria.py:35-36, CMAESStoppingCriteria.py:33-34. -/
def readStopping : Prog PDict StopSettings := do
  let a ← setdefault "max_eval" (.num (10 ^ 10))
  let b ← setdefault "time_lim" (.num (10 ^ 10))
  let c ← setdefault "change_based_stop" changeBasedDefault
  let d ← setdefault "xatol" (.num (1 / 10 ^ 14))
  let e ← setdefault "fatol" (.num (1 / 10 ^ 100))
  pure { maxEval := a, timeLim := b, changeBased := c, xatol := d, fatol := e }

/-- The class of the search method (dCRABAlgorithm.py:60-63, DirectSearchAlgorithm.py:53-66; `None` is called: `TypeError`).
`deprecated`: the entry `dsm_name` selects Nelder-Mead (DirectSearch only). -/
def readMethodName (lib : PyLib) (deprecated : Bool) : Prog PDict MethodName := do
  let old ← getOpt "dsm_name"
  if deprecated && old.isSome then pure .nelderMead else do
  let m ← setdefault "dsm_algorithm_module" .null
  let c ← setdefault "dsm_algorithm_class" .null
  let n ← setdefault "dsm_algorithm_name" .null
  match importClass lib none (some m) (some c) (some n) "dsm_settings" with
  | none => Prog.raise .typeError
  | some cl => pure (methodClass cl)

/-- NelderMead.py:35-36, CMAES.py:37-39. Methods of users are not modelled: `NotImplementedError` stands for whatever they do. -/
def readMethod (lib : PyLib) (deprecated : Bool) : Prog PDict MethodSettings := do
  let meth ← readMethodName lib deprecated
  match meth with
  | .nelderMead => do
    let p ← setdefault "parallelization" (.bool false)
    let a ← setdefault "is_adaptive" (.bool false)
    pure { method := .nelderMead, parallel := p, adaptive := a, population := .null }
  | .cmaes => do
    let p ← setdefault "parallelization" (.bool false)
    let a ← setdefault "is_adaptive" (.bool false)
    let n ← setdefault "population" .null
    pure { method := .cmaes, parallel := p, adaptive := a, population := n }
  | .other _ _ => Prog.raise .notImplemented

/-- `re_evaluation_steps` (dCRABAlgorithm.py:91-107, DirectSearchAlgorithm.py:77-93). Simplification: an object that is not a
dictionary is a `TypeError`. -/
def reEvalOf (lib : PyLib) : Option PVal → Py (Option (List ℚ))
  | none => .ok none
  | some (.dict r) =>
    match r.get? "re_evaluation_steps" with
    | some v => (floatArray lib v).map some
    | none => .ok (some [3 / 10, 1 / 2, 501 / 1000])
  | some _ => .error .typeError

/-- `random_number_generator` (dCRABAlgorithm.py:109-112). Simplification: lists of integers, which NumPy also accepts, are not
distinguished from objects that it does not accept. -/
def seedOf : Option PVal → SeedSetting
  | none => .absent
  | some (.dict r) =>
    match r.get? "seed_number" with
    | none => .malformed
    | some (.atom .null) => .noneSeed
    | some (.atom (.num q)) => if q.den = 1 then .int q.num else .badType
    | some _ => .badType
  | some _ => .malformed

/-- The settings of dCRAB and of the direct search algorithm. -/
structure SearchSettings where
  kind : AlgKind
  core : CoreSettings
  method : MethodSettings
  stop : StopSettings
  /-- 0 for the direct search algorithm -/
  maxSI : ℤ
  /-- `compensate_drift_after_SI`, `False` for the direct search algorithm -/
  afterSI : Bool
  minutes : PVal
  average : PVal
  reEval : Option (List ℚ)
  rng : RngObj
  controls : ControlDicts

/-- `dCRABAlgorithm.__init__` (dCRABAlgorithm.py:37-140). -/
def readDcrab (lib : PyLib) : Prog PDict SearchSettings := do
  let core ← readCore lib
  let tl ← inDict "algorithm_settings" (setdefault "total_time_lim" (.num (10 ^ 10)))
  inDict "algorithm_settings" (inDict "dsm_settings" (inDict "stopping_criteria" (fillDefault "total_time_lim" tl)))
  inDict "algorithm_settings" (inDict "dsm_settings" (inDict "stopping_criteria" (fillDefault "k3" (.num 3))))
  let meth ← inDict "algorithm_settings" (inDict "dsm_settings" (inDict "general_settings" (readMethod lib false)))
  let stop ← inDict "algorithm_settings" (inDict "dsm_settings" (inDict "stopping_criteria" readStopping))
  inDict "algorithm_settings" (inDictDefault "compensate_drift" (pure ()))
  let si ← inDict "algorithm_settings" (item "super_iteration_number")
  let si ← Prog.lift (pyInt lib si)
  let (after, minutes, average) ← inDict "algorithm_settings" (inDictDefault "compensate_drift" do
    let a ← setdefault "compensate_after_SI" (.bool false)
    let m ← setdefault "compensate_after_minutes" (.num 0)
    let n ← setdefault "num_average" (.num 1)
    pure (a, m, n))
  let mins ← Prog.lift (numOf minutes)
  let re ← inDict "algorithm_settings" (getOpt "re_evaluation")
  let re ← Prog.lift (reEvalOf lib re)
  let sd ← inDict "algorithm_settings" (getOpt "random_number_generator")
  let rng ← Prog.lift (mkRng .dcrab (seedOf sd) lib.randint)
  let ctl ← readControls lib
  pure { kind := .dcrab, core := core, method := meth, stop := stop, maxSI := si, afterSI := truthy after || decide (0 < mins),
         minutes := minutes, average := average, reEval := re, rng := rng, controls := ctl }

/-- `DirectSearchAlgorithm.__init__` (DirectSearchAlgorithm.py:37-108). -/
def readDirectSearch (lib : PyLib) : Prog PDict SearchSettings := do
  let core ← readCore lib
  let tl ← inDict "algorithm_settings" (setdefault "total_time_lim" (.num (10 ^ 10)))
  inDict "algorithm_settings" (inDict "dsm_settings" (inDict "stopping_criteria" (fillDefault "total_time_lim" tl)))
  let meth ← inDict "algorithm_settings" (inDict "dsm_settings" (inDict "general_settings" (readMethod lib true)))
  let stop ← inDict "algorithm_settings" (inDict "dsm_settings" (inDict "stopping_criteria" readStopping))
  let (minutes, average) ← inDict "algorithm_settings" (inDictDefault "compensate_drift" do
    let m ← setdefault "compensate_after_minutes" (.num 0)
    let n ← setdefault "num_average" (.num 1)
    pure (m, n))
  let re ← inDict "algorithm_settings" (getOpt "re_evaluation")
  let re ← Prog.lift (reEvalOf lib re)
  let ctl ← readControls lib
  pure { kind := .directSearch, core := core, method := meth, stop := stop, maxSI := 0, afterSI := false, minutes := minutes,
         average := average, reEval := re, rng := .none, controls := ctl }

/-- The settings of the gradient algorithms. -/
structure GradientSettings where
  core : CoreSettings
  sysType : PVal
  maxEval : PVal
  ftol : PVal
  gtol : PVal
  maxls : PVal
  /-- 1 for GRAPE -/
  maxSI : ℤ
  rng : RngObj
  controls : ControlDicts

/-- The stopping criteria of the gradient algorithms (GRAPEAlgorithm.py:62-66, ADAlgorithm.py:63-67). -/
def readGradientStopping : Prog PDict (PVal × PVal × PVal × PVal) := do
  let a ← setdefault "max_eval_total" (.num (10 ^ 10))
  let b ← setdefault "ftol" (.num (1 / 10 ^ 6))
  let c ← setdefault "gtol" (.num (1 / 10 ^ 6))
  let d ← setdefault "maxls" (.num 20)
  pure (a, b, c, d)

/-- `GRAPEAlgorithm.__init__` (GRAPEAlgorithm.py:37-104); the methods of the user's problem (lines 51-56) are assumed to return. -/
def readGrape (lib : PyLib) : Prog PDict GradientSettings := do
  let core ← readCore lib
  let sys ← setdefault "sys_type" (.str "StateTransfer")
  let st ← inDict "algorithm_settings" (inDictDefault "stopping_criteria" readGradientStopping)
  let sd ← inDict "algorithm_settings" (getOpt "random_number_generator")
  let rng ← Prog.lift (mkRng .grape (seedOf sd) lib.randint)
  let ctl ← readControls lib
  if ctl.pulses.isEmpty then Prog.raise .indexError else
  pure { core := core, sysType := sys, maxEval := st.1, ftol := st.2.1, gtol := st.2.2.1, maxls := st.2.2.2, maxSI := 1, rng := rng,
         controls := ctl }

/-- `ADAlgorithm.__init__` (ADAlgorithm.py:46-107). -/
def readAD (lib : PyLib) : Prog PDict GradientSettings := do
  let core ← readCore lib
  let sys ← setdefault "sys_type" (.str "StateTransfer")
  let si ← inDict "algorithm_settings" (setdefault "super_iteration_number" (.num 1))
  let si ← Prog.lift (pyInt lib si)
  let st ← inDict "algorithm_settings" (inDictDefault "stopping_criteria" readGradientStopping)
  let sd ← inDict "algorithm_settings" (getOpt "random_number_generator")
  let rng ← Prog.lift (mkRng .ad (seedOf sd) lib.randint)
  let ctl ← readControls lib
  pure { core := core, sysType := sys, maxEval := st.1, ftol := st.2.1, gtol := st.2.2.1, maxls := st.2.2.2, maxSI := si, rng := rng,
         controls := ctl }

/-- The algorithm object. -/
inductive AlgSettings
  | search (s : SearchSettings)
  | grape (s : GradientSettings)
  | ad (s : GradientSettings)

/-- A created optimizer: the settings used by it. -/
structure Created where
  clientName : PVal
  createLogfile : PVal
  consoleInfo : PVal
  microsecond : PVal
  dumpFormat : PVal
  /-- `FoM_factor == -1` in the communication object (AllInOneCommunication.py:107-109) -/
  commMaximize : Bool
  alg : AlgSettings

/-- The class of the algorithm (Optimizer.py:76-81); `get` does not write the first three entries. -/
def readClass (lib : PyLib) : Prog PDict (Option (String × String)) := do
  let at_ ← getOpt "algorithm_attribute"
  let mo ← getOpt "algorithm_module"
  let cl ← getOpt "algorithm_class"
  let na ← setdefault "algorithm_name" .null
  pure (importClass lib at_ mo cl (some na) "algorithm")

/-- The algorithm object (Optimizer.py:83-85; `None` is called: `TypeError`). Algorithms of users are not modelled:
`NotImplementedError` stands for whatever they do. -/
def readAlg (lib : PyLib) : Option (String × String) → Prog PDict AlgSettings
  | none => Prog.raise .typeError
  | some cl =>
    match algClass cl with
    | some .dcrab => do
      let s ← readDcrab lib
      pure (.search s)
    | some .directSearch => do
      let s ← readDirectSearch lib
      pure (.search s)
    | some .grape => do
      let s ← readGrape lib
      pure (.grape s)
    | some .ad => do
      let s ← readAD lib
      pure (.ad s)
    | none => Prog.raise .notImplemented

/-- `Optimizer(optimization_dict, FoM_object)` (Optimizer.py:50-85). The other effects of the communication object (folder, logger,
file names) are modelled elsewhere. -/
def createOptimizer (lib : PyLib) : Prog PDict Created := do
  let a ← setdefault "optimization_client_name" (.str "run")
  let b ← setdefault "create_logfile" (.bool true)
  let c ← setdefault "console_info" (.bool true)
  let d ← setdefault "use_microsecond_name" (.bool false)
  let e ← setdefault "dump_format" (.str "npz")
  let dir ← inDict "algorithm_settings" (setdefault "optimization_direction" (.str "minimization"))
  let cls ← inDict "algorithm_settings" (readClass lib)
  let alg ← readAlg lib cls
  pure { clientName := a, createLogfile := b, consoleInfo := c, microsecond := d, dumpFormat := e,
         commMaximize := decide (strOpt (some dir) = some "maximization"), alg := alg }

/-! ### The settings of a run -/

/-- A setting that is a number. -/
def PVal.num? : PVal → Option ℚ
  | .atom (.num q) => some q
  | _ => none

/-- A setting that is an integer. -/
def PVal.int? (v : PVal) : Option ℤ :=
  match v.num? with
  | some q => if q.den = 1 then some q.num else none
  | none => none

/-- A setting that is a number or `None`. -/
def PVal.goal? : PVal → Option (Option ℚ)
  | .atom .null => some none
  | v => v.num?.map some

/-- A setting that is a dictionary. -/
def PVal.dict? : PVal → Option PDict
  | .dict d => some d
  | _ => none

/-- The settings of the model of a run (`AlgCfg`), if all values have the types in the documentation. -/
def SearchSettings.cfg (s : SearchSettings) : Option (AlgCfg ℚ ℚ) := do
  let tl ← s.core.totalTimeLim.num?
  let goal ← s.core.goal.goal?
  let mins ← s.minutes.num?
  let avg ← s.average.int?
  let me ← s.stop.maxEval.int?
  let sl ← s.stop.timeLim.num?
  let xa ← s.stop.xatol.num?
  let fa ← s.stop.fatol.num?
  let cb ← s.stop.changeBased.dict?
  let ce ← (cb.get? "cbs_funct_evals").bind PVal.int?
  let cc ← (cb.get? "cbs_change").bind PVal.num?
  pure { kind := s.kind, maxEvalTotal := s.core.maxEvalTotal, totalTimeLim := tl, maximize := s.core.maximize, userGoal := goal,
         fomMax := 10 ^ 10, initStd := 1 / 10, reEval := s.reEval, half := 1 / 2, tiny := 1 / 10 ^ 14, driftAfterSI := s.afterSI,
         driftMinutes := mins, driftAverage := avg.toNat, maxSI := s.maxSI.toNat,
         sc := { maxEval := me, timeLim := sl, xatol := xa, fatol := fa, cbsEvals := ce, cbsChange := cc } }

end QuOCS

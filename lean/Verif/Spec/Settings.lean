import Verif.Model.Settings
import Verif.Spec.Lookup

/-!
# Settings and their defaults

How an entry of the optimization dictionary is looked up, and the defaults that creating an optimizer fills in.
-/

namespace QuOCS

/-- The entry at a path of keys, e.g. `d["algorithm_settings"]["max_eval_total"]`. -/
def entry : PDict → List String → Option PVal
  | _, [] => none
  | d, [k] => d.get? k
  | d, k :: k' :: p =>
    match d.get? k with
    | some (.dict s) => entry s (k' :: p)
    | _ => none

/-- The configured value, or the default. -/
def setting (d : PDict) (path : List String) (default : PVal) : PVal := (entry d path).getD default

/-- The dictionaries in the list at a key. -/
def dictsIn : PList → List PDict
  | .nil => []
  | .cons (.dict s) l => s :: dictsIn l
  | .cons _ l => dictsIn l

@[inherit_doc dictsIn] def itemsAt (d : PDict) (k : String) : List PDict :=
  match d.get? k with
  | some (.list l) => dictsIn l
  | _ => []

/-! ### Values -/

/-- The entry is the number `q`; `True` and `False` count as 1 and 0. -/
def IsNumber (v : PVal) (q : ℚ) : Prop := v = .num q ∨ v = .bool true ∧ q = 1 ∨ v = .bool false ∧ q = 0

/-- The entry is the whole number `n`, not negative. -/
def IsCount (v : PVal) (n : ℕ) : Prop := v = .num n

/-- `int(v)` is `z`: numbers are rounded towards zero, strings are read by Python. -/
def IsInt (lib : PyLib) (v : PVal) (z : ℤ) : Prop :=
  (∃ q, v = .num q ∧ (0 ≤ q → (z : ℚ) ≤ q ∧ q < z + 1) ∧ (q ≤ 0 → q ≤ z ∧ (z : ℚ) - 1 < q)) ∨
  v = .bool true ∧ z = 1 ∨ v = .bool false ∧ z = 0 ∨ ∃ s, v = .str s ∧ lib.intOfStr s = some z

/-- The entry counts as false in Python. -/
def IsFalse (v : PVal) : Prop :=
  v = .null ∨ v = .bool false ∨ v = .num 0 ∨ v = .str "" ∨ v = .list .nil ∨ v = .dict .nil

/-- The items of a list are the numbers `qs` (for the strings among them: as read by Python). -/
inductive ItemsAre (lib : PyLib) : PList → List ℚ → Prop
  | nil : ItemsAre lib .nil []
  | num (v l q qs) (hv : IsNumber v q) (h : ItemsAre lib l qs) : ItemsAre lib (.cons v l) (q :: qs)
  | str (s l q qs) (hs : lib.floatOfStr s = some q) (h : ItemsAre lib l qs) : ItemsAre lib (.cons (.str s) l) (q :: qs)

/-- The entry is a list or an array of numbers. -/
def IsArray (lib : PyLib) (v : PVal) (qs : List ℚ) : Prop := ∃ l, (v = .list l ∨ v = .ndarray (.list l)) ∧ ItemsAre lib l qs

/-- A list of names. -/
def strList : List String → PList
  | [] => .nil
  | s :: l => .cons (.str s) (strList l)

/-- There is no entry, or it is `None`. -/
def NoEntry (v : Option PVal) : Prop := v = none ∨ v = some .null

/-- A function in the dictionary of a pulse: `given` is the entry (`initial_guess` or `scaling_function`), `f` the function that is
used. `default`, `array`: the default and the function with given samples; `eval`, `file`: the functions of the user, in a string or in
a Python file. -/
def UsesFn {A : Type} (lib : PyLib) (default : A → Prop) (array : List ℚ → A) (eval : String → Py A) (file : PVal → PVal → PVal → Py A)
    (given : Option PVal) (f : A) : Prop :=
  NoEntry given ∧ default f ∨
  ∃ s t, given = some (.dict s) ∧ entry s ["function_type"] = some t ∧
    (t = .str "lambda_function" ∧ (∃ src, entry s ["lambda_function"] = some (.str src) ∧ eval src = .ok f) ∨
     t = .str "list_function" ∧ (∃ v qs, entry s ["list_function"] = some v ∧ (IsArray lib v qs ∨ ∃ q, v = .num q ∧ qs = [q]) ∧ f = array qs) ∨
     t = .str "python_file" ∧ file (setting s ["file_path"] (.str "")) (setting s ["function_name"] (.str ""))
        (setting s ["path_mode"] (.str "relative")) = .ok f ∨
     t ∉ ({.str "lambda_function", .str "list_function", .str "python_file"} : Set PVal) ∧ default f)

/-! ### The settings used by an optimizer -/

/-- The settings common to all algorithms come from the dictionary or are the defaults. -/
structure UsesCore (lib : PyLib) (d : PDict) (c : CoreSettings) : Prop where
  budget : IsInt lib (setting d ["algorithm_settings", "max_eval_total"] (.num (10 ^ 10))) c.maxEvalTotal
  timeLimit : c.totalTimeLim = setting d ["algorithm_settings", "total_time_lim"] (.num (10 ^ 10))
  direction : setting d ["algorithm_settings", "optimization_direction"] (.str "minimization") =
    .str (if c.maximize then "maximization" else "minimization")
  goal : c.goal = setting d ["algorithm_settings", "FoM_goal"] .null
  pulseNames : List.Forall₂ (fun p v => p.get? "pulse_name" = some v) (itemsAt d "pulses") c.pulseNames
  paramNames : List.Forall₂ (fun p v => p.get? "parameter_name" = some v) (itemsAt d "parameters") c.paramNames
  timeNames : List.Forall₂ (fun p v => p.get? "time_name" = some v) (itemsAt d "times") c.timeNames
  required : ∀ k ∈ ["pulses", "parameters", "times"], ∃ l, entry d [k] = some (.list l)

/-- A string. -/
def text : Option PVal → Option String
  | some (.atom (.str s)) => some s
  | _ => none

/-- The class (module and name) selected by the entries for the attribute, the module, the class and the name, with the documented
precedence; an attribute is a class given as an object, written as `("", "")`. -/
def chosen (lib : PyLib) (type : String) (attr moduleName className name : Option PVal) : Option (String × String) :=
  Spec.resolve (fun m c => if lib.exists_ m c then some (m, c) else none)
    { attr := match attr with
        | none => none
        | some (.atom .null) => none
        | some _ => some ("", "")
      moduleName := text moduleName, className := text className, name := text name, classType := some type }

/-- The module and the class of a direct search method. -/
def MethodName.moduleAndClass : MethodName → Option (String × String)
  | .nelderMead => some ("quocslib.gradientfreemethods.NelderMead", "NelderMead")
  | .cmaes => some ("quocslib.gradientfreemethods.CMAES", "CMAES")
  | .other m c => some (m, c)

/-- The direct search method, its settings and its stopping criteria. `deprecated`: the old entry `dsm_name` selects Nelder-Mead. Only
the search methods of the library are modelled. -/
structure UsesMethod (lib : PyLib) (deprecated : Bool) (d : PDict) (m : MethodSettings) (s : StopSettings) : Prop where
  oldName : deprecated = true → entry d ["algorithm_settings", "dsm_settings", "general_settings", "dsm_name"] ≠ none →
    m.method = .nelderMead
  method : deprecated = false ∨ entry d ["algorithm_settings", "dsm_settings", "general_settings", "dsm_name"] = none →
    chosen lib "dsm_settings" none (entry d ["algorithm_settings", "dsm_settings", "general_settings", "dsm_algorithm_module"])
      (entry d ["algorithm_settings", "dsm_settings", "general_settings", "dsm_algorithm_class"])
      (entry d ["algorithm_settings", "dsm_settings", "general_settings", "dsm_algorithm_name"]) =
      m.method.moduleAndClass
  adaptive : m.adaptive = setting d ["algorithm_settings", "dsm_settings", "general_settings", "is_adaptive"] (.bool false)
  population : m.method = .cmaes →
    m.population = setting d ["algorithm_settings", "dsm_settings", "general_settings", "population"] .null
  maxEval : s.maxEval = setting d ["algorithm_settings", "dsm_settings", "stopping_criteria", "max_eval"] (.num (10 ^ 10))
  timeLim : s.timeLim = setting d ["algorithm_settings", "dsm_settings", "stopping_criteria", "time_lim"] (.num (10 ^ 10))
  xatol : s.xatol = setting d ["algorithm_settings", "dsm_settings", "stopping_criteria", "xatol"] (.num (1 / 10 ^ 14))
  fatol : s.fatol = setting d ["algorithm_settings", "dsm_settings", "stopping_criteria", "fatol"] (.num (1 / 10 ^ 100))
  changeBased : s.changeBased = setting d ["algorithm_settings", "dsm_settings", "stopping_criteria", "change_based_stop"]
    (.dict (.cons "cbs_funct_evals" (.num 1) (.cons "cbs_change" (.num 0) .nil)))
  library : m.method = .nelderMead ∨ m.method = .cmaes

/-- The class of the basis of a pulse, and its settings; `s` is the dictionary `basis` of the pulse. -/
def UsesBasis (lib : PyLib) (s : PDict) (x : Basis ℚ) : Prop :=
  let is (name : String) := ∃ c, chosen lib "basis" (entry s ["basis_attribute"]) (entry s ["basis_module"]) (entry s ["basis_class"])
    (entry s ["basis_name"]) = some ("quocslib.pulses.basis." ++ name, c)
  let vectors (n : ℕ) := IsCount (setting s ["basis_vector_number"] (.num 1)) n
  let number (k : String) (default x : ℚ) := IsNumber (setting s [k] (.num default)) x
  match x with
  | .fourier n => is "Fourier" ∧ vectors n
  | .chebyshev n => is "Chebyshev" ∧ vectors n
  | .walsh n => is "Walsh" ∧ vectors n
  | .piecewise => is "PiecewiseBasis"
  | .sinc n m => is "Sinc" ∧ vectors n ∧ number "basis_max" 1 m
  | .sigmoid n o σ => is "Sigmoid" ∧ vectors n ∧ number "offset" (1 / 10) o ∧ number "sigma" (1 / 10) σ
  | .sigmoidTimeDep n o σ τ => is "SigmoidTimeDep" ∧ vectors n ∧ number "offset" (-10 * σ) o ∧ number "sigma" (1 / 10 ^ 10) σ ∧
      number "tau_variation" (1 / 10) τ
  | .sigmoidSigmas n o σ v => is "SigmoidSigmas" ∧ vectors n ∧ number "offset" (-10 * σ) o ∧ number "sigma" (1 / 10 ^ 10) σ ∧
      number "sigma_variation" 1 v
  | .sigmoidAllParas n o σ τ v => is "SigmoidAllParas" ∧ vectors n ∧ number "offset" (-10 * σ) o ∧ number "sigma" (1 / 10 ^ 10) σ ∧
      number "tau_variation" (1 / 10 ^ 20) τ ∧ number "sigma_variation" (1 / 10 ^ 20) v
  | .custom _ _ _ => False

/-- The arguments that the constructor of a pulse gets from QuOCS; they cannot be names of entries of a pulse. -/
def reservedNames : List String := ["map_index", "rng", "is_AD"]

/-- The settings of a pulse that are numbers, names or truth values. -/
structure UsesPulse (lib : PyLib) (p : PDict) (x : PulseDict ℚ) : Prop where
  name : setting p ["pulse_name"] (.str "pulse") = .str x.pulseName
  time : setting p ["time_name"] (.str "time") = .str x.timeName
  bins : IsCount (setting p ["bins_number"] (.num 101)) x.binsNumber
  lower : IsNumber (setting p ["lower_limit"] (.num 0)) x.lowerLimit
  upper : IsNumber (setting p ["upper_limit"] (.num 1)) x.upperLimit
  variation : IsNumber (setting p ["amplitude_variation"] (.num 1)) x.amplitudeVariation
  shrink : x.shrink = false ↔ IsFalse (setting p ["shrink_ampl_lim"] (.bool false))
  overwrite : x.overwrite = false ↔ IsFalse (setting p ["overwrite_base_pulse"] (.bool false))
  shaping : NoEntry (entry p ["shaping_options"]) ∧ x.shapingOptions = none ∨
    ∃ names, entry p ["shaping_options"] = some (.list (strList names)) ∧ x.shapingOptions = some names
  guess : UsesFn lib (fun g => ∃ f, g = .callable f ∧ ∀ t, f t = t.map fun _ => 0) .array lib.evalGuess lib.guessFile
    (entry p ["initial_guess"]) x.guess
  scaling : UsesFn lib (fun g => ∃ f, g = .callable f ∧ ∀ t, f t = t.map fun _ => 1) .array lib.evalScaling lib.scalingFile
    (entry p ["scaling_function"]) x.scaling
  basis : ∃ s, entry p ["basis"] = some (.dict s) ∧ UsesBasis lib s x.basis
  frequencies : x.basis ≠ .piecewise →
    IsNumber (setting p ["basis", "random_super_parameter_distribution", "lower_limit"] (.num 0)) x.wLower ∧
    IsNumber (setting p ["basis", "random_super_parameter_distribution", "upper_limit"] (.num 5)) x.wUpper
  reserved : ∀ k ∈ reservedNames, p.get? k = none

/-- The settings of a parameter. -/
structure UsesParam (p : PDict) (x : ParamDict ℚ) : Prop where
  name : setting p ["parameter_name"] (.str "parameter") = .str x.name
  value : IsNumber (setting p ["initial_value"] (.num 1)) x.initialValue
  lower : IsNumber (setting p ["lower_limit"] (.num (1 / 10))) x.lower
  upper : IsNumber (setting p ["upper_limit"] (.num (11 / 10))) x.upper
  variation : IsNumber (setting p ["amplitude_variation"] (.num (1 / 10))) x.amplitudeVariation

/-- The settings of a time. -/
structure UsesTime (p : PDict) (x : TimeDict ℚ) : Prop where
  name : entry p ["time_name"] = some (.str x.name)
  value : IsNumber (setting p ["initial_value"] (.num 1)) x.initialValue
  optimized : x.isOptimization = false ↔ IsFalse (setting p ["is_optimization"] (.bool false))
  lower : IsNumber (setting p ["lower_limit"] (.num 0)) x.lower
  upper : IsNumber (setting p ["upper_limit"] (.num 1)) x.upper
  variation : IsNumber (setting p ["amplitude_variation"] (.num (1 / 10))) x.amplitudeVariation

/-- The controls. -/
structure UsesControls (lib : PyLib) (d : PDict) (c : ControlDicts) : Prop where
  pulses : List.Forall₂ (UsesPulse lib) (itemsAt d "pulses") c.pulses
  params : List.Forall₂ UsesParam (itemsAt d "parameters") c.params
  times : List.Forall₂ UsesTime (itemsAt d "times") c.times

/-- The steps of the re-evaluation: off without the entry, with it the given ones or the default. -/
def UsesReEval (lib : PyLib) (given : Option PVal) (steps : Option (List ℚ)) : Prop :=
  given = none ∧ steps = none ∨
  ∃ r, given = some (.dict r) ∧
    (entry r ["re_evaluation_steps"] = none ∧ steps = some [3 / 10, 1 / 2, 501 / 1000] ∨
     ∃ v qs, entry r ["re_evaluation_steps"] = some v ∧ IsArray lib v qs ∧ steps = some qs)

/-- A whole number in `random_number_generator["seed_number"]` is the seed that is used. -/
def UsesSeed (given : Option PVal) (rng : RngObj) : Prop :=
  ∀ (r : PDict) (n : ℕ), given = some (.dict r) → entry r ["seed_number"] = some (.num n) → rng = .seeded n

/-- The settings of dCRAB. -/
structure UsesDcrab (lib : PyLib) (d : PDict) (s : SearchSettings) : Prop where
  core : UsesCore lib d s.core
  method : UsesMethod lib false d s.method s.stop
  controls : UsesControls lib d s.controls
  superIterations : ∃ v, entry d ["algorithm_settings", "super_iteration_number"] = some v ∧ IsInt lib v s.maxSI
  minutes : s.minutes = setting d ["algorithm_settings", "compensate_drift", "compensate_after_minutes"] (.num 0)
  average : s.average = setting d ["algorithm_settings", "compensate_drift", "num_average"] (.num 1)
  afterSI : s.afterSI = true ↔
    ¬ IsFalse (setting d ["algorithm_settings", "compensate_drift", "compensate_after_SI"] (.bool false)) ∨
    ∃ q, IsNumber s.minutes q ∧ 0 < q
  reEval : UsesReEval lib (entry d ["algorithm_settings", "re_evaluation"]) s.reEval
  seed : UsesSeed (entry d ["algorithm_settings", "random_number_generator"]) s.rng
  noSeed : entry d ["algorithm_settings", "random_number_generator"] = none → s.rng = .none

/-- The settings of the direct search algorithm. -/
structure UsesDirectSearch (lib : PyLib) (d : PDict) (s : SearchSettings) : Prop where
  core : UsesCore lib d s.core
  method : UsesMethod lib true d s.method s.stop
  controls : UsesControls lib d s.controls
  afterSI : s.afterSI = false
  minutes : s.minutes = setting d ["algorithm_settings", "compensate_drift", "compensate_after_minutes"] (.num 0)
  average : s.average = setting d ["algorithm_settings", "compensate_drift", "num_average"] (.num 1)
  reEval : UsesReEval lib (entry d ["algorithm_settings", "re_evaluation"]) s.reEval

/-- The settings of GRAPE and AD. -/
structure UsesGradient (lib : PyLib) (alg : AlgName) (d : PDict) (s : GradientSettings) : Prop where
  core : UsesCore lib d s.core
  controls : UsesControls lib d s.controls
  maxEval : s.maxEval = setting d ["algorithm_settings", "stopping_criteria", "max_eval_total"] (.num (10 ^ 10))
  ftol : s.ftol = setting d ["algorithm_settings", "stopping_criteria", "ftol"] (.num (1 / 10 ^ 6))
  gtol : s.gtol = setting d ["algorithm_settings", "stopping_criteria", "gtol"] (.num (1 / 10 ^ 6))
  maxls : s.maxls = setting d ["algorithm_settings", "stopping_criteria", "maxls"] (.num 20)
  superIterations : alg = .ad → IsInt lib (setting d ["algorithm_settings", "super_iteration_number"] (.num 1)) s.maxSI
  seed : UsesSeed (entry d ["algorithm_settings", "random_number_generator"]) s.rng
  noSeed : entry d ["algorithm_settings", "random_number_generator"] = none →
    s.rng = .seeded (if alg = .grape then 2022 else lib.randint)

/-- The name of the class of an algorithm. -/
def AlgSettings.className : AlgSettings → String
  | .search s => match s.kind with
    | .dcrab => "dCRABAlgorithm"
    | .directSearch => "DirectSearchAlgorithm"
    | .grape => "GRAPEAlgorithm"
  | .grape _ => "GRAPEAlgorithm"
  | .ad _ => "ADAlgorithm"

/-- The settings of an optimizer. -/
structure UsesSettings (lib : PyLib) (d : PDict) (c : Created) : Prop where
  clientName : c.clientName = setting d ["optimization_client_name"] (.str "run")
  createLogfile : c.createLogfile = setting d ["create_logfile"] (.bool true)
  consoleInfo : c.consoleInfo = setting d ["console_info"] (.bool true)
  microsecond : c.microsecond = setting d ["use_microsecond_name"] (.bool false)
  dumpFormat : c.dumpFormat = setting d ["dump_format"] (.str "npz")
  algorithm : chosen lib "algorithm" (entry d ["algorithm_settings", "algorithm_attribute"])
    (entry d ["algorithm_settings", "algorithm_module"]) (entry d ["algorithm_settings", "algorithm_class"])
    (entry d ["algorithm_settings", "algorithm_name"]) = some ("quocslib.optimizationalgorithms." ++ c.alg.className, c.alg.className)
  alg : match c.alg with
    | .search s => s.core.maximize = c.commMaximize ∧
        (s.kind = .dcrab ∧ UsesDcrab lib d s ∨ s.kind = .directSearch ∧ UsesDirectSearch lib d s)
    | .grape s => s.core.maximize = c.commMaximize ∧ UsesGradient lib .grape d s
    | .ad s => s.core.maximize = c.commMaximize ∧ UsesGradient lib .ad d s

/-- The settings of a run of dCRAB or of the direct search algorithm are the ones of the dictionary. -/
structure RunUses (lib : PyLib) (d : PDict) (cfg : AlgCfg ℚ ℚ) : Prop where
  algorithm : cfg.kind = .dcrab ∨ cfg.kind = .directSearch
  budget : IsInt lib (setting d ["algorithm_settings", "max_eval_total"] (.num (10 ^ 10))) cfg.maxEvalTotal
  timeLimit : setting d ["algorithm_settings", "total_time_lim"] (.num (10 ^ 10)) = .num cfg.totalTimeLim
  direction : setting d ["algorithm_settings", "optimization_direction"] (.str "minimization") =
    .str (if cfg.maximize then "maximization" else "minimization")
  noGoal : setting d ["algorithm_settings", "FoM_goal"] .null = .null ↔ cfg.userGoal = none
  goal : ∀ q, setting d ["algorithm_settings", "FoM_goal"] .null = .num q ↔ cfg.userGoal = some q
  maxEval : setting d ["algorithm_settings", "dsm_settings", "stopping_criteria", "max_eval"] (.num (10 ^ 10)) = .num cfg.sc.maxEval
  timeLim : setting d ["algorithm_settings", "dsm_settings", "stopping_criteria", "time_lim"] (.num (10 ^ 10)) = .num cfg.sc.timeLim
  xatol : setting d ["algorithm_settings", "dsm_settings", "stopping_criteria", "xatol"] (.num (1 / 10 ^ 14)) = .num cfg.sc.xatol
  fatol : setting d ["algorithm_settings", "dsm_settings", "stopping_criteria", "fatol"] (.num (1 / 10 ^ 100)) = .num cfg.sc.fatol
  changeBased : ∃ cb, setting d ["algorithm_settings", "dsm_settings", "stopping_criteria", "change_based_stop"]
      (.dict (.cons "cbs_funct_evals" (.num 1) (.cons "cbs_change" (.num 0) .nil))) = .dict cb ∧
    entry cb ["cbs_funct_evals"] = some (.num cfg.sc.cbsEvals) ∧ entry cb ["cbs_change"] = some (.num cfg.sc.cbsChange)
  minutes : setting d ["algorithm_settings", "compensate_drift", "compensate_after_minutes"] (.num 0) = .num cfg.driftMinutes
  average : ∃ z : ℤ, setting d ["algorithm_settings", "compensate_drift", "num_average"] (.num 1) = .num z ∧ cfg.driftAverage = z.toNat
  afterSI : cfg.driftAfterSI = true ↔ cfg.kind = .dcrab ∧
    (¬ IsFalse (setting d ["algorithm_settings", "compensate_drift", "compensate_after_SI"] (.bool false)) ∨ 0 < cfg.driftMinutes)
  superIterations : cfg.kind = .dcrab → ∃ v, ∃ z : ℤ, entry d ["algorithm_settings", "super_iteration_number"] = some v ∧
    IsInt lib v z ∧ cfg.maxSI = z.toNat
  reEval : UsesReEval lib (entry d ["algorithm_settings", "re_evaluation"]) cfg.reEval
  /-- Not from the dictionary: the best value before the first evaluation, its deviation, the threshold used instead of
  `re_evaluation_steps` at the first evaluation, and the deviation that counts as zero. -/
  constants : cfg.fomMax = 10 ^ 10 ∧ cfg.initStd = 1 / 10 ∧ cfg.half = 1 / 2 ∧ cfg.tiny = 1 / 10 ^ 14

/-! ### What happens to the dictionary -/

/-- A step on the way to an entry: a key of a dictionary or a position in a list. -/
inductive PathStep
  | key (k : String)
  | pos (i : ℕ)

/-- The item at a position of a list. -/
def PList.get? : PList → ℕ → Option PVal
  | .nil, _ => none
  | .cons v _, 0 => some v
  | .cons _ l, n + 1 => l.get? n

/-- The entry reached from a value. -/
def lookAt : PVal → List PathStep → Option PVal
  | v, [] => some v
  | .dict d, .key k :: p => (d.get? k).bind fun v => lookAt v p
  | .list l, .pos i :: p => (l.get? i).bind fun v => lookAt v p
  | _, _ => none

/-- An entry that is not a dictionary or a list. -/
def PVal.Scalar (v : PVal) : Prop := (∀ d, v ≠ .dict d) ∧ ∀ l, v ≠ .list l

/-- The list with the item at a position replaced. -/
def PList.set : PList → ℕ → PVal → PList
  | .nil, _, _ => .nil
  | .cons _ l, 0, w => .cons w l
  | .cons v l, n + 1, w => .cons v (l.set n w)

/-- Assignment to an entry, e.g. `x["pulses"][0]["upper_limit"] = w`: the dictionaries and lists on the way have to be there, the last
key need not be there. -/
def setAt : PVal → List PathStep → PVal → PVal
  | _, [], w => w
  | .dict d, [.key k], w => .dict (d.insert k w)
  | .dict d, .key k :: s :: p, w =>
    match d.get? k with
    | some v => .dict (d.insert k (setAt v (s :: p) w))
    | none => .dict d
  | .list l, .pos i :: p, w =>
    match l.get? i with
    | some v => .list (l.set i (setAt v p w))
    | none => .list l
  | v, _ :: _, _ => v

/-- Assignment to an entry of the optimization dictionary. -/
def assign (d : PDict) (p : List PathStep) (w : PVal) : PDict :=
  match setAt (.dict d) p w with
  | .dict s => s
  | _ => d

/-- The assignment is possible: it is an assignment to an entry below the dictionary, and what contains the entry is there. -/
def Assignable (d : PDict) (p : List PathStep) : Prop := ∃ k q, p = .key k :: q ∧ (lookAt (.dict d) p.dropLast).isSome = true

/-- Assignments other than to the entries that select the class of the algorithm or of a basis, and other than to `sigma`. -/
def Sweepable : List PathStep → Bool
  | .key "algorithm_settings" :: .key k :: _ =>
    k ∉ ["algorithm_name", "algorithm_module", "algorithm_class", "algorithm_attribute"]
  | .key "pulses" :: .pos _ :: .key "basis" :: .key k :: _ =>
    k ∉ ["basis_name", "basis_module", "basis_class", "basis_attribute", "sigma"]
  | .key "pulses" :: .key _ :: _ => false
  | .key "algorithm_settings" :: .pos _ :: _ => false
  | .key "pulses" :: .pos _ :: .pos _ :: _ => false
  | .key "pulses" :: .pos _ :: .key "basis" :: .pos _ :: _ => false
  | .pos _ :: _ => false
  | _ => true

/-- A session: one dictionary is changed by assignments, and after each of them an optimizer is created from it. -/
def session (lib : PyLib) (d : PDict) : List (List PathStep × PVal) → List (Py Created)
  | [] => []
  | (p, w) :: es => (createOptimizer lib (assign d p w)).1 :: session lib (createOptimizer lib (assign d p w)).2 es

/-- The same assignments to a dictionary that no optimizer is created from; the optimizers are created from copies. -/
def freshSession (lib : PyLib) (d : PDict) : List (List PathStep × PVal) → List (Py Created)
  | [] => []
  | (p, w) :: es => (createOptimizer lib (assign d p w)).1 :: freshSession lib (assign d p w) es

/-- All assignments of a session are possible. -/
def AllAssignable (d : PDict) : List (List PathStep × PVal) → Prop
  | [] => True
  | (p, w) :: es => Assignable d p ∧ AllAssignable (assign d p w) es

/-! ### Entries with other names -/

/-- Entries of the dictionary, of `algorithm_settings` and of a pulse with a name that is not the name of a setting. -/
def ExtraEntry : List PathStep → Bool
  | [.key k] => k ∉ ["optimization_client_name", "create_logfile", "console_info", "use_microsecond_name", "dump_format", "sys_type",
      "algorithm_settings", "pulses", "parameters", "times"]
  | [.key "algorithm_settings", .key k] => k ∉ ["algorithm_name", "algorithm_attribute", "algorithm_module", "algorithm_class",
      "optimization_direction", "max_eval_total", "total_time_lim", "FoM_goal", "super_iteration_number", "dsm_settings",
      "compensate_drift", "stopping_criteria", "re_evaluation", "random_number_generator"]
  | [.key "pulses", .pos _, .key k] => k ∉ ["pulse_name", "time_name", "bins_number", "lower_limit", "upper_limit",
      "amplitude_variation", "shrink_ampl_lim", "overwrite_base_pulse", "shaping_options", "initial_guess", "scaling_function",
      "basis", "map_index", "rng", "is_AD"]
  | _ => false

/-! ### The documented defaults -/

/-- The module of the basis class selected by the dictionary `basis` of a pulse. -/
def basisModule (lib : PyLib) (s : PDict) : Option String :=
  (importClass lib (some (setting s ["basis_attribute"] .null)) (some (setting s ["basis_module"] .null))
    (some (setting s ["basis_class"] .null)) (some (setting s ["basis_name"] .null)) "basis").map (·.1)

/-- The defaults given in Documentation/Settings_in_Optimization_Dict.md. `s` is the dictionary that contains the entry. The ones for
`sigma`, `offset` and `basis_max` are documented for the bases Sigmoid and Sinc. -/
def docDefault (lib : PyLib) (s : PDict) : List PathStep → Option PVal
  | [.key "dump_format"] => some (.str "npz")
  | [.key "algorithm_settings", .key "optimization_direction"] => some (.str "minimization")
  | [.key "algorithm_settings", .key "max_eval_total"] => some (.num (10 * 10 ^ 10))
  | [.key "algorithm_settings", .key "compensate_drift", .key "num_average"] => some (.num 1)
  | [.key "algorithm_settings", .key "dsm_settings", .key "general_settings", .key "is_adaptive"] => some (.bool false)
  | [.key "algorithm_settings", .key "dsm_settings", .key "stopping_criteria", .key "max_eval"] => some (.num (10 * 10 ^ 10))
  | [.key "algorithm_settings", .key "dsm_settings", .key "stopping_criteria", .key "xatol"] => some (.num (1 / 10 ^ 14))
  | [.key "algorithm_settings", .key "dsm_settings", .key "stopping_criteria", .key "fatol"] => some (.num (1 / 10 ^ 100))
  | [.key "pulses", .pos _, .key "pulse_name"] => some (.str "pulse")
  | [.key "pulses", .pos _, .key "upper_limit"] => some (.num 1)
  | [.key "pulses", .pos _, .key "lower_limit"] => some (.num 0)
  | [.key "pulses", .pos _, .key "bins_number"] => some (.num 101)
  | [.key "pulses", .pos _, .key "time_name"] => some (.str "time")
  | [.key "pulses", .pos _, .key "amplitude_variation"] => some (.num 1)
  | [.key "pulses", .pos _, .key "shrink_ampl_lim"] => some (.bool false)
  | [.key "pulses", .pos _, .key "basis", .key "basis_vector_number"] => some (.num 1)
  | [.key "pulses", .pos _, .key "basis", .key "sigma"] =>
    if basisModule lib s = some "quocslib.pulses.basis.Sigmoid" then some (.num (1 / 10)) else none
  | [.key "pulses", .pos _, .key "basis", .key "offset"] =>
    if basisModule lib s = some "quocslib.pulses.basis.Sigmoid" then some (.num (1 / 10)) else none
  | [.key "pulses", .pos _, .key "basis", .key "basis_max"] =>
    if basisModule lib s = some "quocslib.pulses.basis.Sinc" then some (.num 1) else none
  | [.key "parameters", .pos _, .key "parameter_name"] => some (.str "parameter")
  | [.key "parameters", .pos _, .key "lower_limit"] => some (.num (1 / 10))
  | [.key "parameters", .pos _, .key "upper_limit"] => some (.num (11 / 10))
  | [.key "parameters", .pos _, .key "initial_value"] => some (.num (1 / 10))
  | [.key "parameters", .pos _, .key "amplitude_variation"] => some (.num (1 / 10))
  | [.key "times", .pos _, .key "time_name"] => some (.str "time")
  | [.key "times", .pos _, .key "initial_value"] => some (.num 1)
  | _ => none

/-- Leaving out the entry at `p` is the same as writing the documented default there. -/
def DefaultUsed (lib : PyLib) (d : PDict) (p : List PathStep) : Prop :=
  ∀ s w, lookAt (.dict d) p.dropLast = some (.dict s) → docDefault lib s p = some w → lookAt (.dict d) p = none →
    (createOptimizer lib (assign d p w)).1 = (createOptimizer lib d).1

/-- The documented defaults that are not used: see the theorems `C80_…` named after them. -/
def docWrong (lib : PyLib) (s : PDict) : List PathStep → Bool
  | [.key "algorithm_settings", .key "max_eval_total"] => true
  | [.key "algorithm_settings", .key "dsm_settings", .key "stopping_criteria", .key "max_eval"] => true
  | [.key "pulses", .pos _, .key "pulse_name"] => true
  | [.key "pulses", .pos _, .key "bins_number"] =>
    match s.get? "basis" with
    | some (.dict b) => decide (basisModule lib b = some "quocslib.pulses.basis.PiecewiseBasis")
    | _ => false
  | [.key "parameters", .pos _, .key "parameter_name"] => true
  | [.key "parameters", .pos _, .key "initial_value"] => true
  | [.key "times", .pos _, .key "time_name"] => true
  | _ => false

end QuOCS

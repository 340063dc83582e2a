/-
Optimization dictionaries of the form described in Documentation/Settings_in_Optimization_Dict.md, in terms of their entries only.
-/
import Verif.Spec.Program

namespace QuOCS

/-- The classes of QuOCS can be imported. -/
def Installed (lib : PyLib) : Prop :=
  (∀ n ∈ ["dCRAB", "DirectSearch", "GRAPE", "AD"],
    lib.exists_ ("quocslib.optimizationalgorithms." ++ n ++ "Algorithm") (n ++ "Algorithm") = true) ∧
  (∀ n ∈ ["NelderMead", "CMAES"], lib.exists_ ("quocslib.gradientfreemethods." ++ n) n = true) ∧
  (∀ n ∈ ["Fourier", "Chebyshev", "Walsh", "Sinc", "PiecewiseBasis", "Sigmoid", "SigmoidTimeDep", "SigmoidSigmas", "SigmoidAllParas"],
    lib.exists_ ("quocslib.pulses.basis." ++ n) n = true) ∧
  lib.exists_ "quocslib.pulses.superparameter.Uniform" "Uniform" = true

/-- A list of numbers. -/
def numList : List ℚ → PList
  | [] => .nil
  | q :: l => .cons (.num q) (numList l)

/-- A list of dictionaries. -/
def dictList : List PDict → PList
  | [] => .nil
  | s :: l => .cons (.dict s) (dictList l)

/-- The entry is a number or missing. -/
def OptNumber (d : PDict) (k : String) : Prop := ∀ v, entry d [k] = some v → ∃ q, v = .num q
/-- The entry is a whole number or missing. -/
def OptWhole (d : PDict) (k : String) : Prop := ∀ v, entry d [k] = some v → ∃ z : ℤ, v = .num z
/-- The entry is a string or missing. -/
def OptString (d : PDict) (k : String) : Prop := ∀ v, entry d [k] = some v → ∃ s, v = .str s
/-- The entry is a dictionary with the given form or missing. -/
def OptDict (d : PDict) (k : String) (P : PDict → Prop) : Prop := ∀ v, entry d [k] = some v → ∃ s, v = .dict s ∧ P s
/-- The entry is a dictionary with the given form. -/
def HasDict (d : PDict) (k : String) (P : PDict → Prop) : Prop := ∃ s, entry d [k] = some (.dict s) ∧ P s
/-- The entry is a list of dictionaries with the given form. -/
def HasDicts (d : PDict) (k : String) (P : PDict → Prop) : Prop := ∃ l, entry d [k] = some (.list (dictList l)) ∧ ∀ s ∈ l, P s
/-- A class is chosen by its name and not by an object. (Entries for the module and the class may be there, the name counts.) -/
def ByName (d : PDict) (pre name : String) : Prop :=
  NoEntry (entry d [pre ++ "_attribute"]) ∧ entry d [pre ++ "_name"] = some (.str name)

/-- The distribution of the frequencies. -/
structure DocDistribution (s : PDict) : Prop where
  name : ByName s "distribution" "Uniform"
  numbers : ∀ k ∈ ["lower_limit", "upper_limit"], OptNumber s k

/-- The basis `name` of a pulse. -/
structure DocBasis (name : String) (s : PDict) : Prop where
  known : name ∈ ["Fourier", "Chebyshev", "Walsh", "Sinc", "PiecewiseBasis", "Sigmoid", "SigmoidTimeDep", "SigmoidSigmas", "SigmoidAllParas"]
  chosen : ByName s "basis" name
  vectors : ∃ n : ℕ, 1 ≤ n ∧ setting s ["basis_vector_number"] (.num 1) = .num n
  numbers : ∀ k ∈ ["basis_max", "sigma", "offset", "tau_variation", "sigma_variation"], OptNumber s k
  distribution : name ≠ "PiecewiseBasis" → HasDict s "random_super_parameter_distribution" DocDistribution

/-- A function of the user: an expression that Python can evaluate, a list of numbers or a function in a file. -/
def DocFunction {A : Type} (eval : String → Py A) (file : PVal → PVal → PVal → Py A) (s : PDict) : Prop :=
  (entry s ["function_type"] = some (.str "lambda_function") ∧
    ∃ src f, entry s ["lambda_function"] = some (.str src) ∧ eval src = .ok f) ∨
  (entry s ["function_type"] = some (.str "list_function") ∧ ∃ qs, entry s ["list_function"] = some (.list (numList qs))) ∨
  (entry s ["function_type"] = some (.str "python_file") ∧
    ∃ f, file (setting s ["file_path"] (.str "")) (setting s ["function_name"] (.str "")) (setting s ["path_mode"] (.str "relative")) = .ok f)

/-- A pulse. The names `map_index`, `rng` and `is_AD` are not allowed for entries; with the basis `PiecewiseBasis` the number of
bins has to be there (C80). -/
structure DocPulse (lib : PyLib) (p : PDict) : Prop where
  name : ∃ s, entry p ["pulse_name"] = some (.str s)
  time : OptString p "time_name"
  bins : ∃ n : ℕ, 1 ≤ n ∧ setting p ["bins_number"] (.num 101) = .num n
  numbers : ∀ k ∈ ["lower_limit", "upper_limit", "amplitude_variation"], OptNumber p k
  basis : ∃ name, HasDict p "basis" (DocBasis name) ∧ (name = "PiecewiseBasis" → entry p ["bins_number"] ≠ none)
  guess : NoEntry (entry p ["initial_guess"]) ∨ HasDict p "initial_guess" (DocFunction lib.evalGuess lib.guessFile)
  scaling : NoEntry (entry p ["scaling_function"]) ∨ HasDict p "scaling_function" (DocFunction lib.evalScaling lib.scalingFile)
  shaping : NoEntry (entry p ["shaping_options"]) ∨ ∃ names, entry p ["shaping_options"] = some (.list (strList names))
  reserved : ∀ k ∈ reservedNames, p.get? k = none

/-- A parameter: only the documented entries are allowed. -/
structure DocParam (p : PDict) : Prop where
  name : ∃ s, entry p ["parameter_name"] = some (.str s)
  numbers : ∀ k ∈ ["initial_value", "lower_limit", "upper_limit", "amplitude_variation"], OptNumber p k
  only : ∀ k, p.get? k ≠ none → k ∈ ["parameter_name", "initial_value", "lower_limit", "upper_limit", "amplitude_variation"]

/-- A time: only the documented entries are allowed; the limits of an optimized time are different. -/
structure DocTime (p : PDict) : Prop where
  name : ∃ s, entry p ["time_name"] = some (.str s)
  numbers : ∀ k ∈ ["initial_value", "lower_limit", "upper_limit", "amplitude_variation"], OptNumber p k
  only : ∀ k, p.get? k ≠ none → k ∈ ["time_name", "initial_value", "is_optimization", "lower_limit", "upper_limit", "amplitude_variation"]
  optimized : ¬ IsFalse (setting p ["is_optimization"] (.bool false)) →
    setting p ["lower_limit"] (.num 0) ≠ setting p ["upper_limit"] (.num 1)

/-- The search method. -/
structure DocMethod (g : PDict) : Prop where
  name : entry g ["dsm_algorithm_name"] = some (.str "NelderMead") ∨ entry g ["dsm_algorithm_name"] = some (.str "CMAES")
  population : NoEntry (entry g ["population"]) ∨ OptNumber g "population"

/-- The criteria for the end of a search. -/
structure DocStopping (s : PDict) : Prop where
  maxEval : OptWhole s "max_eval"
  numbers : ∀ k ∈ ["time_lim", "xatol", "fatol"], OptNumber s k
  changeBased : OptDict s "change_based_stop" fun c =>
    (∃ z : ℤ, entry c ["cbs_funct_evals"] = some (.num z)) ∧ ∃ q, entry c ["cbs_change"] = some (.num q)

/-- The settings of the search of dCRAB and DirectSearch. -/
structure DocSearch (a : PDict) : Prop where
  dsm : HasDict a "dsm_settings" fun s => HasDict s "general_settings" DocMethod ∧ HasDict s "stopping_criteria" DocStopping
  drift : OptDict a "compensate_drift" fun c => OptNumber c "compensate_after_minutes" ∧ OptWhole c "num_average"
  reEval : OptDict a "re_evaluation" fun r =>
    ∀ v, entry r ["re_evaluation_steps"] = some v → ∃ qs, v = .list (numList qs)

/-- The dictionary `algorithm_settings`. -/
structure DocAlgorithm (name : String) (a : PDict) : Prop where
  known : name ∈ ["dCRAB", "DirectSearch", "GRAPE", "AD"]
  chosen : ByName a "algorithm" name
  direction : ∀ v, entry a ["optimization_direction"] = some v → v = .str "minimization" ∨ v = .str "maximization"
  budget : OptNumber a "max_eval_total"
  timeLimit : OptNumber a "total_time_lim"
  goal : NoEntry (entry a ["FoM_goal"]) ∨ OptNumber a "FoM_goal"
  superIterations : OptNumber a "super_iteration_number"
  seed : OptDict a "random_number_generator" fun r => ∃ n : ℕ, entry r ["seed_number"] = some (.num n)
  dcrab : name = "dCRAB" → entry a ["super_iteration_number"] ≠ none
  search : name = "dCRAB" ∨ name = "DirectSearch" → DocSearch a
  gradient : name = "GRAPE" ∨ name = "AD" → OptDict a "stopping_criteria" fun _ => True

/-- An optimization dictionary of the documented form for the algorithm `name`; GRAPE needs a pulse. -/
structure Documented (lib : PyLib) (name : String) (d : PDict) : Prop where
  algorithm : HasDict d "algorithm_settings" (DocAlgorithm name)
  pulses : HasDicts d "pulses" (DocPulse lib)
  params : HasDicts d "parameters" DocParam
  times : HasDicts d "times" DocTime
  grape : name = "GRAPE" → itemsAt d "pulses" ≠ []

end QuOCS

/-
Model of the scripts in `Examples/`: the optimization dictionaries they load or create, what they change in them, and the settings they pass
to the figures of merit. Numbers are exact: a decimal number of a file stands for itself and not for the nearest float.
-/
import Verif.Model.Program
import Verif.Model.IsingExample
import Verif.Model.Lindblad
import Verif.Model.IsingLindblad

namespace QuOCS

/-- A Python dictionary display. -/
def dictOf : List (String × PVal) → PDict
  | [] => .nil
  | (k, v) :: l => .cons k v (dictOf l)

/-- A Python list display. -/
def listOf : List PVal → PList
  | [] => .nil
  | v :: l => .cons v (listOf l)

/-! ### The files with settings -/

/-- The file Examples/settings_dCRAB.json:1-48. -/
def settingsDcrab : PDict :=
  dictOf [
    ("optimization_client_name", .str "Optimization_dCRAB_IsingModel"),
    ("create_logfile", .bool true),
    ("algorithm_settings", .dict (dictOf [
      ("algorithm_name", .str "dCRAB"),
      ("super_iteration_number", .num 3),
      ("max_eval_total", .num 3000),
      ("optimization_direction", .str "minimization"),
      ("dsm_settings", .dict (dictOf [
        ("general_settings", .dict (dictOf [("dsm_algorithm_name", .str "NelderMead")])),
        ("stopping_criteria", .dict (dictOf [
          ("xatol", .num (1 / 10000)),
          ("fatol", .num (1 / 1000000)),
          ("change_based_stop", .dict (dictOf [("cbs_funct_evals", .num 200), ("cbs_change", .num (1 / 100))])),
          ("max_eval", .num 1000)]))]))])),
    ("pulses", .list (listOf [.dict (dictOf [
        ("pulse_name", .str "Pulse_1"),
        ("upper_limit", .num 1000),
        ("lower_limit", .num (-1000)),
        ("time_name", .str "time_1"),
        ("amplitude_variation", .num 30),
        ("basis", .dict (dictOf [
          ("basis_name", .str "Fourier"),
          ("basis_vector_number", .num 5),
          ("random_super_parameter_distribution", .dict (dictOf [
            ("distribution_name", .str "Uniform"),
            ("lower_limit", .num (1 / 100)),
            ("upper_limit", .num 10)]))]))])])),
    ("times", .list (listOf [.dict (dictOf [("time_name", .str "time_1")])])),
    ("parameters", .list (listOf []))]

/-- The file Examples/settings_GRAPE.json:1-28. -/
def settingsGrape : PDict :=
  dictOf [
    ("algorithm_settings", .dict (dictOf [
      ("algorithm_name", .str "GRAPE"),
      ("optimization_direction", .str "minimization"),
      ("stopping_criteria", .dict (dictOf [("max_eval_total", .num 200), ("ftol", .num (1 / 1000000)), ("gtol", .num (1 / 1000000))]))])),
    ("pulses", .list (listOf [.dict (dictOf [
        ("pulse_name", .str "Pulse_1"),
        ("upper_limit", .num 100),
        ("lower_limit", .num (-100)),
        ("bins_number", .num 100),
        ("amplitude_variation", .num 30),
        ("time_name", .str "time_1"),
        ("basis", .dict (dictOf [("basis_name", .str "PiecewiseBasis"), ("bins_number", .num 100)]))])])),
    ("parameters", .list (listOf [])),
    ("times", .list (listOf [.dict (dictOf [("time_name", .str "time_1"), ("initial_value", .num 1)])]))]

/-- The file Examples/settings_AD.json:1-31. -/
def settingsAd : PDict :=
  dictOf [
    ("algorithm_settings", .dict (dictOf [
      ("algorithm_name", .str "AD"),
      ("optimization_direction", .str "maximization"),
      ("random_number_generator", .dict (dictOf [("seed_number", .num 1234)])),
      ("stopping_criteria", .dict (dictOf [("max_eval_total", .num 100), ("ftol", .num (1 / 1000000)), ("gtol", .num (1 / 1000000))]))])),
    ("pulses", .list (listOf [.dict (dictOf [
        ("pulse_name", .str "Pulse_1"),
        ("upper_limit", .num 100),
        ("lower_limit", .num (-100)),
        ("bins_number", .num 100),
        ("amplitude_variation", .num 30),
        ("time_name", .str "time_1"),
        ("basis", .dict (dictOf [("basis_name", .str "PiecewiseBasis"), ("bins_number", .num 100)]))])])),
    ("parameters", .list (listOf [])),
    ("times", .list (listOf [.dict (dictOf [("time_name", .str "time_1"), ("initial_value", .num 1)])]))]

/-- The file Examples/settings_AD_Fourier.json:1-36. -/
def settingsAdFourier : PDict :=
  dictOf [
    ("optimization_client_name", .str "Optimization_AD_Fourier_IsingModel"),
    ("algorithm_settings", .dict (dictOf [
      ("algorithm_name", .str "AD"),
      ("super_iteration_number", .num 3),
      ("optimization_direction", .str "maximization"),
      ("random_number_generator", .dict (dictOf [("seed_number", .num 1236)])),
      ("stopping_criteria", .dict (dictOf [("ftol", .num (1 / 100000)), ("gtol", .num (1 / 100000))]))])),
    ("pulses", .list (listOf [.dict (dictOf [
        ("pulse_name", .str "Pulse_1"),
        ("upper_limit", .num 1000),
        ("lower_limit", .num (-1000)),
        ("amplitude_variation", .num 30),
        ("time_name", .str "time_1"),
        ("basis", .dict (dictOf [
          ("basis_name", .str "Fourier"),
          ("basis_vector_number", .num 5),
          ("random_super_parameter_distribution", .dict (dictOf [
            ("distribution_name", .str "Uniform"),
            ("lower_limit", .num (1 / 100)),
            ("upper_limit", .num 10)]))]))])])),
    ("parameters", .list (listOf [])),
    ("times", .list (listOf [.dict (dictOf [("time_name", .str "time_1"), ("initial_value", .num 1)])]))]

/-- The file Examples/settings_LindbladProblem.json:1-40. -/
def settingsLindblad : PDict :=
  dictOf [
    ("optimization_client_name", .str "Optimization_LindbladProblem"),
    ("algorithm_settings", .dict (dictOf [
      ("algorithm_name", .str "AD"),
      ("optimization_direction", .str "maximization"),
      ("random_number_generator", .dict (dictOf [("seed_number", .num 1234)])),
      ("stopping_criteria", .dict (dictOf [("max_eval_total", .num 100), ("ftol", .num (1 / 10000)), ("gtol", .num (1 / 10000))]))])),
    ("pulses", .list (listOf [.dict (dictOf [
        ("pulse_name", .str "Pulse_1"),
        ("upper_limit", .num 100),
        ("lower_limit", .num (-100)),
        ("bins_number", .num 100),
        ("amplitude_variation", .num 30),
        ("time_name", .str "time_1"),
        ("basis", .dict (dictOf [("basis_name", .str "PiecewiseBasis"), ("bins_number", .num 100)])),
        ("scaling_function", .dict (dictOf [
          ("function_type", .str "lambda_function"),
          ("lambda_function", .str "lambda t: 1.0 + 0.0*t")])),
        ("initial_guess", .dict (dictOf [
          ("function_type", .str "lambda_function"),
          ("lambda_function", .str "lambda t: 0.0 + 0.0*t")]))])])),
    ("parameters", .list (listOf [])),
    ("times", .list (listOf [.dict (dictOf [("time_name", .str "time_1"), ("initial_value", .num 1)])]))]

/-- The dictionary that Examples/Simplified/opt_dict_creation_simplified_optimization.py:1-197 creates. Of the six pulses two are used
(line 197). -/
def settingsSimplified : PDict :=
  dictOf [
    ("optimization_client_name", .str "some_name"),
    ("algorithm_settings", .dict (dictOf [
      ("algorithm_name", .str "dCRAB"),
      ("super_iteration_number", .num 10),
      ("FoM_goal", .num (1 / 100000)),
      ("optimization_direction", .str "minimization"),
      ("total_time_lim", .num 420),
      ("compensate_drift", .dict (dictOf [("compensate_after_SI", .bool true), ("compensate_after_minutes", .num 15)])),
      ("random_number_generator", .dict (dictOf [("seed_number", .num 1337)])),
      ("dsm_settings", .dict (dictOf [
        ("general_settings", .dict (dictOf [("dsm_algorithm_name", .str "NelderMead"), ("is_adaptive", .bool true)])),
        ("stopping_criteria", .dict (dictOf [
          ("change_based_stop", .dict (dictOf [("cbs_funct_evals", .num 100), ("cbs_change", .num (1 / 50))]))]))]))])),
    ("times", .list (listOf [.dict (dictOf [("time_name", .str "time_pi"), ("initial_value", .num (61 / 1000000000))]), .dict (dictOf [("time_name", .str "time_pi2"), ("initial_value", .num (31 / 1000000000))])])),
    ("parameters", .list (listOf [])),
    ("pulses", .list (listOf [.dict (dictOf [
        ("pulse_name", .str "G3x"),
        ("upper_limit", .num (1 / 2)),
        ("lower_limit", .num (-1 / 2)),
        ("bins_number", .num 1001),
        ("time_name", .str "time_pi"),
        ("amplitude_variation", .num (3 / 10)),
        ("basis", .dict (dictOf [
          ("basis_name", .str "Fourier"),
          ("basis_class", .str "Fourier"),
          ("basis_module", .str "quocslib.pulses.basis.Fourier"),
          ("basis_vector_number", .num 2),
          ("random_super_parameter_distribution", .dict (dictOf [
            ("distribution_name", .str "Uniform"),
            ("distribution_class", .str "Uniform"),
            ("distribution_module", .str "quocslib.pulses.superparameter.Uniform"),
            ("lower_limit", .num 0),
            ("upper_limit", .num 10)]))])),
        ("scaling_function", .dict (dictOf [
          ("function_type", .str "lambda_function"),
          ("lambda_function", .str "lambda t: 1.0 + 0.0*t")])),
        ("initial_guess", .dict (dictOf [
          ("function_type", .str "lambda_function"),
          ("lambda_function", .str "lambda t: 0.11 + 0.0*t")]))]), .dict (dictOf [
        ("pulse_name", .str "G3y"),
        ("upper_limit", .num (1 / 2)),
        ("lower_limit", .num (-1 / 2)),
        ("bins_number", .num 1001),
        ("time_name", .str "time_pi"),
        ("amplitude_variation", .num (3 / 10)),
        ("basis", .dict (dictOf [
          ("basis_name", .str "Fourier"),
          ("basis_class", .str "Fourier"),
          ("basis_module", .str "quocslib.pulses.basis.Fourier"),
          ("basis_vector_number", .num 2),
          ("random_super_parameter_distribution", .dict (dictOf [
            ("distribution_name", .str "Uniform"),
            ("distribution_class", .str "Uniform"),
            ("distribution_module", .str "quocslib.pulses.superparameter.Uniform"),
            ("lower_limit", .num 0),
            ("upper_limit", .num 10)]))])),
        ("scaling_function", .dict (dictOf [
          ("function_type", .str "lambda_function"),
          ("lambda_function", .str "lambda t: 1.0 + 0.0*t")])),
        ("initial_guess", .dict (dictOf [("function_type", .str "lambda_function"), ("lambda_function", .str "lambda t: 0.0*t")]))])]))]


/-! ### What the scripts do before they create the optimizer -/

/-- `d[k] = v` -/
def setItem (k : String) (v : PVal) : Prog PDict Unit := Prog.modify fun d => d.insert k v

/-- Working with the dictionary `d[k][0]`. -/
def inFirst {α : Type} (k : String) (m : Prog PDict α) : Prog PDict α := fun d =>
  match d.get? k with
  | some (.list (.cons (.dict s) l)) => ((m s).1, d.insert k (.list (.cons (.dict (m s).2) l)))
  | some (.list .nil) => (.error .indexError, d)
  | some _ => (.error .typeError, d)
  | none => (.error .keyError, d)

/-- `v == 0` -/
def equalsZero : PVal → Bool
  | .atom (.num q) => q = 0
  | .atom (.bool b) => !b
  | _ => false

/-- `args_dict[k]` -/
def argument (args : PDict) (k : String) : Prog PDict PVal := Prog.lift (item k args).1

/-- `args_dict` with `n` slices, `n = 2000` in the file (Examples/execute_dCRAB.py:99-100). -/
def dcrabArgs (n : ℕ) : PDict :=
  dictOf [("n_qubits", .num 5), ("J", .num 1), ("g", .num 2), ("N_slices", .num n), ("T", .num 1), ("g_seed", .num 123),
    ("g_variation", .num (3 / 10)), ("stdev", .num (1 / 1000))]

/-- `main` until the optimizer is created (Examples/execute_dCRAB.py:102-106). -/
def dcrabMain (args : PDict) : Prog PDict Unit := do
  let n ← argument args "N_slices"
  inFirst "pulses" (setItem "bins_number" n)
  let T ← argument args "T"
  inFirst "times" (setItem "initial_value" T)
  let seed ← argument args "g_seed"
  if !equalsZero seed then
    inDict "algorithm_settings" (setItem "re_evaluation" (.dict (dictOf
      [("re_evaluation_steps", .list (listOf [.num (3 / 10), .num (1 / 2), .num (501 / 1000)]))])))
  else pure ()

/-- `args_dict` with `n` slices, `n = 100` in the file (Examples/execute_GRAPE.py:29-30). -/
def grapeArgs (n : ℕ) : PDict :=
  dictOf [("n_qubits", .num 5), ("J", .num 1), ("g", .num 2), ("n_slices", .num n), ("T", .num 1), ("g_seed", .num 0),
    ("g_variation", .num 1), ("stdev", .num (1 / 10))]

/-- `args_dict` with `q` qubits and `n` slices: `q = 5` and `n = 100` (Examples/execute_AD.py:29), `q = 5` and `n = 2000`
(Examples/execute_AD_Fourier.py:29), `q = 2` and `n = 100` (Examples/execute_AD_Lindblad.py:29). -/
def adArgs (q n : ℕ) : PDict :=
  dictOf [("n_qubits", .num q), ("J", .num 1), ("g", .num 2), ("n_slices", .num n), ("T", .num 1)]

/-- `main` until the optimizer is created (Examples/execute_GRAPE.py:32-33, Examples/execute_AD.py:31-32). -/
def piecewiseMain (args : PDict) : Prog PDict Unit := do
  let n ← argument args "n_slices"
  inFirst "pulses" (inDict "basis" (setItem "bins_number" n))
  inFirst "pulses" (setItem "bins_number" n)

/-- `main` until the optimizer is created (Examples/execute_AD_Fourier.py:31). -/
def adFourierMain (args : PDict) : Prog PDict Unit := do
  let n ← argument args "n_slices"
  inFirst "pulses" (setItem "bins_number" n)

/-- `main` until the optimizer is created (Examples/execute_AD_Lindblad.py:31-37). -/
def adLindbladMain (args : PDict) : Prog PDict Unit := do
  piecewiseMain args
  inDict "algorithm_settings" (inDict "stopping_criteria" (setItem "ftol" (.num (1 / 100000))))
  inDict "algorithm_settings" (inDict "stopping_criteria" (setItem "gtol" (.num (1 / 100000))))
  setItem "optimization_client_name" (.str "Optimization_AD_IsingModel_with_Lindblad")

/-! ### The settings of the figures of merit -/

/-- What `IsingModel.__init__` reads from `args_dict` (Examples/IsingModelProblem.py:31-57). Simplification: a value of a wrong type is noticed here
and not when it is used. -/
noncomputable def exIsingArgs : Prog PDict ExIsingSettings := do
  let q ← setdefault "n_qubits" (.num 5) >>= fun v => Prog.lift (countOf v)
  let J ← numSetting "J" 1
  let g ← numSetting "g" 2
  let n ← setdefault "n_slices" (.num 100) >>= fun v => Prog.lift (countOf v)
  let seed ← setdefault "g_seed" (.num 0)
  let width ← numSetting "g_variation" 0
  let stdev ← numSetting "stdev" (1 / 10)
  pure { qubits := q, J := J, g := g, slices := n, noisy := !equalsZero seed, gVariation := width, stdev := stdev }

/-- What the variant for automatic differentiation reads (Examples/IsingModelProblem_AD.py:36-39). The figure of merit does not use the other fields. -/
noncomputable def exIsingArgsAD : Prog PDict ExIsingSettings := do
  let q ← setdefault "n_qubits" (.num 5) >>= fun v => Prog.lift (countOf v)
  let J ← numSetting "J" 1
  let g ← numSetting "g" 2
  let n ← setdefault "n_slices" (.num 100) >>= fun v => Prog.lift (countOf v)
  pure { qubits := q, J := J, g := g, slices := n, noisy := false, gVariation := 0, stdev := 0 }

/-- What the ring of spins with dephasing reads: the number of qubits, `J`, `g` and the rate (Examples/IsingModelProblem_AD_Lindblad.py:36-39). -/
noncomputable def openIsingArgs : Prog PDict (ℕ × ℝ × ℝ × ℝ) := do
  let q ← setdefault "n_qubits" (.num 2) >>= fun v => Prog.lift (countOf v)
  let J ← numSetting "J" 1
  let g ← numSetting "g" 2
  let gamma ← numSetting "gamma_dephase" (1 / 10)
  pure (q, J, g, gamma)

/-- `args_dict` (Examples/execute_Lindblad.py:29). -/
def lindbladArgs : PDict := dictOf [("E", .num 1), ("gamma_decay", .num (1 / 10))]

/-- What the qubit with decay reads: the energy and the rate (Examples/LindbladProblem.py:40-41). -/
noncomputable def tlsArgs : Prog PDict (ℝ × ℝ) := do
  let gamma ← numSetting "gamma_decay" (1 / 10)
  let E ← numSetting "E" 1
  pure (E, gamma)

/-- `get_FoM` of the simplified example (Examples/Simplified/execute_simplified_optimization.py:30-50); the standard deviation is the default. -/
def simplifiedFoM (c : ControlsOut ℚ) : Py (Answer ℚ) :=
  (getIdx c.pulses 0).map fun u => ⟨some |u.sum|, some (1 / 10), none⟩

end QuOCS

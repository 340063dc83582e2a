/-
Properties of the creation of an optimizer from the optimization dictionary: C77, C78, C79, C80, C81.
All theorems quantify over every dictionary and over what is outside of the library (`PyLib`: the functions of the user, the import
system, the parser of numbers).
-/
import Verif.Lemmas.SettingsSweep
import Verif.Props.Run
import Verif.Props.Limits

set_option linter.unusedSectionVars false
set_option linter.unusedVariables false

namespace QuOCS

/-! ### Concrete dictionaries used by the examples -/

/-- a dictionary -/
def mkDict : List (String × PVal) → PDict
  | [] => .nil
  | (k, v) :: l => .cons k v (mkDict l)

/-- a list -/
def mkList : List PVal → PList
  | [] => .nil
  | v :: l => .cons v (mkList l)

/-- all classes exist, no other function of the user -/
def exLib : PyLib :=
  { intOfStr := fun _ => none, floatOfStr := fun _ => none, exists_ := fun _ _ => true, evalGuess := fun _ => .error .valueError,
    evalScaling := fun _ => .error .valueError, guessFile := fun _ _ _ => .error .valueError, scalingFile := fun _ _ _ => .error .valueError,
    randint := 7, M := exFns }

/-- the basis `name` with two vectors (Fourier and similar) -/
def exBasis (name : String) (more : List (String × PVal)) : PVal :=
  .dict (mkDict ([("basis_name", .str name), ("random_super_parameter_distribution", .dict (mkDict [("distribution_name", .str "Uniform"),
    ("lower_limit", .num (1 / 10)), ("upper_limit", .num 3)]))] ++ more))

/-- one pulse -/
def exPulse (basis : PVal) (more : List (String × PVal)) : PVal :=
  .dict (mkDict ([("pulse_name", .str "p"), ("upper_limit", .num 2), ("time_name", .str "t"), ("basis", basis)] ++ more))

/-- one parameter -/
def exParam (more : List (String × PVal)) : PVal :=
  .dict (mkDict ([("parameter_name", .str "a"), ("lower_limit", .num (-1)), ("amplitude_variation", .num (1 / 2))] ++ more))

/-- one time -/
def exTime : PVal := .dict (mkDict [("time_name", .str "t"), ("initial_value", .num 3)])

/-- settings of a search with Nelder-Mead -/
def exSearch : List (String × PVal) :=
  [("dsm_settings", .dict (mkDict [("general_settings", .dict (mkDict [("dsm_algorithm_name", .str "NelderMead")])),
    ("stopping_criteria", .dict (mkDict [("xatol", .num (1 / 100))]))]))]

/-- a dictionary -/
def exSettings (alg : List (String × PVal)) (pulses params times : List PVal) : PDict :=
  mkDict [("optimization_client_name", .str "my run"), ("algorithm_settings", .dict (mkDict alg)), ("pulses", .list (mkList pulses)),
    ("parameters", .list (mkList params)), ("times", .list (mkList times))]

/-- settings of dCRAB -/
def exAlg : List (String × PVal) :=
  [("algorithm_name", .str "dCRAB"), ("optimization_direction", .str "maximization"), ("super_iteration_number", .num 3)] ++ exSearch

/-- dCRAB with one pulse, one parameter and one time, at most 50 evaluations -/
def exDcrab : PDict :=
  exSettings (("max_eval_total", .num 50) :: exAlg) [exPulse (exBasis "Fourier" []) [("bins_number", .num 5)]] [exParam []] [exTime]

/-- whether the creation succeeds -/
def creates (d : PDict) : Bool := (createOptimizer exLib d).1.isOk

theorem creates_ok {d : PDict} (h : creates d = true) : ∃ c, (createOptimizer exLib d).1 = .ok c := by
  unfold creates at h
  generalize (createOptimizer exLib d).1 = r at h
  cases r with
  | ok c => exact ⟨c, rfl⟩
  | error e => cases h

/-- the settings of the search of a created optimizer -/
def searchOf (r : Py Created) : Option SearchSettings :=
  match r with
  | .ok c => match c.alg with
    | .search s => some s
    | _ => none
  | .error _ => none

/-- the basis of the first pulse of a created dCRAB optimizer -/
def basisOfFirst (r : Py Created) : Option (Basis ℚ) := (searchOf r).bind fun s => s.controls.pulses.head?.map (·.basis)

/-- the offset of the basis of the first pulse of a created dCRAB optimizer -/
def offsetOfFirst (r : Py Created) : Option ℚ :=
  match basisOfFirst r with
  | some (.sigmoidTimeDep _ o _ _) => some o
  | some (.sigmoidSigmas _ o _ _) => some o
  | some (.sigmoidAllParas _ o _ _ _) => some o
  | _ => none

/-! ### C77: the settings in the dictionary are the ones that are used -/

/-- **C77.** If an optimizer is created, every setting of it is the one in the dictionary, or the default if it is not there: budget,
time limit, direction and goal; search method, population and stopping criteria; super-iterations, drift compensation, re-evaluation
and seed; limits, bins, variation, shrinking, shaping, basis and frequencies of every pulse; limits, values and names of every parameter
and time; in the order of the dictionary. Entries of other kinds (dCRAB, direct search, GRAPE, AD) have no influence. -/
theorem C77_settings_used (lib : PyLib) {d : PDict} {c : Created} (h : (createOptimizer lib d).1 = .ok c) : UsesSettings lib d c :=
  create_use lib h

/-- The settings of a run are the ones of the optimizer. -/
theorem cfg_budget {s : SearchSettings} {cfg : AlgCfg ℚ ℚ} (h : s.cfg = some cfg) : cfg.maxEvalTotal = s.core.maxEvalTotal := by
  unfold SearchSettings.cfg at h
  obtain ⟨_, _, h⟩ := Option.bind_eq_some_iff.1 h
  obtain ⟨_, _, h⟩ := Option.bind_eq_some_iff.1 h
  obtain ⟨_, _, h⟩ := Option.bind_eq_some_iff.1 h
  obtain ⟨_, _, h⟩ := Option.bind_eq_some_iff.1 h
  obtain ⟨_, _, h⟩ := Option.bind_eq_some_iff.1 h
  obtain ⟨_, _, h⟩ := Option.bind_eq_some_iff.1 h
  obtain ⟨_, _, h⟩ := Option.bind_eq_some_iff.1 h
  obtain ⟨_, _, h⟩ := Option.bind_eq_some_iff.1 h
  obtain ⟨_, _, h⟩ := Option.bind_eq_some_iff.1 h
  obtain ⟨_, _, h⟩ := Option.bind_eq_some_iff.1 h
  obtain ⟨_, _, h⟩ := Option.bind_eq_some_iff.1 h
  cases h
  rfl

/-- **C77, the settings of a run.** A dCRAB or direct search optimizer created from a dictionary runs with the values of the
dictionary: total budget, time limit, direction and goal; the limits and tolerances of each direct search and its change-based stop;
number of super-iterations, compensation of drifts and re-evaluation. -/
theorem C77_run_settings (lib : PyLib) {d : PDict} {c : Created} {s : SearchSettings} {cfg : AlgCfg ℚ ℚ}
    (h : (createOptimizer lib d).1 = .ok c) (hs : c.alg = .search s) (hc : s.cfg = some cfg) : RunUses lib d cfg :=
  run_use lib h hs hc

/-- **C77, from the dictionary to the run.** A dCRAB or direct search optimizer created from a dictionary with the entry
`max_eval_total = n` calls the function of the user at most `n` times. -/
theorem C77_configured_budget (lib : PyLib) {d : PDict} {c : Created} {s : SearchSettings} {cfg : AlgCfg ℚ ℚ} {n : ℤ}
    (h : (createOptimizer lib d).1 = .ok c) (hs : c.alg = .search s) (hc : s.cfg = some cfg)
    (hn : entry d ["algorithm_settings", "max_eval_total"] = some (.num n)) {V C O : Type} (env : Env V C ℚ) (ops : CtlOps O V C)
    (dsm : Dsm ℚ V ℚ) (o : O) : ((execute cfg env ops dsm o).2.log.length : ℤ) ≤ max 0 n := by
  have hb := C01_budget cfg env ops dsm o
  rw [cfg_budget hc] at hb
  have hu := (create_use lib h).alg
  rw [hs] at hu
  have hcore : UsesCore lib d s.core := by
    rcases hu.2 with ⟨_, hu⟩ | ⟨_, hu⟩ <;> exact hu.core
  have hm := hcore.budget
  unfold setting at hm
  rw [hn] at hm
  rw [hm.int] at hb
  exact hb

/-- The dictionary `exDcrab` meets the hypotheses: the optimizer is created, and its settings are the configured ones. -/
example : ∃ c s cfg, (createOptimizer exLib exDcrab).1 = .ok c ∧ c.alg = .search s ∧ s.cfg = some cfg ∧
    entry exDcrab ["algorithm_settings", "max_eval_total"] = some (.num (50 : ℤ)) := by
  have h : ((searchOf (createOptimizer exLib exDcrab).1).bind SearchSettings.cfg).isSome = true := by decide +kernel
  obtain ⟨cfg, h⟩ := Option.isSome_iff_exists.1 h
  obtain ⟨s, h1, h2⟩ := Option.bind_eq_some_iff.1 h
  unfold searchOf at h1
  generalize (createOptimizer exLib exDcrab).1 = r at h1
  cases r with
  | error e => cases h1
  | ok c =>
    refine ⟨c, s, cfg, rfl, ?_, h2, rfl⟩
    simp only at h1
    generalize c.alg = a at h1
    cases a <;> cases h1
    rfl

/-! ### C78: the dictionary is only extended -/

/-- **C78.** Creating an optimizer, whether it succeeds or raises an exception, keeps every entry of the dictionary, at any depth. -/
theorem C78_entries_kept (lib : PyLib) (d : PDict) (p : List PathStep) {v : PVal} (h : lookAt (.dict d) p = some v) (hv : v.Scalar) :
    lookAt (.dict (createOptimizer lib d).2) p = some v := by
  obtain ⟨T, D, w, hw, ha⟩ := lookAt_agree p (.sub (lawful_create (B := false) lib d d (Agree.refl _ d)).2) h
  cases ha with
  | same => exact hw
  | sub _ => exact absurd rfl (hv.1 _)
  | subSome _ => exact absurd rfl (hv.1 _)
  | items _ => exact absurd rfl (hv.2 _)

/-- **C78 for dictionaries and lists.** Dictionaries stay dictionaries, lists stay lists of the same length. -/
theorem C78_containers_kept (lib : PyLib) (d : PDict) (p : List PathStep) :
    (∀ s, lookAt (.dict d) p = some (.dict s) → ∃ s', lookAt (.dict (createOptimizer lib d).2) p = some (.dict s')) ∧
    (∀ l, lookAt (.dict d) p = some (.list l) → ∃ l', lookAt (.dict (createOptimizer lib d).2) p = some (.list l') ∧
      ∀ i, (l'.get? i).isSome = (l.get? i).isSome) := by
  constructor
  · intro s h
    obtain ⟨T, D, w, hw, ha⟩ := lookAt_agree p (.sub (lawful_create (B := false) lib d d (Agree.refl _ d)).2) h
    cases ha <;> exact ⟨_, hw⟩
  · intro l h
    obtain ⟨T, D, w, hw, ha⟩ := lookAt_agree p (.sub (lawful_create (B := false) lib d d (Agree.refl _ d)).2) h
    cases ha with
    | same => exact ⟨_, hw, fun i => rfl⟩
    | items ha =>
      refine ⟨_, hw, fun i => ?_⟩
      rcases ha.get? i with ⟨h1, h2⟩ | ⟨_, _, h1, h2, _⟩ <;> rw [h1, h2]
      rfl

/-- The entry `upper_limit` of the first pulse is one; the creation adds `dump_format`. -/
example : lookAt (.dict exDcrab) [.key "pulses", .pos 0, .key "upper_limit"] = some (.num 2) ∧ (PVal.num 2).Scalar ∧
    lookAt (.dict exDcrab) [.key "dump_format"] = none ∧
    strOpt (lookAt (.dict (createOptimizer exLib exDcrab).2) [.key "dump_format"]) = some "npz" :=
  ⟨rfl, ⟨fun _ h => (by cases h), fun _ h => (by cases h)⟩, rfl, by decide +kernel⟩

/-! ### C79: creating optimizers again -/

/-- **C79, the same dictionary again.** A second optimizer created from the same dictionary has the same settings, or fails with the
same exception. -/
theorem C79_create_twice (lib : PyLib) (d : PDict) :
    (createOptimizer lib (createOptimizer lib d).2).1 = (createOptimizer lib d).1 :=
  (lawful_create (B := false) lib d _ (lawful_create (B := false) lib d d (Agree.refl _ d)).2).1

theorem session_agree (lib : PyLib) : ∀ (es : List (List PathStep × PVal)) {d₀ d : PDict}, Agree (settingsTab lib false) d₀ d →
    (∀ e ∈ es, Sweepable e.1 = true) → AllAssignable d₀ es → session lib d es = freshSession lib d₀ es
  | [], _, _, _, _, _ => rfl
  | (p, w) :: es, d₀, d, h, hs, ha => by
    have h1 := assign_agree (w := w) h (sweep_stable lib (hs (p, w) List.mem_cons_self)) ha.1
    have h2 := lawful_create (B := false) lib (assign d₀ p w) (assign d p w) h1
    unfold session freshSession
    rw [h2.1, session_agree lib es h2.2 (fun e he => hs e (List.mem_cons_of_mem _ he)) ha.2]

/-- **C79, sweeps, partial.** A dictionary is changed by assignments and after each of them an optimizer is created from it, as in a
sweep over `max_eval_total`, over the limits of a pulse or over the bins. Then each optimizer has the settings that it has if the same
assignments are made to a dictionary that is never used: what earlier optimizers wrote into the dictionary has no influence. The
dictionary may have been used before the session too. Missing, because it is false there: assignments to the entries that select the
class of the algorithm or of the basis, and to `sigma`. -/
theorem C79_sweep_partial (lib : PyLib) (d : PDict) (es : List (List PathStep × PVal)) (hs : ∀ e ∈ es, Sweepable e.1 = true)
    (ha : AllAssignable d es) :
    session lib d es = freshSession lib d es ∧ session lib (createOptimizer lib d).2 es = freshSession lib d es :=
  ⟨session_agree lib es (Agree.refl _ d) hs ha, session_agree lib es (lawful_create (B := false) lib d d (Agree.refl _ d)).2 hs ha⟩

/-- assignments of a sweep over the upper limit and the budget -/
def exSweep : List (List PathStep × PVal) :=
  [([.key "pulses", .pos 0, .key "upper_limit"], .num 5), ([.key "algorithm_settings", .key "max_eval_total"], .num 70),
   ([.key "algorithm_settings", .key "dsm_settings", .key "stopping_criteria", .key "max_eval"], .num 10)]

example : (∀ e ∈ exSweep, Sweepable e.1 = true) ∧ AllAssignable exDcrab exSweep := by
  refine ⟨by decide, ⟨_, _, rfl, by decide +kernel⟩, ⟨_, _, rfl, by decide +kernel⟩, ⟨_, _, rfl, by decide +kernel⟩, trivial⟩

example : (session exLib exDcrab exSweep).map (fun r => (searchOf r).map (·.core.maxEvalTotal)) = [some 50, some 70, some 70] := by
  decide +kernel

/-- dCRAB with one pulse with the basis `name` and `sigma` -/
def exSigmoid (name : String) : PDict :=
  exSettings exAlg [exPulse (exBasis name [("sigma", .num (1 / 10))]) [("bins_number", .num 5)]] [] [exTime]

/-- a sweep over `sigma` -/
def exSigmaSweep : List (List PathStep × PVal) :=
  [([.key "pulses", .pos 0, .key "basis", .key "sigma"], .num (1 / 10)), ([.key "pulses", .pos 0, .key "basis", .key "sigma"], .num (1 / 5))]

/-- **C79 is violated** for `sigma`: the first optimizer writes `offset = -10 * sigma` into the dictionary, and the optimizer created
after an assignment to `sigma` uses this offset, not the one for its own `sigma`. -/
theorem C79_sigma_sweep_fails (name : String) (hn : name ∈ ["SigmoidTimeDep", "SigmoidSigmas", "SigmoidAllParas"]) :
    (session exLib (exSigmoid name) exSigmaSweep).map offsetOfFirst = [some (-1), some (-1)] ∧
    (freshSession exLib (exSigmoid name) exSigmaSweep).map offsetOfFirst = [some (-1), some (-2)] := by
  simp only [List.mem_cons, List.not_mem_nil, or_false] at hn
  rcases hn with rfl | rfl | rfl <;> decide +kernel

/-- AD, without `super_iteration_number` -/
def exAD : PDict :=
  exSettings ([("algorithm_name", .str "AD")] ++ exSearch) [exPulse (exBasis "Fourier" []) [("bins_number", .num 5)]] [] [exTime]

/-- from AD to dCRAB -/
def exSwitch : List (List PathStep × PVal) :=
  [([.key "algorithm_settings", .key "algorithm_name"], .str "AD"), ([.key "algorithm_settings", .key "algorithm_name"], .str "dCRAB")]

/-- **C79 is violated** for the algorithm: without an entry `super_iteration_number`, dCRAB is not created. From the dictionary that
was used for AD, it is created, with one super-iteration. -/
theorem C79_switch_algorithm_fails : (session exLib exAD exSwitch).map (fun r => (searchOf r).map (·.maxSI)) = [none, some 1] ∧
    (session exLib exAD exSwitch).map (·.isOk) = [true, true] ∧ (freshSession exLib exAD exSwitch).map (·.isOk) = [true, false] := by
  decide +kernel

/-! ### C80: documented defaults -/

/-- **C80, partial.** Leaving out an entry is the same as writing the default that the documentation gives for it: the optimizer has
the same settings, or its creation fails with the same exception. Missing, because it is false there: the entries in `docWrong`. -/
theorem C80_documented_defaults_partial (lib : PyLib) (d : PDict) (p : List PathStep)
    (hw : ∀ s, lookAt (.dict d) p.dropLast = some (.dict s) → docWrong lib s p = false) : DefaultUsed lib d p :=
  fun s w hl h hn => (lawful_create lib d _ (doc_agree lib h (hw s hl) hl hn)).1

/-- `lower_limit` of the pulse is not in the dictionary; the documented default is 0. -/
example : lookAt (.dict exDcrab) [.key "pulses", .pos 0, .key "lower_limit"] = none ∧
    ∃ s, lookAt (.dict exDcrab) [.key "pulses", .pos 0] = some (.dict s) ∧
      docDefault exLib s [.key "pulses", .pos 0, .key "lower_limit"] = some (.num 0) ∧
      docWrong exLib s [.key "pulses", .pos 0, .key "lower_limit"] = false :=
  ⟨rfl, _, rfl, rfl, rfl⟩

/-- dCRAB without `max_eval_total` -/
def exNoBudget : PDict := exSettings exAlg [exPulse (exBasis "Fourier" []) [("bins_number", .num 5)]] [exParam []] [exTime]

theorem not_used {d s : PDict} {p : List PathStep} {w : PVal} {α : Type} (f : Py Created → α) (hl : lookAt (.dict d) p.dropLast = some (.dict s))
    (h : docDefault exLib s p = some w) (hn : lookAt (.dict d) p = none)
    (hf : f (createOptimizer exLib (assign d p w)).1 ≠ f (createOptimizer exLib d).1) : ¬ DefaultUsed exLib d p :=
  fun hd => hf (congrArg f (hd s w hl h hn))

/-- **C80 is violated** for `max_eval_total`: documented `10e10`, used `10 ** 10`. -/
theorem C80_max_eval_total_fails : ¬ DefaultUsed exLib exNoBudget [.key "algorithm_settings", .key "max_eval_total"] :=
  not_used (fun r => (searchOf r).map (·.core.maxEvalTotal)) rfl rfl rfl (by decide +kernel)

/-- **C80 is violated** for `max_eval`: documented `10e10`, used `10 ** 10`. -/
theorem C80_max_eval_fails :
    ¬ DefaultUsed exLib exNoBudget [.key "algorithm_settings", .key "dsm_settings", .key "stopping_criteria", .key "max_eval"] :=
  not_used (fun r => (searchOf r).map (·.stop.maxEval.num?)) rfl rfl rfl (by decide +kernel)

/-- **C80 is violated** for `initial_value` of a parameter: documented 0.1, used 1. -/
theorem C80_initial_value_fails : ¬ DefaultUsed exLib exDcrab [.key "parameters", .pos 0, .key "initial_value"] :=
  not_used (fun r => (searchOf r).map (·.controls.params.map (·.initialValue))) rfl rfl rfl (by decide +kernel)

/-- a pulse without a name -/
def exNoPulseName : PDict := exSettings exAlg
  [.dict (mkDict [("upper_limit", .num 2), ("time_name", .str "t"), ("basis", exBasis "Fourier" [])])] [] [exTime]

/-- **C80 is violated** for the name of a pulse: documented "pulse", without it the creation fails. -/
theorem C80_pulse_name_fails : ¬ DefaultUsed exLib exNoPulseName [.key "pulses", .pos 0, .key "pulse_name"] :=
  not_used (·.isOk) rfl rfl rfl (by decide +kernel)

/-- **C80 is violated** for the name of a parameter: documented "parameter", without it the creation fails. -/
theorem C80_parameter_name_fails :
    ¬ DefaultUsed exLib (exSettings exAlg [] [.dict (mkDict [("lower_limit", .num 0)])] []) [.key "parameters", .pos 0, .key "parameter_name"] :=
  not_used (·.isOk) rfl rfl rfl (by decide +kernel)

/-- **C80 is violated** for the name of a time: documented "time", without it the creation fails. -/
theorem C80_time_name_fails :
    ¬ DefaultUsed exLib (exSettings exAlg [.dict (mkDict [("pulse_name", .str "p"), ("basis", exBasis "Fourier" [])])] []
      [.dict (mkDict [("initial_value", .num 2)])]) [.key "times", .pos 0, .key "time_name"] :=
  not_used (·.isOk) rfl rfl rfl (by decide +kernel)

/-- **C80 is violated** for `bins_number` of a pulse with the piecewise basis: documented 101, without it the creation fails. -/
theorem C80_bins_number_fails :
    ¬ DefaultUsed exLib (exSettings exAlg [exPulse (exBasis "PiecewiseBasis" []) []] [] [exTime]) [.key "pulses", .pos 0, .key "bins_number"] :=
  not_used (·.isOk) rfl rfl rfl (by decide +kernel)

/-! ### C81: entries with other names -/

/-- **C81, partial.** An entry with a name that is not the name of a setting, in the dictionary, in `algorithm_settings` or in a pulse,
e.g. a comment, has no influence: the optimizer has the same settings, or its creation fails with the same exception. Missing, because
it is false there: parameters and times. -/
theorem C81_extra_entries_partial (lib : PyLib) (d : PDict) (p : List PathStep) (w : PVal) (hp : ExtraEntry p = true) {s : PDict}
    (hl : lookAt (.dict d) p.dropLast = some (.dict s)) (hn : lookAt (.dict d) p = none) :
    (createOptimizer lib (assign d p w)).1 = (createOptimizer lib d).1 :=
  (lawful_create lib d _ (extra_agree lib hp hl hn)).1

example : ExtraEntry [.key "pulses", .pos 0, .key "comment"] = true ∧
    (∃ s, lookAt (.dict exDcrab) [.key "pulses", .pos 0] = some (.dict s)) ∧
    lookAt (.dict exDcrab) [.key "pulses", .pos 0, .key "comment"] = none := ⟨by decide, ⟨_, rfl⟩, rfl⟩

/-- **C81 is violated** for parameters and times: a comment there makes the creation fail with a `TypeError`. -/
theorem C81_comment_in_parameter_fails (k : String) (hk : k ∈ ["parameters", "times"]) : creates exDcrab = true ∧
    creates (assign exDcrab [.key k, .pos 0, .key "comment"] (.str "text")) = false := by
  simp only [List.mem_cons, List.not_mem_nil, or_false] at hk
  rcases hk with rfl | rfl <;> decide +kernel

/-- **C81 is violated** for three names in a pulse: whatever else the dictionary contains, an entry `map_index`, `rng` or `is_AD` in a pulse
makes the creation fail. -/
theorem C81_reserved_names_fail (lib : PyLib) (d : PDict) {s : PDict} (hs : s ∈ itemsAt d "pulses") {k : String}
    (hk : k ∈ ["map_index", "rng", "is_AD"]) (h : s.get? k ≠ none) : ∃ e, (createOptimizer lib d).1 = .error e := by
  rcases hc : (createOptimizer lib d).1 with e | c
  · exact ⟨e, rfl⟩
  · exfalso
    have key : ∀ cd : ControlDicts, UsesControls lib d cd → False := by
      intro cd hu
      have : ∀ {l : List PDict} {m : List (PulseDict ℚ)}, List.Forall₂ (UsesPulse lib) l m → s ∈ l → s.get? k = none := by
        intro l m hf hm
        induction hf with
        | nil => cases hm
        | cons h1 _ ih =>
          rcases List.mem_cons.1 hm with rfl | hm
          · exact h1.reserved k hk
          · exact ih hm
      exact h (this hu.pulses hs)
    have hu := (C77_settings_used lib hc).alg
    rcases ha : c.alg with s1 | s1 | s1
    · rw [ha] at hu
      rcases hu.2 with ⟨_, hu⟩ | ⟨_, hu⟩
      · exact key _ hu.controls
      · exact key _ hu.controls
    · rw [ha] at hu
      exact key _ hu.2.controls
    · rw [ha] at hu
      exact key _ hu.2.controls

/-- The name `rng` in the pulse of the example, which is created without it. -/
example : creates exDcrab = true ∧ ∃ s, s ∈ itemsAt (assign exDcrab [.key "pulses", .pos 0, .key "rng"] (.num 1)) "pulses" ∧
    s.get? "rng" ≠ none := ⟨by decide +kernel, _, List.mem_cons_self, by decide +kernel⟩

end QuOCS

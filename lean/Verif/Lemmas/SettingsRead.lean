import Verif.Lemmas.Settings

/-!
# Creating an optimizer fills in defaults only
-/

set_option linter.unusedSectionVars false
set_option linter.unusedVariables false

namespace QuOCS

/-- The algorithm selected by the dictionary `algorithm_settings`. -/
def algOf (lib : PyLib) (d : PDict) : Option (String × String) :=
  importClass lib (d.get? "algorithm_attribute") (d.get? "algorithm_module") (d.get? "algorithm_class")
    (some ((d.get? "algorithm_name").getD .null)) "algorithm"

/-- The basis selected by the dictionary `basis`. -/
def basisOf (lib : PyLib) (d : PDict) : Option (String × String) :=
  importClass lib (some ((d.get? "basis_attribute").getD .null)) (some ((d.get? "basis_module").getD .null))
    (some ((d.get? "basis_class").getD .null)) (some ((d.get? "basis_name").getD .null)) "basis"

/-- Whether the basis is one with a default for `offset` that depends on `sigma`. -/
def basisIs (lib : PyLib) (d : PDict) (m : String) : Bool := (basisOf lib d).map (·.1) == some m

/-- The default for `offset` in these bases. -/
def offsetDefault (d : PDict) : Def :=
  match numOf ((d.get? "sigma").getD (.num (1 / 10 ^ 10))) with
  | .ok s => .val (.num (-10 * s))
  | .error _ => .never

/-- The defaults of a basis that do not depend on other entries. -/
def basisConst : List String → Def
  | ["basis_attribute"] => .val .null
  | ["basis_module"] => .val .null
  | ["basis_class"] => .val .null
  | ["basis_name"] => .val .null
  | ["basis_vector_number"] => .val (.num 1)
  | ["basis_max"] => .val (.num 1)
  | ["random_super_parameter_distribution"] => .sub
  | ["random_super_parameter_distribution", "distribution_attribute"] => .val .null
  | ["random_super_parameter_distribution", "distribution_module"] => .val .null
  | ["random_super_parameter_distribution", "distribution_class"] => .val .null
  | ["random_super_parameter_distribution", "distribution_name"] => .val .null
  | ["random_super_parameter_distribution", "lower_limit"] => .val (.num 0)
  | ["random_super_parameter_distribution", "upper_limit"] => .val (.num 5)
  | [_] => .unused
  | _ => .never

/-- The defaults of a basis. -/
def basisTab (lib : PyLib) : Tab
  | ["sigma"], d => if basisIs lib d "quocslib.pulses.basis.Sigmoid" then .val (.num (1 / 10)) else .val (.num (1 / 10 ^ 10))
  | ["offset"], d => if basisIs lib d "quocslib.pulses.basis.Sigmoid" then .val (.num (1 / 10)) else offsetDefault d
  | ["tau_variation"], d =>
    if basisIs lib d "quocslib.pulses.basis.SigmoidTimeDep" then .val (.num (1 / 10)) else .val (.num (1 / 10 ^ 20))
  | ["sigma_variation"], d =>
    if basisIs lib d "quocslib.pulses.basis.SigmoidSigmas" then .val (.num 1) else .val (.num (1 / 10 ^ 20))
  | p, _ => basisConst p

/-- Whether the basis of a pulse is the piecewise basis. -/
def isPiecewise (lib : PyLib) (d : PDict) : Bool :=
  match d.get? "basis" with
  | some (.dict s) => basisIs lib s "quocslib.pulses.basis.PiecewiseBasis"
  | _ => false

/-- The defaults of a pulse that do not depend on other entries. -/
def pulseConst : List String → Def
  | ["time_name"] => .val (.str "time")
  | ["lower_limit"] => .val (.num 0)
  | ["upper_limit"] => .val (.num 1)
  | ["amplitude_variation"] => .val (.num 1)
  | ["shrink_ampl_lim"] => .val (.bool false)
  | ["overwrite_base_pulse"] => .val (.bool false)
  | ["basis"] => .sub
  | ["initial_guess"] => .sub
  | ["initial_guess", "file_path"] => .val (.str "")
  | ["initial_guess", "function_name"] => .val (.str "")
  | ["initial_guess", "path_mode"] => .val (.str "relative")
  | ["scaling_function"] => .sub
  | ["scaling_function", "file_path"] => .val (.str "")
  | ["scaling_function", "function_name"] => .val (.str "")
  | ["scaling_function", "path_mode"] => .val (.str "relative")
  | ["bins_number"] => .never
  | ["pulse_name"] => .never
  | ["shaping_options"] => .never
  | ["map_index"] => .never
  | ["rng"] => .never
  | ["is_AD"] => .never
  | [_] => .unused
  | _ => .never

/-- The defaults of a pulse. `B`: with the default for `bins_number`, which the piecewise basis does not have. -/
def pulseTab (lib : PyLib) (B : Bool) : Tab
  | ["bins_number"], d => if B && !isPiecewise lib d then .val (.num 101) else .never
  | "basis" :: j :: p, d => basisTab lib (j :: p) d
  | p, _ => pulseConst p

/-- The defaults of `algorithm_settings` that do not depend on other entries. -/
def algConst : List String → Def
  | ["algorithm_name"] => .val .null
  | ["optimization_direction"] => .val (.str "minimization")
  | ["max_eval_total"] => .val (.num (10 ^ 10))
  | ["total_time_lim"] => .val (.num (10 ^ 10))
  | ["FoM_goal"] => .val .null
  | ["dsm_settings"] => .sub
  | ["dsm_settings", "general_settings"] => .sub
  | ["dsm_settings", "general_settings", "dsm_algorithm_module"] => .val .null
  | ["dsm_settings", "general_settings", "dsm_algorithm_class"] => .val .null
  | ["dsm_settings", "general_settings", "dsm_algorithm_name"] => .val .null
  | ["dsm_settings", "general_settings", "parallelization"] => .val (.bool false)
  | ["dsm_settings", "general_settings", "is_adaptive"] => .val (.bool false)
  | ["dsm_settings", "general_settings", "population"] => .val .null
  | ["dsm_settings", "stopping_criteria"] => .sub
  | ["dsm_settings", "stopping_criteria", "total_time_lim"] => .unused
  | ["dsm_settings", "stopping_criteria", "k3"] => .unused
  | ["dsm_settings", "stopping_criteria", "max_eval"] => .val (.num (10 ^ 10))
  | ["dsm_settings", "stopping_criteria", "time_lim"] => .val (.num (10 ^ 10))
  | ["dsm_settings", "stopping_criteria", "change_based_stop"] => .val changeBasedDefault
  | ["dsm_settings", "stopping_criteria", "xatol"] => .val (.num (1 / 10 ^ 14))
  | ["dsm_settings", "stopping_criteria", "fatol"] => .val (.num (1 / 10 ^ 100))
  | ["compensate_drift"] => .subDefault
  | ["compensate_drift", "compensate_after_SI"] => .val (.bool false)
  | ["compensate_drift", "compensate_after_minutes"] => .val (.num 0)
  | ["compensate_drift", "num_average"] => .val (.num 1)
  | ["stopping_criteria"] => .subDefault
  | ["stopping_criteria", "max_eval_total"] => .val (.num (10 ^ 10))
  | ["stopping_criteria", "ftol"] => .val (.num (1 / 10 ^ 6))
  | ["stopping_criteria", "gtol"] => .val (.num (1 / 10 ^ 6))
  | ["stopping_criteria", "maxls"] => .val (.num 20)
  | ["algorithm_attribute"] => .never
  | ["algorithm_module"] => .never
  | ["algorithm_class"] => .never
  | ["re_evaluation"] => .never
  | ["random_number_generator"] => .never
  | [_] => .unused
  | _ => .never

/-- The defaults of `algorithm_settings`. -/
def algTab (lib : PyLib) : Tab
  | ["super_iteration_number"], d => if (algOf lib d).bind algClass = some .ad then .val (.num 1) else .never
  | p, _ => algConst p

/-- The other defaults. -/
def topConst : List String → Def
  | ["optimization_client_name"] => .val (.str "run")
  | ["create_logfile"] => .val (.bool true)
  | ["console_info"] => .val (.bool true)
  | ["use_microsecond_name"] => .val (.bool false)
  | ["dump_format"] => .val (.str "npz")
  | ["sys_type"] => .val (.str "StateTransfer")
  | ["algorithm_settings"] => .sub
  | ["pulses"] => .items
  | ["parameters"] => .items
  | ["times"] => .items
  | ["parameters", "initial_value"] => .val (.num 1)
  | ["parameters", "lower_limit"] => .val (.num (1 / 10))
  | ["parameters", "upper_limit"] => .val (.num (11 / 10))
  | ["parameters", "amplitude_variation"] => .val (.num (1 / 10))
  | ["times", "initial_value"] => .val (.num 1)
  | ["times", "is_optimization"] => .val (.bool false)
  | ["times", "lower_limit"] => .val (.num 0)
  | ["times", "upper_limit"] => .val (.num 1)
  | ["times", "amplitude_variation"] => .val (.num (1 / 10))
  | [_] => .unused
  | _ => .never

/-- The defaults. -/
def settingsTab (lib : PyLib) (B : Bool) : Tab
  | "algorithm_settings" :: j :: p, d => algTab lib (j :: p) d
  | "pulses" :: j :: p, d => pulseTab lib B (j :: p) d
  | p, _ => topConst p

/-- Proves that a program made of the basic steps is lawful. -/
macro "lawful" : tactic => `(tactic| repeat' (first
  | with_reducible exact Lawful.pure _
  | with_reducible exact Lawful.raise _
  | with_reducible exact Lawful.lift _
  | refine Lawful.setdefault ?_; rfl
  | refine Lawful.fillDefault ?_; rfl
  | refine Lawful.item ?_; rfl
  | refine Lawful.getOpt ?_; rfl
  | refine Lawful.isNone ?_; rfl
  | with_reducible refine Lawful.bind ?_ fun _ _ => ?_
  | with_reducible refine Lawful.ite (fun _ => ?_) (fun _ => ?_)
  | refine Lawful.inDict rfl fun _ _ => ?_
  | refine Lawful.inDictDefault rfl fun _ _ => ?_
  | refine Lawful.inItems rfl fun _ => ?_))

section
variable (lib : PyLib) {B : Bool}

theorem lawful_stopping (d : PDict) :
    Lawful ((((settingsTab lib B).below "algorithm_settings").below "dsm_settings").below "stopping_criteria") d readStopping := by
  unfold readStopping
  lawful

theorem lawful_core (d : PDict) : Lawful (settingsTab lib B) d (readCore lib) := by
  unfold readCore
  lawful

theorem lawful_method (b : Bool) (d : PDict) :
    Lawful ((((settingsTab lib B).below "algorithm_settings").below "dsm_settings").below "general_settings") d (readMethod lib b) := by
  unfold readMethod
  refine Lawful.bind ?_ fun a _ => ?_
  · unfold readMethodName
    lawful
    split <;> lawful
  · cases a <;> lawful

theorem lawful_gradientStopping (d : PDict) :
    Lawful (((settingsTab lib B).below "algorithm_settings").below "stopping_criteria") d readGradientStopping := by
  unfold readGradientStopping
  lawful

theorem param_keys (d : PDict) (k : String) : ((settingsTab lib B).below "parameters") [k] d = .never ∨
    k ∈ ["parameter_name", "initial_value", "lower_limit", "upper_limit", "amplitude_variation"] := by
  by_cases h : k ∈ ["parameter_name", "initial_value", "lower_limit", "upper_limit", "amplitude_variation"]
  · exact .inr h
  · simp only [List.mem_cons, List.not_mem_nil, or_false, not_or] at h
    left
    show topConst ["parameters", k] = .never
    unfold topConst
    split <;> simp_all

theorem time_keys (d : PDict) (k : String) : ((settingsTab lib B).below "times") [k] d = .never ∨
    k ∈ ["map_index", "time_name", "initial_value", "is_optimization", "lower_limit", "upper_limit", "amplitude_variation"] := by
  by_cases h : k ∈ ["map_index", "time_name", "initial_value", "is_optimization", "lower_limit", "upper_limit", "amplitude_variation"]
  · exact .inr h
  · simp only [List.mem_cons, List.not_mem_nil, or_false, not_or] at h
    left
    show topConst ["times", k] = .never
    unfold topConst
    split <;> simp_all

theorem lawful_param (d : PDict) : Lawful ((settingsTab lib B).below "parameters") d readParam := by
  unfold readParam
  exact Lawful.bind (Lawful.onlyKeys (param_keys lib d)) fun _ _ => Lawful.bind (Lawful.nameArg (.inr rfl)) fun _ _ =>
    Lawful.bind (Lawful.numArg rfl) fun _ _ => Lawful.bind (Lawful.numArg rfl) fun _ _ => Lawful.bind (Lawful.numArg rfl) fun _ _ =>
    Lawful.bind (Lawful.numArg rfl) fun _ _ => Lawful.pure _

theorem lawful_time (d : PDict) : Lawful ((settingsTab lib B).below "times") d readTime := by
  unfold readTime
  exact Lawful.bind (Lawful.item rfl) fun _ _ => Lawful.bind (Lawful.lift _) fun _ _ =>
    Lawful.bind (Lawful.onlyKeys (time_keys lib d)) fun _ _ =>
    Lawful.bind (Lawful.numArg rfl) fun _ _ => Lawful.bind (Lawful.boolArg rfl) fun _ _ => Lawful.bind (Lawful.numArg rfl) fun _ _ =>
    Lawful.bind (Lawful.numArg rfl) fun _ _ => Lawful.bind (Lawful.numArg rfl) fun _ _ => Lawful.pure _

theorem lawful_guess (d : PDict) : Lawful ((settingsTab lib B).below "pulses") d (readFn "initial_guess") := by
  unfold readFn readFnSource
  lawful

theorem lawful_scaling (d : PDict) : Lawful ((settingsTab lib B).below "pulses") d (readFn "scaling_function") := by
  unfold readFn readFnSource
  lawful

theorem lawful_distribution (d : PDict) :
    Lawful ((((settingsTab lib B).below "pulses").below "basis").below "random_super_parameter_distribution") d (readDistribution lib) := by
  unfold readDistribution
  lawful
  split
  · lawful
  · refine Lawful.ite (fun _ => ?_) fun _ => Lawful.raise _
    exact Lawful.bind (Lawful.numArg rfl) fun _ _ => Lawful.bind (Lawful.numArg rfl) fun _ _ => Lawful.pure _

theorem numSetting_result (k : String) (v : ℚ) (d : PDict) : (numSetting k v d).1 = numOf ((d.get? k).getD (.num v)) := by
  unfold numSetting
  rw [prog_bind]
  unfold setdefault
  rcases d.get? k with _ | w <;> rfl

theorem lawful_vectorNumber (d : PDict) : Lawful (((settingsTab lib B).below "pulses").below "basis") d vectorNumber := by
  unfold vectorNumber
  lawful

theorem lawful_numSetting {T : Tab} {d : PDict} {k : String} {v : ℚ} (h : T [k] d = .val (.num v)) : Lawful T d (numSetting k v) := by
  unfold numSetting
  exact Lawful.bind (Lawful.setdefault h) fun _ _ => Lawful.lift _

theorem lawful_basisSettings {d : PDict} {c : String × String} (hc : basisOf lib d = some c) (bins : Option PVal) :
    Lawful (((settingsTab lib B).below "pulses").below "basis") d (readBasisSettings bins c.1) := by
  have his : ∀ m, basisIs lib d m = (c.1 == m) := by
    intro m
    unfold basisIs
    rw [hc]
    rfl
  have hsig : ∀ v, (if basisIs lib d "quocslib.pulses.basis.Sigmoid" then Def.val (.num (1 / 10)) else .val (.num (1 / 10 ^ 10))) = .val v →
      (((settingsTab lib B).below "pulses").below "basis") ["sigma"] d = .val v := fun v h => h
  have hoff : ∀ v, (if basisIs lib d "quocslib.pulses.basis.Sigmoid" then Def.val (.num (1 / 10)) else offsetDefault d) = .val v →
      (((settingsTab lib B).below "pulses").below "basis") ["offset"] d = .val v := fun v h => h
  have htau : ∀ v, (if basisIs lib d "quocslib.pulses.basis.SigmoidTimeDep" then Def.val (.num (1 / 10)) else .val (.num (1 / 10 ^ 20))) =
      .val v → (((settingsTab lib B).below "pulses").below "basis") ["tau_variation"] d = .val v := fun v h => h
  have hsv : ∀ v, (if basisIs lib d "quocslib.pulses.basis.SigmoidSigmas" then Def.val (.num 1) else .val (.num (1 / 10 ^ 20))) =
      .val v → (((settingsTab lib B).below "pulses").below "basis") ["sigma_variation"] d = .val v := fun v h => h
  have ho : ∀ s, (numSetting "sigma" (1 / 10 ^ 10) d).1 = .ok s → offsetDefault d = .val (.num (-10 * s)) := by
    intro s h
    rw [numSetting_result] at h
    unfold offsetDefault
    rw [h]
  unfold readBasisSettings
  refine Lawful.ite (fun _ => ?_) fun _ => Lawful.ite (fun _ => ?_) fun _ => Lawful.ite (fun _ => ?_) fun _ =>
    Lawful.ite (fun _ => ?_) fun _ => Lawful.ite (fun _ => ?_) fun _ => Lawful.ite (fun h => ?_) fun h0 =>
    Lawful.ite (fun h => ?_) fun _ => Lawful.ite (fun h => ?_) fun _ => Lawful.ite (fun h => ?_) fun _ => Lawful.raise _
  · cases bins with
    | none => exact Lawful.raise _
    | some b => lawful
  · exact Lawful.bind (lawful_vectorNumber lib d) fun _ _ => Lawful.pure _
  · exact Lawful.bind (lawful_vectorNumber lib d) fun _ _ => Lawful.pure _
  · exact Lawful.bind (lawful_vectorNumber lib d) fun _ _ => Lawful.pure _
  · exact Lawful.bind (lawful_vectorNumber lib d) fun _ _ => Lawful.bind (lawful_numSetting rfl) fun _ _ => Lawful.pure _
  · refine Lawful.bind (lawful_vectorNumber lib d) fun _ _ => Lawful.bind (lawful_numSetting (hoff _ ?_)) fun _ _ =>
      Lawful.bind (lawful_numSetting (hsig _ ?_)) fun _ _ => Lawful.pure _ <;> rw [his, h] <;> rfl
  · refine Lawful.bind (lawful_vectorNumber lib d) fun _ _ => Lawful.bind (lawful_numSetting (hsig _ ?_)) fun s hs =>
      Lawful.bind (lawful_numSetting (hoff _ ?_)) fun _ _ => Lawful.bind (lawful_numSetting (htau _ ?_)) fun _ _ => Lawful.pure _
    · rw [his, h]; rfl
    · rw [← ho s hs, his, h]; rfl
    · rw [his, h]; rfl
  · refine Lawful.bind (lawful_vectorNumber lib d) fun _ _ => Lawful.bind (lawful_numSetting (hsig _ ?_)) fun s hs =>
      Lawful.bind (lawful_numSetting (hoff _ ?_)) fun _ _ => Lawful.bind (lawful_numSetting (hsv _ ?_)) fun _ _ => Lawful.pure _
    · rw [his, h]; rfl
    · rw [← ho s hs, his, h]; rfl
    · rw [his, h]; rfl
  · refine Lawful.bind (lawful_vectorNumber lib d) fun _ _ => Lawful.bind (lawful_numSetting (hsig _ ?_)) fun s hs =>
      Lawful.bind (lawful_numSetting (hoff _ ?_)) fun _ _ => Lawful.bind (lawful_numSetting (htau _ ?_)) fun _ _ =>
      Lawful.bind (lawful_numSetting (hsv _ ?_)) fun _ _ => Lawful.pure _
    · rw [his, h]; rfl
    · rw [← ho s hs, his, h]; rfl
    · rw [his, h]; rfl
    · rw [his, h]; rfl

theorem setdefault_ok {k : String} {v a : PVal} {d : PDict} (h : (setdefault k v d).1 = .ok a) : a = (d.get? k).getD v := by
  rw [setdefault_result] at h
  exact (Except.ok.inj h).symm

theorem lawful_basis (bins : Option PVal) (d : PDict) :
    Lawful (((settingsTab lib B).below "pulses").below "basis") d (readBasis lib bins) := by
  unfold readBasis
  refine Lawful.bind (Lawful.setdefault rfl) fun a ha => Lawful.bind (Lawful.setdefault rfl) fun b hb =>
    Lawful.bind (Lawful.setdefault rfl) fun c hc => Lawful.bind (Lawful.setdefault rfl) fun e he => ?_
  rw [setdefault_ok ha, setdefault_ok hb, setdefault_ok hc, setdefault_ok he]
  split
  · exact Lawful.raise _
  · rename_i cl h
    exact lawful_basisSettings lib h bins

theorem basisSettings_bins {m : String} (hm : m ≠ "quocslib.pulses.basis.PiecewiseBasis") (b b' : Option PVal) :
    readBasisSettings b m = readBasisSettings b' m := by
  unfold readBasisSettings
  rw [if_neg hm, if_neg hm]

/-- The number of bins is used by the piecewise basis only. -/
theorem basis_bins {d : PDict} (hd : basisIs lib d "quocslib.pulses.basis.PiecewiseBasis" = false) (b b' : Option PVal) :
    (readBasis lib b d).1 = (readBasis lib b' d).1 := by
  unfold readBasis
  have key : ∀ bins, (readBasis lib bins d).1 = match basisOf lib d with
      | none => .error .typeError
      | some c => (readBasisSettings bins c.1 d).1 := by
    intro bins
    unfold readBasis
    have l1 : ∀ (f : PVal → Prog PDict (Basis ℚ)) (k : String) (v : PVal),
        (((settingsTab lib false).below "pulses").below "basis") [k] d = .val v →
        (Lawful (((settingsTab lib false).below "pulses").below "basis") d (f ((d.get? k).getD v))) →
        ((setdefault k v >>= f) d).1 = (f ((d.get? k).getD v) d).1 := by
      intro f k v ht hf
      have hs := setdefault_result k v d
      rw [Lawful.result (Lawful.setdefault ht), hs]
      · rfl
      · intro a ha
        rw [hs] at ha
        rw [← Except.ok.inj ha]
        exact hf
    have hfin : Lawful (((settingsTab lib false).below "pulses").below "basis") d
        (match basisOf lib d with
          | none => Prog.raise .typeError
          | some c => readBasisSettings bins c.1) := by
      split
      · exact Lawful.raise _
      · rename_i h
        exact lawful_basisSettings lib h bins
    have hb : importClass lib (some ((d.get? "basis_attribute").getD .null)) (some ((d.get? "basis_module").getD .null))
      (some ((d.get? "basis_class").getD .null)) (some ((d.get? "basis_name").getD .null)) "basis" = basisOf lib d := rfl
    rw [l1 _ _ _ rfl]
    · rw [l1 _ _ _ rfl]
      · rw [l1 _ _ _ rfl]
        · rw [l1 _ _ _ rfl]
          · rw [hb]
            rcases basisOf lib d with _ | c <;> rfl
          · rw [hb]; exact hfin
        · refine Lawful.bind (Lawful.setdefault rfl) fun a ha => ?_
          rw [setdefault_ok ha, hb]
          exact hfin
      · refine Lawful.bind (Lawful.setdefault rfl) fun a ha => Lawful.bind (Lawful.setdefault rfl) fun b hb' => ?_
        rw [setdefault_ok ha, setdefault_ok hb', hb]
        exact hfin
    · refine Lawful.bind (Lawful.setdefault rfl) fun a ha => Lawful.bind (Lawful.setdefault rfl) fun b hb' =>
        Lawful.bind (Lawful.setdefault rfl) fun c hc => ?_
      rw [setdefault_ok ha, setdefault_ok hb', setdefault_ok hc, hb]
      exact hfin
  have e := (key b).trans ((?_ : _ = _).trans (key b').symm)
  · exact e
  · rcases hb : basisOf lib d with _ | c
    · rfl
    · have : c.1 ≠ "quocslib.pulses.basis.PiecewiseBasis" := by
        intro h
        unfold basisIs at hd
        rw [hb] at hd
        simp [h] at hd
      show (readBasisSettings b c.1 d).1 = (readBasisSettings b' c.1 d).1
      rw [basisSettings_bins this b b']

theorem bins_tab (d : PDict) : ((settingsTab lib B).below "pulses") ["bins_number"] d =
    if B && !isPiecewise lib d then .val (.num 101) else .never := rfl

theorem lawful_pulseBasis (d : PDict) : Lawful ((settingsTab lib B).below "pulses") d (readPulseBasis lib) := by
  have hl : ∀ bins, Lawful ((settingsTab lib B).below "pulses") d (inDict "basis" (readBasis lib bins)) :=
    fun bins => Lawful.inDict rfl fun _ _ => lawful_basis lib bins _
  intro d' h
  show (inDict "basis" (readBasis lib (d'.get? "bins_number")) d').1 = (inDict "basis" (readBasis lib (d.get? "bins_number")) d).1 ∧
    Agree _ d (inDict "basis" (readBasis lib (d'.get? "bins_number")) d').2
  obtain ⟨h1, h2⟩ := hl (d'.get? "bins_number") d' h
  refine ⟨h1.trans ?_, h2⟩
  by_cases hB : (B && !isPiecewise lib d) = true
  · have hp : isPiecewise lib d = false := by
      rw [Bool.and_eq_true] at hB
      simpa using hB.2
    unfold inDict
    rcases hb : d.get? "basis" with _ | v
    · rfl
    · cases v with
      | dict s =>
        have : basisIs lib s "quocslib.pulses.basis.PiecewiseBasis" = false := by
          unfold isPiecewise at hp
          rw [hb] at hp
          exact hp
        exact basis_bins lib this _ _
      | _ => rfl
  · have := h.never (k := "bins_number") (by rw [bins_tab, if_neg hB])
    rw [this]

theorem lawful_bins (d : PDict) : Lawful ((settingsTab lib B).below "pulses") d (lengthArg "bins_number" 101) := by
  refine Lawful.lengthArg ?_
  rw [bins_tab]
  split
  · exact .inl rfl
  · exact .inr rfl

theorem lawful_pulse (d : PDict) : Lawful ((settingsTab lib B).below "pulses") d (readPulse lib) := by
  unfold readPulse
  refine Lawful.bind (lawful_pulseBasis lib d) fun basis _ => ?_
  refine Lawful.bind ?_ fun _ _ => ?_
  · unfold noClash
    lawful
  refine Lawful.bind (Lawful.nameArg (.inr rfl)) fun _ _ => Lawful.bind (Lawful.nameArg (.inl rfl)) fun _ _ =>
    Lawful.bind (Lawful.numArg rfl) fun _ _ => Lawful.bind (Lawful.numArg rfl) fun _ _ =>
    Lawful.bind (Lawful.numArg rfl) fun _ _ => Lawful.bind (lawful_bins lib d) fun _ _ =>
    Lawful.ite (fun _ => Lawful.raise _) fun _ => ?_
  refine Lawful.bind ?_ fun _ _ => Lawful.bind ?_ fun _ _ => Lawful.bind (lawful_guess lib d) fun _ _ => Lawful.bind ?_ fun _ _ =>
    Lawful.bind (lawful_scaling lib d) fun _ _ => Lawful.bind ?_ fun _ _ => Lawful.bind (Lawful.boolArg rfl) fun _ _ =>
    Lawful.bind (Lawful.boolArg rfl) fun _ _ => Lawful.bind ?_ fun _ _ => Lawful.pure _
  · lawful
  · lawful
  · lawful
  · lawful
  · unfold readSuper
    refine Lawful.ite (fun _ => ?_) (fun _ => Lawful.pure _)
    exact Lawful.inDict rfl fun _ _ => Lawful.inDict rfl fun _ _ => lawful_distribution lib _

theorem lawful_controls (d : PDict) : Lawful (settingsTab lib B) d (readControls lib) := by
  unfold readControls
  refine Lawful.bind (Lawful.inItems rfl fun s => lawful_pulse lib s) fun _ _ =>
    Lawful.bind (Lawful.inItems rfl fun s => lawful_param lib s) fun _ _ =>
    Lawful.bind (Lawful.inItems rfl fun s => lawful_time lib s) fun _ _ => ?_
  lawful

theorem lawful_dcrab {d s : PDict} (hs : d.get? "algorithm_settings" = some (.dict s))
    (hc : (algOf lib s).bind algClass = some .dcrab) : Lawful (settingsTab lib B) d (readDcrab lib) := by
  unfold readDcrab
  refine Lawful.bind (lawful_core lib d) fun _ _ => Lawful.bind ?_ fun _ _ => Lawful.bind ?_ fun _ _ => Lawful.bind ?_ fun _ _ =>
    Lawful.bind ?_ fun _ _ => Lawful.bind ?_ fun _ _ => Lawful.bind ?_ fun _ _ => Lawful.bind ?_ fun _ _ => Lawful.bind ?_ fun _ _ =>
    Lawful.bind ?_ fun _ _ => Lawful.bind ?_ fun _ _ => Lawful.bind ?_ fun _ _ => Lawful.bind ?_ fun _ _ => Lawful.bind ?_ fun _ _ =>
    Lawful.bind ?_ fun _ _ => Lawful.bind (lawful_controls lib d) fun _ _ => Lawful.pure _
  · lawful
  · lawful
  · lawful
  · exact Lawful.inDict rfl fun _ _ => Lawful.inDict rfl fun _ _ => Lawful.inDict rfl fun _ _ => lawful_method lib _ _
  · exact Lawful.inDict rfl fun _ _ => Lawful.inDict rfl fun _ _ => Lawful.inDict rfl fun _ _ => lawful_stopping lib _
  · lawful
  · refine Lawful.inDict rfl fun s' hs' => Lawful.item ?_
    rw [hs] at hs'
    cases hs'
    show (if (algOf lib s).bind algClass = some .ad then _ else _) = _
    rw [hc, if_neg (by decide)]
  · lawful
  · lawful
  · lawful
  · lawful
  · lawful
  · lawful
  · lawful

theorem lawful_directSearch (d : PDict) : Lawful (settingsTab lib B) d (readDirectSearch lib) := by
  unfold readDirectSearch
  refine Lawful.bind (lawful_core lib d) fun _ _ => Lawful.bind ?_ fun _ _ => Lawful.bind ?_ fun _ _ => Lawful.bind ?_ fun _ _ =>
    Lawful.bind ?_ fun _ _ => Lawful.bind ?_ fun _ _ => Lawful.bind ?_ fun _ _ => Lawful.bind ?_ fun _ _ =>
    Lawful.bind (lawful_controls lib d) fun _ _ => Lawful.pure _
  · lawful
  · lawful
  · exact Lawful.inDict rfl fun _ _ => Lawful.inDict rfl fun _ _ => Lawful.inDict rfl fun _ _ => lawful_method lib _ _
  · exact Lawful.inDict rfl fun _ _ => Lawful.inDict rfl fun _ _ => Lawful.inDict rfl fun _ _ => lawful_stopping lib _
  · lawful
  · lawful
  · lawful

theorem lawful_grape (d : PDict) : Lawful (settingsTab lib B) d (readGrape lib) := by
  unfold readGrape
  refine Lawful.bind (lawful_core lib d) fun _ _ => Lawful.bind ?_ fun _ _ => Lawful.bind ?_ fun _ _ => Lawful.bind ?_ fun _ _ =>
    Lawful.bind ?_ fun _ _ => Lawful.bind (lawful_controls lib d) fun _ _ => ?_
  · lawful
  · exact Lawful.inDict rfl fun _ _ => Lawful.inDictDefault rfl fun _ _ => lawful_gradientStopping lib _
  · lawful
  · lawful
  · lawful

theorem lawful_ad {d s : PDict} (hs : d.get? "algorithm_settings" = some (.dict s))
    (hc : (algOf lib s).bind algClass = some .ad) : Lawful (settingsTab lib B) d (readAD lib) := by
  unfold readAD
  refine Lawful.bind (lawful_core lib d) fun _ _ => Lawful.bind ?_ fun _ _ => Lawful.bind ?_ fun _ _ => Lawful.bind ?_ fun _ _ =>
    Lawful.bind ?_ fun _ _ => Lawful.bind ?_ fun _ _ => Lawful.bind ?_ fun _ _ => Lawful.bind (lawful_controls lib d) fun _ _ =>
    Lawful.pure _
  · lawful
  · refine Lawful.inDict rfl fun s' hs' => Lawful.setdefault ?_
    rw [hs] at hs'
    cases hs'
    show (if (algOf lib s).bind algClass = some .ad then _ else _) = _
    rw [hc, if_pos rfl]
  · lawful
  · exact Lawful.inDict rfl fun _ _ => Lawful.inDictDefault rfl fun _ _ => lawful_gradientStopping lib _
  · lawful
  · lawful

theorem readClass_result (s : PDict) : (readClass lib s).1 = .ok (algOf lib s) := by
  unfold readClass
  simp only [prog_bind, getOpt]
  unfold setdefault algOf
  rcases s.get? "algorithm_name" with _ | w <;> rfl

theorem inDict_ok {α : Type} {k : String} {m : Prog PDict α} {d : PDict} {a : α} (h : (inDict k m d).1 = .ok a) :
    ∃ s, d.get? k = some (.dict s) ∧ (m s).1 = .ok a := by
  unfold inDict at h
  rcases hd : d.get? k with _ | w
  · simp [hd] at h
  · cases w <;> simp [hd] at h
    exact ⟨_, rfl, h⟩

theorem lawful_create (d : PDict) : Lawful (settingsTab lib B) d (createOptimizer lib) := by
  unfold createOptimizer
  refine Lawful.bind (Lawful.setdefault rfl) fun _ _ => Lawful.bind (Lawful.setdefault rfl) fun _ _ =>
    Lawful.bind (Lawful.setdefault rfl) fun _ _ => Lawful.bind (Lawful.setdefault rfl) fun _ _ =>
    Lawful.bind (Lawful.setdefault rfl) fun _ _ => Lawful.bind (Lawful.inDict rfl fun _ _ => Lawful.setdefault rfl) fun _ _ =>
    Lawful.bind ?_ fun cls hcls => Lawful.bind ?_ fun _ _ => Lawful.pure _
  · unfold readClass
    lawful
  · obtain ⟨s, hs, hc⟩ := inDict_ok hcls
    unfold readAlg
    rw [readClass_result] at hc
    have hc := Except.ok.inj hc
    cases cls with
    | none => exact Lawful.raise _
    | some cl =>
      have hb : (algOf lib s).bind algClass = algClass cl := by rw [hc]; rfl
      rcases hcl : algClass cl with _ | n
      · simp only [hcl]
        exact Lawful.raise _
      · rw [hcl] at hb
        simp only [hcl]
        cases n with
        | dcrab => exact Lawful.bind (lawful_dcrab lib hs hb) fun _ _ => Lawful.pure _
        | directSearch => exact Lawful.bind (lawful_directSearch lib d) fun _ _ => Lawful.pure _
        | grape => exact Lawful.bind (lawful_grape lib d) fun _ _ => Lawful.pure _
        | ad => exact Lawful.bind (lawful_ad lib hs hb) fun _ _ => Lawful.pure _

end
end QuOCS

/-
Property C97: dictionaries of the documented form are accepted, and the optimization runs.
-/
import Verif.Lemmas.Accepted

set_option linter.unusedSectionVars false
set_option linter.unusedVariables false

namespace QuOCS

variable {lib : PyLib} {w : Surroundings} {d : PDict} {name : String}

/-! ### The settings of a created optimizer have the documented types -/

theorem num_is (q : ℚ) : (PVal.num q).num? = some q := rfl

theorem int_is (z : ℤ) : (PVal.num z).int? = some z := by
  unfold PVal.int?
  rw [num_is]
  simp

theorem number_entry {a : PDict} {k : String} (v : ℚ) (h : OptNumber a k) : ∃ q, (setting a [k] (.num v)).num? = some q := by
  obtain ⟨q, hq⟩ := number_go (v := v) h
  exact ⟨q, by rw [hq]; rfl⟩

theorem whole_entry {a : PDict} {k : String} (v : ℤ) (h : OptWhole a k) : ∃ q, (setting a [k] (.num v)).int? = some q := by
  unfold setting
  rcases he : entry a [k] with _ | x
  · exact ⟨v, int_is v⟩
  · obtain ⟨z, rfl⟩ := h x he
    exact ⟨z, int_is z⟩

theorem goal_entry {a : PDict} {k : String} (h : NoEntry (entry a [k]) ∨ OptNumber a k) : ∃ g, (setting a [k] .null).goal? = some g := by
  unfold setting
  rcases he : entry a [k] with _ | x
  · exact ⟨none, rfl⟩
  · rcases h with h | h
    · rw [he] at h
      rcases h with h | h
      · cases h
      · cases h; exact ⟨none, rfl⟩
    · obtain ⟨z, rfl⟩ := h x he
      exact ⟨some z, rfl⟩

/-- the parts of the settings of a search that both algorithms have -/
theorem search_parts (h : Documented lib name d) {c : Created} (hc : (createOptimizer lib d).1 = .ok c) {s : SearchSettings}
    (hs : c.alg = .search s) : (∃ b, UsesMethod lib b d s.method s.stop) ∧ UsesCore lib d s.core ∧ UsesControls lib d s.controls ∧
      s.minutes = setting d ["algorithm_settings", "compensate_drift", "compensate_after_minutes"] (.num 0) ∧
      s.average = setting d ["algorithm_settings", "compensate_drift", "num_average"] (.num 1) := by
  have := (create_use lib hc).alg
  rw [hs] at this
  rcases this.2 with ⟨_, h⟩ | ⟨_, h⟩
  · exact ⟨⟨_, h.method⟩, h.core, h.controls, h.minutes, h.average⟩
  · exact ⟨⟨_, h.method⟩, h.core, h.controls, h.minutes, h.average⟩

theorem drift_entries {a : PDict} (h : DocSearch a) :
    (∃ q, (setting a ["compensate_drift", "compensate_after_minutes"] (.num 0)).num? = some q) ∧
    ∃ z, (setting a ["compensate_drift", "num_average"] (.num 1)).int? = some z := by
  rcases hd : entry a ["compensate_drift"] with _ | v
  · have hd : a.get? "compensate_drift" = none := hd
    unfold setting
    simp only [entry, hd]
    exact ⟨⟨0, rfl⟩, 1, int_is 1⟩
  · obtain ⟨r, rfl, h1, h2⟩ := h.drift v hd
    rw [setting_nested hd, setting_nested hd]
    exact ⟨number_entry 0 h1, whole_entry 1 h2⟩

/-- the settings of a created search are of the documented types -/
theorem search_cfg (h : Documented lib name d) (hn : name = "dCRAB" ∨ name = "DirectSearch") {c : Created}
    (hc : (createOptimizer lib d).1 = .ok c) {s : SearchSettings} (hs : c.alg = .search s) : ∃ cfg, s.cfg = some cfg := by
  obtain ⟨⟨b, hM⟩, hC, _, hmin, havg⟩ := search_parts h hc hs
  obtain ⟨a, ha, hA⟩ := h.algorithm
  have hS := hA.search hn
  obtain ⟨ds, hds, ⟨g, hg, hG⟩, st, hst, hT⟩ := hS.dsm
  obtain ⟨tl, htl⟩ := number_entry (10 ^ 10) hA.timeLimit
  obtain ⟨go, hgo⟩ := goal_entry hA.goal
  obtain ⟨⟨mi, hmi⟩, av, hav⟩ := drift_entries hS
  have ha' : d.get? "algorithm_settings" = some (.dict a) := ha
  have hds' : a.get? "dsm_settings" = some (.dict ds) := hds
  have hst' : ds.get? "stopping_criteria" = some (.dict st) := hst
  have hcb : ∃ cb, setting st ["change_based_stop"] (.dict (.cons "cbs_funct_evals" (.num 1) (.cons "cbs_change" (.num 0) .nil))) = .dict cb ∧
      (∃ z, (cb.get? "cbs_funct_evals").bind PVal.int? = some z) ∧ ∃ q, (cb.get? "cbs_change").bind PVal.num? = some q := by
    unfold setting
    rcases he : entry st ["change_based_stop"] with _ | v
    · exact ⟨_, rfl, ⟨1, int_is 1⟩, 0, rfl⟩
    · obtain ⟨cb, rfl, ⟨z, hz⟩, q, hq⟩ := hT.changeBased v he
      have hz : cb.get? "cbs_funct_evals" = _ := hz
      have hq : cb.get? "cbs_change" = _ := hq
      exact ⟨cb, rfl, ⟨z, by rw [hz]; exact int_is z⟩, q, by rw [hq]; rfl⟩
  obtain ⟨cb, hcb, ⟨ce, hce⟩, cc, hcc⟩ := hcb
  obtain ⟨me, hme⟩ := whole_entry (10 ^ 10) hT.maxEval
  obtain ⟨sl, hsl⟩ := number_entry (10 ^ 10) (hT.numbers "time_lim" (by simp))
  obtain ⟨xa, hxa⟩ := number_entry (1 / 10 ^ 14) (hT.numbers "xatol" (by simp))
  obtain ⟨fa, hfa⟩ := number_entry (1 / 10 ^ 100) (hT.numbers "fatol" (by simp))
  have e1 : s.core.totalTimeLim.num? = some tl := by rw [hC.timeLimit, setting_cons ha']; exact htl
  have e2 : s.core.goal.goal? = some go := by rw [hC.goal, setting_cons ha']; exact hgo
  have e3 : s.minutes.num? = some mi := by rw [hmin, setting_cons ha']; exact hmi
  have e4 : s.average.int? = some av := by rw [havg, setting_cons ha']; exact hav
  have e5 : s.stop.maxEval.int? = some me := by
    rw [hM.maxEval, setting_cons ha', setting_cons hds', setting_cons hst', show ((10 : ℚ) ^ 10) = ((10 ^ 10 : ℤ) : ℚ) by norm_num]
    exact hme
  have e6 : s.stop.timeLim.num? = some sl := by rw [hM.timeLim, setting_cons ha', setting_cons hds', setting_cons hst']; exact hsl
  have e7 : s.stop.xatol.num? = some xa := by rw [hM.xatol, setting_cons ha', setting_cons hds', setting_cons hst']; exact hxa
  have e8 : s.stop.fatol.num? = some fa := by rw [hM.fatol, setting_cons ha', setting_cons hds', setting_cons hst']; exact hfa
  have e9 : s.stop.changeBased.dict? = some cb := by
    rw [hM.changeBased, setting_cons ha', setting_cons hds', setting_cons hst', hcb]; rfl
  unfold SearchSettings.cfg
  simp only [e1, e2, e3, e4, e5, e6, e7, e8, e9, bind, Option.bind_some]
  rw [hce, hcc]
  exact ⟨_, rfl⟩

/-- the search method can be created -/
theorem search_dsm (h : Documented lib name d) (hn : name = "dCRAB" ∨ name = "DirectSearch") {c : Created}
    (hc : (createOptimizer lib d).1 = .ok c) {s : SearchSettings} (hs : c.alg = .search s) (w : Surroundings) (cfg : AlgCfg ℚ ℚ) (n : ℕ) :
    ∃ x, s.dsm w cfg n = some x := by
  obtain ⟨⟨b, hM⟩, _⟩ := search_parts h hc hs
  obtain ⟨a, ha, hA⟩ := h.algorithm
  obtain ⟨ds, hds, ⟨g, hg, hG⟩, _⟩ := (hA.search hn).dsm
  have ha' : d.get? "algorithm_settings" = some (.dict a) := ha
  have hds' : a.get? "dsm_settings" = some (.dict ds) := hds
  have hg' : ds.get? "general_settings" = some (.dict g) := hg
  unfold SearchSettings.dsm
  rcases hM.library with e | e
  · rw [e]; exact ⟨_, rfl⟩
  · obtain ⟨p, hp⟩ := goal_entry hG.population
    have := hM.population e
    rw [setting_cons ha', setting_cons hds', setting_cons hg'] at this
    rw [e]
    simp only [this, hp, Option.map_some]
    exact ⟨_, rfl⟩

/-- the controls can be created -/
theorem search_controls (h : Documented lib name d) {x : ControlDicts} (hU : UsesControls lib d x) :
    ∃ o, mkControls lib.M x.pulses x.times x.params = .ok o := by
  obtain ⟨lp, hlp, hp⟩ := h.pulses
  obtain ⟨lt, hlt, ht⟩ := h.times
  have u1 := hU.pulses
  have u3 := hU.times
  rw [itemsAt_dicts hlp] at u1
  rw [itemsAt_dicts hlt] at u3
  refine mkControls_go (fun x hx => ?_) fun t htm hto => ?_
  · obtain ⟨p, hpm, hU⟩ := forall2_mem u1 hx
    have hD := hp p hpm
    obtain ⟨b, hb1, hb⟩ := hD.bins
    obtain ⟨nm, ⟨s, hs, hB⟩, _⟩ := hD.basis
    obtain ⟨v, hv1, hv⟩ := hB.vectors
    obtain ⟨s', hs', hUB⟩ := hU.basis
    rw [hs] at hs'
    cases hs'
    obtain rfl := count_unique hU.bins hb
    exact (basis_vectors hUB hv hv1 hb1).1
  · obtain ⟨p, hpm, hU⟩ := forall2_mem u3 htm
    exact time_limits (ht p hpm) hU hto

/-! ### The property -/

/-- **C97.** If the classes of QuOCS can be imported, an optimizer is created for every dictionary of the documented form, and its
algorithm is the one in the dictionary. -/
theorem C97_accepted (hi : Installed lib) (h : Documented lib name d) :
    ∃ c, (createOptimizer lib d).1 = .ok c ∧ c.alg.className = name ++ "Algorithm" := by
  obtain ⟨c, hc⟩ := create_go hi h
  refine ⟨c, hc, ?_⟩
  obtain ⟨s, hs, hA⟩ := h.algorithm
  have hu := (create_use lib hc).algorithm
  have hs' : d.get? "algorithm_settings" = some (.dict s) := hs
  have hcl := alg_class hi hA
  unfold algOf at hcl
  rw [chosen_is] at hcl
  rw [look_cons hs', look_cons hs', look_cons hs', look_cons hs'] at hu
  have e : ∀ k, entry s [k] = s.get? k := fun _ => rfl
  simp only [e] at hu
  have hna : s.get? "algorithm_name" = some (.str name) := hA.chosen.2
  rw [hna] at hu hcl
  rw [Option.getD_some, hu] at hcl
  injection hcl with hcl
  injection hcl

/-- **C97.** Conversely, the lists of pulses, parameters and times are never optional: whatever else is in the dictionary, without one
of them no optimizer is created. -/
theorem C97_required {c : Created} (hc : (createOptimizer lib d).1 = .ok c) :
    ∀ k ∈ ["pulses", "parameters", "times"], ∃ l, entry d [k] = some (.list l) := by
  have := (create_use lib hc).alg
  rcases ha : c.alg with s | s | s <;> rw [ha] at this
  · rcases this.2 with ⟨_, h⟩ | ⟨_, h⟩ <;> exact h.core.required
  · exact this.2.core.required
  · exact this.2.core.required

/-- **C97.** With such a dictionary for dCRAB or DirectSearch the optimization is carried out: neither the creation nor the preparation
of the run raises. -/
theorem C97_runs (hi : Installed w.lib) (h : Documented w.lib name d) (hn : name = "dCRAB" ∨ name = "DirectSearch") :
    ∃ r, optimize w d = some (.ok r) := by
  obtain ⟨c, hc, hcl⟩ := C97_accepted hi h
  obtain ⟨s, hs⟩ : ∃ s, c.alg = .search s := by
    rcases ha : c.alg with s | s | s
    · exact ⟨s, rfl⟩
    · rw [ha] at hcl
      rcases hn with rfl | rfl <;> simp [AlgSettings.className] at hcl
    · rw [ha] at hcl
      rcases hn with rfl | rfl <;> simp [AlgSettings.className] at hcl
  obtain ⟨_, _, hU, _⟩ := search_parts h hc hs
  obtain ⟨cfg, hcfg⟩ := search_cfg h hn hc hs
  obtain ⟨o, ho⟩ := search_controls h hU
  obtain ⟨x, hx⟩ := search_dsm h hn hc hs w cfg s.controls.dim
  unfold optimize
  rw [hc]
  simp only [hs, hcfg, ho, hx, Option.map_some]
  exact ⟨_, rfl⟩

theorem documented_builds (h : Documented lib name d) (hn : name = "dCRAB" ∨ name = "DirectSearch" ∧ itemsAt d "pulses" = []) :
    BuildsControls d := by
  rcases hn with rfl | ⟨_, hn⟩
  · obtain ⟨s, hs, hA⟩ := h.algorithm
    have hs : d.get? "algorithm_settings" = some (.dict s) := hs
    refine .inl ⟨?_, ?_⟩
    · rw [look_cons hs]; exact hA.chosen.1
    · rw [look_cons hs]; exact hA.chosen.2
  · exact .inr hn

/-- **C97.** A dictionary of the documented form for dCRAB, or for DirectSearch without pulses, with plain controls, without re-evaluation
and drift compensation and with a usable population: if the user's function always returns a figure of merit, the optimization runs to
its end, with at most as many calls as allowed, and reports a best figure of merit that no call improved on. -/
theorem C97_completes (hi : Installed w.lib) (h : Documented w.lib name d)
    (hn : name = "dCRAB" ∨ name = "DirectSearch" ∧ itemsAt d "pulses" = []) (hp : PlainControls w.lib d) (hs : SingleMeasurements d)
    (hm : UsablePopulation d) (ha : w.Answers) (hr : w.Draws d) (hl : w.Log) :
    ∃ r, optimize w d = some (.ok r) ∧ r.ended = .ok () ∧
      (∀ n : ℤ, entry d ["algorithm_settings", "max_eval_total"] = some (.num n) → (r.calls.length : ℤ) ≤ max 0 n) ∧
      ∀ c ∈ r.calls, ∀ f, c.value = some f → ¬ BetterFor d f r.fom := by
  obtain ⟨r, e⟩ := C97_runs hi h (hn.imp id And.left)
  exact ⟨r, e, C96_completes e hp hs hm (documented_builds h hn) ha hr hl, fun n hn => C96_budget e hn, (C96_best e hs).1⟩

/-! ### Concrete dictionaries -/

/-- The library of the examples has all classes. -/
theorem exLib_installed : Installed exLib := ⟨fun _ _ => rfl, fun _ _ => rfl, fun _ _ => rfl, rfl⟩

/-- entries that are missing or numbers -/
theorem doc_numbers {d : PDict} {ks : List String}
    (h : (ks.all fun k => match entry d [k] with | none => true | some (.atom (.num _)) => true | _ => false) = true) :
    ∀ k ∈ ks, OptNumber d k := by
  intro k hk v hv
  have := List.all_eq_true.1 h k hk
  rw [hv] at this
  cases v with
  | atom a =>
    cases a with
    | num q => exact ⟨q, rfl⟩
    | _ => simp at this
  | _ => simp at this

/-- no other entries -/
theorem doc_only {p : PDict} {ks : List String} (h : (p.keyList.all fun k => ks.contains k) = true) :
    ∀ k, p.get? k ≠ none → k ∈ ks := by
  intro k hk
  have := List.all_eq_true.1 h k (mem_keyList.2 hk)
  simpa using this

theorem doc_exBasis : DocBasis "Sinc" (mkDict [("basis_name", .str "Sinc"), ("random_super_parameter_distribution",
    .dict (mkDict [("distribution_name", .str "Uniform"), ("lower_limit", .num (1 / 10)), ("upper_limit", .num 3)]))]) :=
  ⟨by simp, ⟨.inl rfl, rfl⟩, ⟨1, le_refl _, rfl⟩, doc_numbers rfl,
    fun _ => ⟨_, rfl, ⟨.inl rfl, rfl⟩, doc_numbers rfl⟩⟩

theorem doc_exTime : DocTime (mkDict [("time_name", .str "t"), ("initial_value", .num 3)]) :=
  ⟨⟨_, rfl⟩, doc_numbers rfl, doc_only rfl, fun h => absurd (.inr (.inl rfl)) h⟩

theorem doc_exSearch (a : PDict) (h : entry a ["dsm_settings"] = some (.dict (mkDict [
    ("general_settings", .dict (mkDict [("dsm_algorithm_name", .str "NelderMead")])),
    ("stopping_criteria", .dict (mkDict [("xatol", .num (1 / 100))]))]))) (h1 : entry a ["compensate_drift"] = none)
    (h2 : entry a ["re_evaluation"] = none) : DocSearch a := by
  refine ⟨⟨_, h, ⟨_, rfl, .inl rfl, .inl (.inl rfl)⟩, _, rfl, ?_, doc_numbers rfl, ?_⟩, fun v hv => ?_, fun v hv => ?_⟩
  · intro v hv; cases hv
  · intro v hv; cases hv
  · rw [h1] at hv; cases hv
  · rw [h2] at hv; cases hv

/-- The dictionary of the example of C96 has the documented form. -/
theorem exProgram_documented : Documented exLib "dCRAB" exProgram where
  algorithm := by
    refine ⟨_, rfl, by simp, ⟨.inl rfl, rfl⟩, ?_, doc_numbers (ks := ["max_eval_total"]) rfl _ (by simp),
      doc_numbers (ks := ["total_time_lim"]) rfl _ (by simp), .inr (doc_numbers (ks := ["FoM_goal"]) rfl _ (by simp)),
      doc_numbers (ks := ["super_iteration_number"]) rfl _ (by simp), ?_, ?_, fun _ => doc_exSearch _ rfl rfl rfl, fun h => by simp at h⟩
    · intro v hv; cases hv; exact .inr rfl
    · intro v hv; cases hv
    · intro _ h; cases h
  pulses := by
    refine ⟨[_], rfl, fun p hp => ?_⟩
    rw [List.mem_singleton] at hp
    subst hp
    refine ⟨⟨_, rfl⟩, ?_, ⟨3, by norm_num, rfl⟩, doc_numbers rfl, ⟨"Sinc", ⟨_, rfl, doc_exBasis⟩, fun h => by simp at h⟩, .inl (.inl rfl),
      .inl (.inl rfl), .inl (.inl rfl), ?_⟩
    · intro v hv; cases hv; exact ⟨_, rfl⟩
    · decide
  params := ⟨[], rfl, fun p hp => by cases hp⟩
  times := by
    refine ⟨[_], rfl, fun p hp => ?_⟩
    rw [List.mem_singleton] at hp
    subst hp
    exact doc_exTime
  grape := fun h => by simp at h

/-- The theorems above apply to this dictionary: whatever the user adds to the figure of merit with every call, the optimization
runs to its end with at most five calls. -/
example (a : ℚ) : ∃ r, optimize (exAround a) exProgram = some (.ok r) ∧ r.ended = .ok () ∧ (r.calls.length : ℤ) ≤ 5 := by
  obtain ⟨h1, _, h3, _, h5, h6, _⟩ := exProgram_plain
  obtain ⟨g1, g2, g3⟩ := exAround_usable a
  obtain ⟨r, e1, e2, e3, _⟩ := C97_completes (w := exAround a) exLib_installed exProgram_documented (.inl rfl) h1 h3 h5 g1 g2 g3
  exact ⟨r, e1, e2, e3 5 h6⟩

/-- GRAPE with a pulse with piecewise constant basis, an initial guess given as a list, a scaling function and shaping options, and
with a parameter -/
def exGrapeDict : PDict :=
  exSettings [("algorithm_name", .str "GRAPE"), ("algorithm_attribute", .null), ("FoM_goal", .num (1 / 100)),
      ("random_number_generator", .dict (mkDict [("seed_number", .num 42)])), ("stopping_criteria", .dict (mkDict [("ftol", .num (1 / 10))]))]
    [.dict (mkDict [("pulse_name", .str "p"), ("time_name", .str "t"), ("bins_number", .num 4),
      ("basis", .dict (mkDict [("basis_name", .str "PiecewiseBasis")])),
      ("initial_guess", .dict (mkDict [("function_type", .str "list_function"),
        ("list_function", .list (mkList [.num 0, .num 1, .num 1, .num 0]))])),
      ("scaling_function", .null), ("shaping_options", .list (mkList [.str "add_base_pulse", .str "limit_pulse"]))])]
    [exParam []] [exTime]

theorem exGrapeDict_documented : Documented exLib "GRAPE" exGrapeDict where
  algorithm := by
    refine ⟨_, rfl, by simp, ⟨.inr rfl, rfl⟩, ?_, doc_numbers (ks := ["max_eval_total"]) rfl _ (by simp),
      doc_numbers (ks := ["total_time_lim"]) rfl _ (by simp), .inr (doc_numbers (ks := ["FoM_goal"]) rfl _ (by simp)),
      doc_numbers (ks := ["super_iteration_number"]) rfl _ (by simp), ?_, fun h => by simp at h, fun h => by simp at h, ?_⟩
    · intro v hv; cases hv
    · intro v hv; cases hv; exact ⟨_, rfl, 42, rfl⟩
    · intro _ v hv; cases hv; exact ⟨_, rfl, trivial⟩
  pulses := by
    refine ⟨[_], rfl, fun p hp => ?_⟩
    rw [List.mem_singleton] at hp
    subst hp
    refine ⟨⟨_, rfl⟩, ?_, ⟨4, by norm_num, rfl⟩, doc_numbers rfl, ⟨"PiecewiseBasis", ⟨_, rfl, by simp, ⟨.inl rfl, rfl⟩,
      ⟨1, le_refl _, rfl⟩, doc_numbers rfl, fun h => absurd rfl h⟩, fun _ h => by cases h⟩,
      .inr ⟨_, rfl, .inr (.inl ⟨rfl, [0, 1, 1, 0], rfl⟩)⟩,
      .inl (.inr rfl), .inr ⟨["add_base_pulse", "limit_pulse"], rfl⟩, ?_⟩
    · intro v hv; cases hv; exact ⟨_, rfl⟩
    · decide
  params := by
    refine ⟨[_], rfl, fun p hp => ?_⟩
    rw [List.mem_singleton] at hp
    subst hp
    exact ⟨⟨_, rfl⟩, doc_numbers rfl, doc_only rfl⟩
  times := by
    refine ⟨[_], rfl, fun p hp => ?_⟩
    rw [List.mem_singleton] at hp
    subst hp
    exact doc_exTime
  grape := fun _ h => by cases h

example : ∃ c, (createOptimizer exLib exGrapeDict).1 = .ok c ∧ c.alg.className = "GRAPEAlgorithm" :=
  C97_accepted exLib_installed exGrapeDict_documented

/-- Without the entry `parameters` the creation of an optimizer fails with a `KeyError`, also if the user's function has no parameters. -/
theorem C97_no_parameters : (match (createOptimizer exLib (mkDict [("algorithm_settings", .dict (mkDict exAlg)),
    ("pulses", .list (mkList [exPulse (exBasis "Sinc" []) []])), ("times", .list (mkList [exTime]))])).1 with
    | .ok _ => none
    | .error e => some e) = some .keyError := by
  rfl

end QuOCS

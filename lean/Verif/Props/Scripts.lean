/-
C108. The scripts in `Examples/`.
-/
import Verif.Model.Scripts
import Verif.Spec.Scripts
import Verif.Props.ProgramSamples
import Verif.Props.ProgramMean
import Verif.Props.FirstProgram
import Verif.Props.IsingExample

set_option linter.unusedSectionVars false
set_option linter.unusedVariables false

namespace QuOCS

section
variable {w : Surroundings} {n : ℕ}

/-- samples and limits of one pulse of a dictionary -/
theorem samples_on {d p : PDict} {c : ControlsOut ℚ} {i : ℕ} (h1 : FitTo d c) (h2 : SampledAs d c) (hp : (itemsAt d "pulses")[i]? = some p)
    {A T : ℚ} {u t : List ℚ} (hlo : entry p ["lower_limit"] = some (.num (-A))) (hhi : entry p ["upper_limit"] = some (.num A)) (hA : 0 ≤ A)
    (hs : entry p ["shaping_options"] = none) (hb : setting p ["bins_number"] (.num 101) = .num n) (hn : 2 ≤ n)
    (ht : ∀ t ∈ itemsAt d "times", entry t ["time_name"] = some (setting p ["time_name"] (.str "time")) →
      setting t ["initial_value"] (.num 1) = .num T) (hu : c.pulses[i]? = some u) (hg : c.timegrids[i]? = some t) : SamplesOn n A T u t := by
  obtain ⟨l1, l2, l3⟩ := h2.samples i p u t n hp hu hg hb hn
  exact ⟨l1, (h1.pulses i p u t (-A) A hp hu hg hlo hhi (by linarith) hs).1, l2, l3 T ht⟩

/-- the controls of a dictionary with one pulse -/
theorem one_pulse {d p : PDict} {c : ControlsOut ℚ} (h1 : FitTo d c) (h2 : SampledAs d c) (hp : itemsAt d "pulses" = [p])
    (hq : itemsAt d "parameters" = []) {A T : ℚ} (hlo : entry p ["lower_limit"] = some (.num (-A)))
    (hhi : entry p ["upper_limit"] = some (.num A)) (hA : 0 ≤ A) (hs : entry p ["shaping_options"] = none)
    (hb : setting p ["bins_number"] (.num 101) = .num n) (hn : 2 ≤ n)
    (ht : ∀ t ∈ itemsAt d "times", entry t ["time_name"] = some (setting p ["time_name"] (.str "time")) →
      setting t ["initial_value"] (.num 1) = .num T) : OnePulse n A T c := by
  have e1 := h1.pulseNumber
  have e2 := h2.gridNumber
  have e3 := h1.paramNumber
  rw [hp] at e1 e2
  rw [hq] at e3
  obtain ⟨ps, ts, qs⟩ := c
  obtain ⟨u, rfl⟩ := List.length_eq_one_iff.1 e1
  obtain ⟨t, rfl⟩ := List.length_eq_one_iff.1 e2
  obtain rfl := List.length_eq_zero_iff.1 e3
  exact ⟨u, t, rfl, samples_on h1 h2 (i := 0) (by rw [hp]; rfl) hlo hhi hA hs hb hn ht rfl rfl⟩

/-- constant guess and constant scaling -/
theorem const_samples (lo hi a b : ℚ) (t : List ℚ) :
    List.zipWith (fun s y => within lo hi (s * within lo hi y)) (t.map fun _ => a) (t.map fun _ => b) =
      List.replicate t.length (within lo hi (a * within lo hi b)) := by
  rw [List.zipWith_map, List.zipWith_self, List.map_const']

/-! ### dCRAB -/

/-- the dictionary that execute_dCRAB.py gives to the optimizer -/
def dcrabDict (n : ℕ) : PDict := (dcrabMain (dcrabArgs n) settingsDcrab).2

/-- its pulse -/
def dcrabPulse (n : ℕ) : PDict :=
  dictOf [("pulse_name", .str "Pulse_1"), ("upper_limit", .num 1000), ("lower_limit", .num (-1000)), ("time_name", .str "time_1"),
    ("amplitude_variation", .num 30), ("basis", .dict (dictOf [("basis_name", .str "Fourier"), ("basis_vector_number", .num 5),
      ("random_super_parameter_distribution", .dict (dictOf [("distribution_name", .str "Uniform"), ("lower_limit", .num (1 / 100)),
        ("upper_limit", .num 10)]))])), ("bins_number", .num n)]

theorem dcrab_pulses : itemsAt (dcrabDict n) "pulses" = [dcrabPulse n] := rfl
theorem dcrab_times : itemsAt (dcrabDict n) "times" = [dictOf [("time_name", .str "time_1"), ("initial_value", .num 1)]] := rfl
theorem dcrab_params : itemsAt (dcrabDict n) "parameters" = [] := rfl

theorem dcrab_documented {lib : PyLib} (hn : 1 ≤ n) : Documented lib "dCRAB" (dcrabDict n) where
  algorithm := by
    refine ⟨_, rfl, by simp, ⟨.inl rfl, rfl⟩, ?_, doc_numbers (ks := ["max_eval_total"]) rfl _ (by simp),
      doc_numbers (ks := ["total_time_lim"]) rfl _ (by simp), .inr (doc_numbers (ks := ["FoM_goal"]) rfl _ (by simp)),
      doc_numbers (ks := ["super_iteration_number"]) rfl _ (by simp), ?_, ?_, fun _ => ?_, fun h => by simp at h⟩
    · intro v hv; cases hv; exact .inl rfl
    · intro v hv; cases hv
    · intro _ h; cases h
    · refine ⟨⟨_, rfl, ⟨_, rfl, .inl rfl, .inl (.inl rfl)⟩, _, rfl, ?_, doc_numbers rfl, ?_⟩, fun v hv => ?_, fun v hv => ?_⟩
      · intro v hv; cases hv; exact ⟨1000, rfl⟩
      · intro v hv; cases hv; exact ⟨_, rfl, ⟨200, rfl⟩, _, rfl⟩
      · cases hv
      · cases hv; refine ⟨_, rfl, fun v hv => ?_⟩; cases hv; exact ⟨[3 / 10, 1 / 2, 501 / 1000], rfl⟩
  pulses := by
    refine ⟨[dcrabPulse n], rfl, fun p hp => ?_⟩
    rw [List.mem_singleton] at hp
    subst hp
    refine ⟨⟨_, rfl⟩, ?_, ⟨n, hn, rfl⟩, doc_numbers rfl, ⟨"Fourier", ⟨_, rfl, by simp, ⟨.inl rfl, rfl⟩, ⟨5, by norm_num, rfl⟩, doc_numbers rfl,
      fun _ => ⟨_, rfl, ⟨.inl rfl, rfl⟩, doc_numbers rfl⟩⟩, fun h => by simp at h⟩, .inl (.inl rfl), .inl (.inl rfl), .inl (.inl rfl), ?_⟩
    · intro v hv; cases hv; exact ⟨_, rfl⟩
    · intro k hk; simp only [reservedNames, List.mem_cons, List.not_mem_nil, or_false] at hk; rcases hk with rfl | rfl | rfl <;> rfl
  params := ⟨[], rfl, fun p hp => by cases hp⟩
  times := by
    refine ⟨[_], rfl, fun p hp => ?_⟩
    rw [List.mem_singleton] at hp
    subst hp
    exact ⟨⟨_, rfl⟩, doc_numbers rfl, doc_only rfl, fun h => absurd (.inr (.inl rfl)) h⟩
  grape := fun h => by simp at h

theorem dcrab_plain {lib : PyLib} (hn : 1 ≤ n) : PlainControls lib (dcrabDict n) := by
  refine ⟨.inl (by rw [dcrab_pulses]; simp), fun p h => ?_, fun t h => ?_⟩
  · rw [dcrab_pulses, List.mem_singleton] at h
    subst h
    refine ⟨⟨n, hn, rfl, ⟨_, .inl ⟨.inl rfl, rfl⟩⟩, ⟨_, .inl ⟨.inl rfl, rfl⟩⟩⟩, ⟨5, by norm_num, rfl⟩, ?_⟩
    rw [dcrab_times]
    exact ⟨_, List.mem_singleton.2 rfl, rfl⟩
  · rw [dcrab_times, List.mem_singleton] at h
    subst h
    exact .inr (.inl rfl)

theorem dcrab_standard : StandardDictionary (dcrabDict n) := by
  refine ⟨fun p h => ?_, fun p h => ?_⟩
  · rw [dcrab_pulses, List.mem_singleton] at h
    subst h
    exact ⟨.inl (.inl rfl), .inr (.inl rfl)⟩
  · rw [dcrab_params] at h; cases h

theorem dcrab_repeated {lib : PyLib} : RepeatedMeasurements lib (dcrabDict n) := by
  refine ⟨fun v hv ha => ?_, fun m hm => ?_⟩
  · cases hv
    obtain ⟨l, h | h, h2⟩ := ha
    · cases h
      cases h2
    · cases h
  · have : (0 : ℚ) = m := PVal_num_inj hm
    rw [← this]

theorem dcrab_draws (hr : ∀ k i, 5 ≤ (w.rnd k i).length) : w.Draws (dcrabDict n) := by
  intro k i p m hp hm
  rcases i with _ | i
  · have hp' : dcrabPulse n = p := Option.some.inj hp
    subst hp'
    have : ((5 : ℕ) : ℚ) = m := PVal_num_inj (a := ((5 : ℕ) : ℚ)) hm
    have : 5 = m := Nat.cast_injective this
    subst this
    exact hr k 0
  · have : (none : Option PDict) = some p := hp
    cases this

/-- **C108** (execute_dCRAB.py). With `n ≥ 2` slices, the script changes the dictionary without an error, and the optimizer accepts it and runs
dCRAB. The figure of merit is called at most 3000 times, each time with one pulse with `n` samples between -1000 and 1000 on equidistant times
from 0 to 1; with enough random numbers the first pulse is zero. If the figure of merit always returns a value and was called at all, the run
completes, and the reported value is the start value or the mean over successive calls with the reported best pulse. -/
theorem C108_dcrab (hi : Installed w.lib) (hn : 2 ≤ n) :
    (dcrabMain (dcrabArgs n) settingsDcrab).1 = .ok () ∧ ∃ r, optimize w (dcrabMain (dcrabArgs n) settingsDcrab).2 = some (.ok r) ∧
    r.calls.length ≤ 3000 ∧ (∀ c ∈ r.calls, OnePulse n 1000 1 c.1) ∧
    ((∀ k i, 5 ≤ (w.rnd k i).length) →
      (∀ c rest, r.calls = c :: rest → c.1.pulses = [List.replicate n 0]) ∧
      (w.Answers → w.Log → r.calls ≠ [] → r.ended = .ok () ∧
        (r.fom = 10 ^ 10 ∨ ∃ best, r.best = .ok best ∧ OnePulse n 1000 1 best ∧
          MeanOverCalls (dcrabMain (dcrabArgs n) settingsDcrab).2 r.calls best r.fom))) := by
  obtain ⟨r, hr⟩ := C97_runs (w := w) hi (dcrab_documented (n := n) (by omega)) (.inl rfl)
  have hone : ∀ c, FitTo (dcrabDict n) c → SampledAs (dcrabDict n) c → OnePulse n 1000 1 c := by
    intro c h1 h2
    refine one_pulse h1 h2 dcrab_pulses dcrab_params rfl rfl (by norm_num) rfl rfl hn fun t ht _ => ?_
    rw [dcrab_times, List.mem_singleton] at ht
    subst ht
    rfl
  have hpl := dcrab_plain (lib := w.lib) (n := n) (by omega)
  refine ⟨rfl, r, hr, ?_, fun c hc => hone _ ((C96_limits hr).1 c hc) ((C96_samples hr hpl).1 c hc), fun hR => ⟨fun c rest hc => ?_, fun ha hl hne => ?_⟩⟩
  · have := C96_budget hr (n := 3000) rfl
    omega
  · have hm : c ∈ r.calls := by rw [hc]; exact List.mem_cons_self
    obtain ⟨u, t, e, hs⟩ := hone _ ((C96_limits hr).1 c hm) ((C96_samples hr hpl).1 c hm)
    obtain ⟨t', g1, g2, _, g3⟩ := (C96_first_call hr ⟨.inl rfl, rfl⟩ hpl (dcrab_draws hR) hc).2 0 (dcrabPulse n) n (-1000) 1000 _ _ rfl rfl rfl rfl
      (by norm_num) (.inr (.inl rfl)) (.inl rfl) (.inl ⟨.inl rfl, rfl⟩) (.inl ⟨.inl rfl, rfl⟩)
    rw [e] at g3 ⊢
    have g3 : some u = _ := g3
    rw [Option.some.inj g3]
    show [_] = [_]
    congr 1
    rw [const_samples, g2]
    congr 1
    norm_num [within]
  · have he := C96_completes_repeated hr hpl dcrab_repeated.steps ?_ ?_ (.inl ⟨.inl rfl, rfl⟩) ha (dcrab_draws hR) hl hne
    · refine ⟨he, ?_⟩
      rcases C96_best_mean hr ⟨.inl rfl, rfl⟩ hpl dcrab_standard dcrab_repeated (dcrab_draws hR) he with (⟨h, _⟩ | ⟨_, h⟩) | ⟨best, h1, h2⟩
      · have : (PVal.str "minimization") = .str "maximization" := h
        simp [PVal.str] at this
      · exact .inl h
      · exact .inr ⟨best, h1, hone _ ((C96_limits hr).2 _ h1) ((C96_samples hr hpl).2 _ h1), h2⟩
    · intro q h
      have : (1 : ℚ) = q := PVal_num_inj h
      rw [← this]
    · intro q h
      cases h

/-! ### The simplified example -/

/-- its pulses -/
def simplifiedPulse (name guess : String) : PDict :=
  dictOf [("pulse_name", .str name), ("upper_limit", .num (1 / 2)), ("lower_limit", .num (-1 / 2)), ("bins_number", .num 1001),
    ("time_name", .str "time_pi"), ("amplitude_variation", .num (3 / 10)),
    ("basis", .dict (dictOf [("basis_name", .str "Fourier"), ("basis_class", .str "Fourier"), ("basis_module", .str "quocslib.pulses.basis.Fourier"),
      ("basis_vector_number", .num 2), ("random_super_parameter_distribution", .dict (dictOf [("distribution_name", .str "Uniform"),
        ("distribution_class", .str "Uniform"), ("distribution_module", .str "quocslib.pulses.superparameter.Uniform"), ("lower_limit", .num 0),
        ("upper_limit", .num 10)]))])),
    ("scaling_function", .dict (dictOf [("function_type", .str "lambda_function"), ("lambda_function", .str "lambda t: 1.0 + 0.0*t")])),
    ("initial_guess", .dict (dictOf [("function_type", .str "lambda_function"), ("lambda_function", .str guess)]))]

theorem simplified_pulses : itemsAt settingsSimplified "pulses" =
    [simplifiedPulse "G3x" "lambda t: 0.11 + 0.0*t", simplifiedPulse "G3y" "lambda t: 0.0*t"] := rfl
theorem simplified_times : itemsAt settingsSimplified "times" = [dictOf [("time_name", .str "time_pi"), ("initial_value", .num (61 / 1000000000))],
    dictOf [("time_name", .str "time_pi2"), ("initial_value", .num (31 / 1000000000))]] := rfl
theorem simplified_params : itemsAt settingsSimplified "parameters" = [] := rfl

/-- Python evaluates the functions in the dictionary of the simplified example. -/
structure EvaluatesSimplified (lib : PyLib) : Prop where
  one : lib.evalScaling "lambda t: 1.0 + 0.0*t" = .ok (.callable fun t => t.map fun _ => 1)
  guess : lib.evalGuess "lambda t: 0.11 + 0.0*t" = .ok (.callable fun t => t.map fun _ => 11 / 100)
  zero : lib.evalGuess "lambda t: 0.0*t" = .ok (.callable fun t => t.map fun _ => 0)

theorem simplified_doc_pulse {lib : PyLib} {name guess : String} {a : ℚ} (he : EvaluatesSimplified lib)
    (hg : lib.evalGuess guess = .ok (.callable fun t => t.map fun _ => a)) : DocPulse lib (simplifiedPulse name guess) := by
  refine ⟨⟨_, rfl⟩, ?_, ⟨1001, by norm_num, rfl⟩, doc_numbers rfl, ⟨"Fourier", ⟨_, rfl, by simp, ⟨.inl rfl, rfl⟩, ⟨2, by norm_num, rfl⟩,
    doc_numbers rfl, fun _ => ⟨_, rfl, ⟨.inl rfl, rfl⟩, doc_numbers rfl⟩⟩, fun h => by simp at h⟩, .inr ⟨_, rfl, .inl ⟨rfl, _, _, rfl, hg⟩⟩,
    .inr ⟨_, rfl, .inl ⟨rfl, _, _, rfl, he.one⟩⟩, .inl (.inl rfl), ?_⟩
  · intro v hv; cases hv; exact ⟨_, rfl⟩
  · intro k hk; simp only [reservedNames, List.mem_cons, List.not_mem_nil, or_false] at hk; rcases hk with rfl | rfl | rfl <;> rfl

theorem simplified_documented {lib : PyLib} (he : EvaluatesSimplified lib) : Documented lib "dCRAB" settingsSimplified where
  algorithm := by
    refine ⟨_, rfl, by simp, ⟨.inl rfl, rfl⟩, ?_, doc_numbers (ks := ["max_eval_total"]) rfl _ (by simp),
      doc_numbers (ks := ["total_time_lim"]) rfl _ (by simp), .inr (doc_numbers (ks := ["FoM_goal"]) rfl _ (by simp)),
      doc_numbers (ks := ["super_iteration_number"]) rfl _ (by simp), ?_, ?_, fun _ => ?_, fun h => by simp at h⟩
    · intro v hv; cases hv; exact .inl rfl
    · intro v hv; cases hv; exact ⟨_, rfl, 1337, rfl⟩
    · intro _ h; cases h
    · refine ⟨⟨_, rfl, ⟨_, rfl, .inl rfl, .inl (.inl rfl)⟩, _, rfl, ?_, doc_numbers rfl, ?_⟩, fun v hv => ?_, fun v hv => ?_⟩
      · intro v hv; cases hv
      · intro v hv; cases hv; exact ⟨_, rfl, ⟨100, rfl⟩, _, rfl⟩
      · cases hv
        refine ⟨_, rfl, doc_numbers (ks := ["compensate_after_minutes"]) rfl _ (by simp), fun v hv => ?_⟩
        cases hv
      · cases hv
  pulses := by
    refine ⟨[simplifiedPulse "G3x" "lambda t: 0.11 + 0.0*t", simplifiedPulse "G3y" "lambda t: 0.0*t"], rfl, fun p hp => ?_⟩
    simp only [List.mem_cons, List.not_mem_nil, or_false] at hp
    rcases hp with rfl | rfl
    · exact simplified_doc_pulse he he.guess
    · exact simplified_doc_pulse he he.zero
  params := ⟨[], rfl, fun p hp => by cases hp⟩
  times := by
    refine ⟨[_, _], rfl, fun p hp => ?_⟩
    simp only [List.mem_cons, List.not_mem_nil, or_false] at hp
    rcases hp with rfl | rfl
    · exact ⟨⟨_, rfl⟩, doc_numbers rfl, doc_only rfl, fun h => absurd (.inr (.inl rfl)) h⟩
    · exact ⟨⟨_, rfl⟩, doc_numbers rfl, doc_only rfl, fun h => absurd (.inr (.inl rfl)) h⟩
  grape := fun h => by simp at h

theorem simplified_guess {lib : PyLib} {name guess : String} {a : ℚ} (hg : lib.evalGuess guess = .ok (.callable fun t => t.map fun _ => a)) :
    GuessSamples lib (simplifiedPulse name guess) 1001 (fun t => t.map fun _ => a) :=
  .inr ⟨_, rfl, .inr ⟨rfl, _, rfl, hg, fun t ht => by simpa using ht⟩⟩

theorem simplified_scaling {lib : PyLib} {name guess : String} (he : EvaluatesSimplified lib) :
    ScalingSamples lib (simplifiedPulse name guess) 1001 (fun t => t.map fun _ => 1) :=
  .inr ⟨_, rfl, .inr ⟨rfl, _, rfl, he.one, fun t ht => by simpa using ht⟩⟩

theorem simplified_plain {lib : PyLib} (he : EvaluatesSimplified lib) : PlainControls lib settingsSimplified := by
  have key : ∀ name guess (a : ℚ), lib.evalGuess guess = .ok (.callable fun t => t.map fun _ => a) →
      PlainPulse lib settingsSimplified (simplifiedPulse name guess) := by
    intro name guess a hg
    refine ⟨⟨1001, by norm_num, rfl, ⟨_, simplified_guess hg⟩, ⟨_, simplified_scaling he⟩⟩, ⟨2, by norm_num, rfl⟩, ?_⟩
    rw [simplified_times]
    exact ⟨_, List.mem_cons_self, rfl⟩
  refine ⟨.inl (by rw [simplified_pulses]; simp), fun p h => ?_, fun t h => ?_⟩
  · rw [simplified_pulses] at h
    simp only [List.mem_cons, List.not_mem_nil, or_false] at h
    rcases h with rfl | rfl
    · exact key _ _ _ he.guess
    · exact key _ _ _ he.zero
  · rw [simplified_times] at h
    simp only [List.mem_cons, List.not_mem_nil, or_false] at h
    rcases h with rfl | rfl <;> exact .inr (.inl rfl)

theorem simplified_draws (hr : ∀ k i, 2 ≤ (w.rnd k i).length) : w.Draws settingsSimplified := by
  have key : ∀ name guess m, setting (simplifiedPulse name guess) ["basis", "basis_vector_number"] (.num 1) = .num (m : ℕ) → m = 2 := by
    intro name guess m hm
    have : ((2 : ℕ) : ℚ) = m := PVal_num_inj (a := ((2 : ℕ) : ℚ)) hm
    exact (Nat.cast_injective this).symm
  intro k i p m hp hm
  rcases i with _ | _ | i
  · obtain rfl : simplifiedPulse "G3x" "lambda t: 0.11 + 0.0*t" = p := Option.some.inj hp
    rw [key _ _ _ hm]
    exact hr _ _
  · obtain rfl : simplifiedPulse "G3y" "lambda t: 0.0*t" = p := Option.some.inj hp
    rw [key _ _ _ hm]
    exact hr _ _
  · have : (none : Option PDict) = some p := hp
    cases this

/-- **C108** (simplified example). The optimizer accepts the dictionary and runs dCRAB. The figure of merit is called with two pulses, each with
1001 samples between -1/2 and 1/2 on equidistant times from 0 to 61e-9, and returns the absolute value of the sum of the first one; the first call has
the constant pulses 0.11 and 0 and returns 110.11. If the figure of merit was called at all, the run completes. -/
theorem C108_simplified (hi : Installed w.lib) (he : EvaluatesSimplified w.lib) (hu : w.user = fun _ => simplifiedFoM)
    (hR : ∀ k i, 2 ≤ (w.rnd k i).length) (hl : w.Log) :
    ∃ r, optimize w settingsSimplified = some (.ok r) ∧
    (∀ c ∈ r.calls, TwoPulses 1001 (1 / 2) (61 / 1000000000) c.1 ∧ ∃ u, c.1.pulses[0]? = some u ∧ c.value = some |u.sum|) ∧
    (∀ c rest, r.calls = c :: rest →
      c.1.pulses = [List.replicate 1001 (11 / 100), List.replicate 1001 0] ∧ c.value = some (11011 / 100)) ∧
    (r.calls ≠ [] → r.ended = .ok ()) := by
  obtain ⟨r, hr⟩ := C97_runs (w := w) hi (simplified_documented he) (.inl rfl)
  have hpl := simplified_plain he
  have htwo : ∀ c, FitTo settingsSimplified c → SampledAs settingsSimplified c → TwoPulses 1001 (1 / 2) (61 / 1000000000) c := by
    intro c h1 h2
    have e1 := h1.pulseNumber
    have e2 := h2.gridNumber
    have e3 := h1.paramNumber
    rw [simplified_pulses] at e1 e2
    rw [simplified_params] at e3
    obtain ⟨ps, ts, qs⟩ := c
    obtain ⟨u, v, rfl⟩ := List.length_eq_two.1 e1
    obtain ⟨t, s, rfl⟩ := List.length_eq_two.1 e2
    obtain rfl := List.length_eq_zero_iff.1 e3
    have hT : ∀ name guess, ∀ t ∈ itemsAt settingsSimplified "times",
        entry t ["time_name"] = some (setting (simplifiedPulse name guess) ["time_name"] (.str "time")) →
        setting t ["initial_value"] (.num 1) = .num (61 / 1000000000) := by
      intro name guess t ht hn
      rw [simplified_times] at ht
      simp only [List.mem_cons, List.not_mem_nil, or_false] at ht
      rcases ht with rfl | rfl
      · rfl
      · have : some (PVal.str "time_pi2") = some (.str "time_pi") := hn
        simp [PVal.str] at this
    have hneg : (-1 / 2 : ℚ) = -(1 / 2) := by norm_num
    have hlo : ∀ name guess, entry (simplifiedPulse name guess) ["lower_limit"] = some (.num (-(1 / 2))) := by
      intro name guess
      rw [← hneg]
      rfl
    refine ⟨u, v, t, s, rfl, ?_, ?_⟩
    · exact samples_on h1 h2 (i := 0) (p := simplifiedPulse "G3x" "lambda t: 0.11 + 0.0*t") rfl (hlo _ _) rfl (by norm_num) rfl rfl (by norm_num)
        (hT _ _) rfl rfl
    · exact samples_on h1 h2 (i := 1) (p := simplifiedPulse "G3y" "lambda t: 0.0*t") rfl (hlo _ _) rfl (by norm_num) rfl rfl (by norm_num)
        (hT _ _) rfl rfl
  have hcall : ∀ c ∈ r.calls, TwoPulses 1001 (1 / 2) (61 / 1000000000) c.1 := fun c hc =>
    htwo _ ((C96_limits hr).1 c hc) ((C96_samples hr hpl).1 c hc)
  have hval : ∀ c ∈ r.calls, ∃ u, c.1.pulses[0]? = some u ∧ c.value = some |u.sum| := by
    intro c hc
    obtain ⟨u, v, t, s, e, _⟩ := hcall c hc
    obtain ⟨a, b, hab⟩ := List.append_of_mem hc
    have h2 := C96_calls hr a b c hab
    rw [hu] at h2
    refine ⟨u, by rw [e]; rfl, ?_⟩
    unfold Seen.value
    rw [h2]
    show (match simplifiedFoM c.1 with | .ok a => a.fom | .error _ => none) = _
    rw [e]
    rfl
  refine ⟨r, hr, fun c hc => ⟨hcall c hc, hval c hc⟩, fun c rest hc => ?_, fun hne => ?_⟩
  · have hm : c ∈ r.calls := by rw [hc]; exact List.mem_cons_self
    obtain ⟨u, v, t, s, e, _⟩ := hcall c hm
    have hf := (C96_first_call hr ⟨.inl rfl, rfl⟩ hpl (simplified_draws hR) hc).2
    obtain ⟨t1, _, g2, _, g3⟩ := hf 0 (simplifiedPulse "G3x" "lambda t: 0.11 + 0.0*t") 1001 (-1 / 2) (1 / 2) _ _ rfl rfl rfl rfl
      (by norm_num) (.inr (.inl rfl)) (.inl rfl) (simplified_guess he.guess) (simplified_scaling he)
    obtain ⟨t2, _, k2, _, k3⟩ := hf 1 (simplifiedPulse "G3y" "lambda t: 0.0*t") 1001 (-1 / 2) (1 / 2) _ _ rfl rfl rfl rfl
      (by norm_num) (.inr (.inl rfl)) (.inl rfl) (simplified_guess he.zero) (simplified_scaling he)
    obtain ⟨x, hx, hv⟩ := hval c hm
    rw [const_samples, g2] at g3
    rw [const_samples, k2] at k3
    have z1 : within (-1 / 2) (1 / 2) (1 * within (-1 / 2) (1 / 2) (11 / 100)) = 11 / 100 := by norm_num [within]
    have z2 : within (-1 / 2) (1 / 2) (1 * within (-1 / 2) (1 / 2) 0) = 0 := by norm_num [within]
    rw [z1] at g3
    rw [z2] at k3
    rw [g3] at hx
    obtain rfl := Option.some.inj hx
    rw [e] at g3 k3 ⊢
    obtain rfl := Option.some.inj (g3 : some u = _)
    obtain rfl := Option.some.inj (k3 : some v = _)
    refine ⟨rfl, ?_⟩
    rw [hv, List.sum_replicate]
    norm_num
  · rcases hend : r.ended with e | x
    · exfalso
      have q1 : HasSteps w.lib settingsSimplified := by
        intro v hv; cases hv
      have q2 : AveragesSomething settingsSimplified := by
        intro q h
        have : (1 : ℚ) = q := PVal_num_inj h
        rw [← this]
      have q3 : UsablePopulation settingsSimplified := by
        intro q h; cases h
      rcases C96_only_user_errors hr hpl q1 q2 q3 (.inl ⟨.inl rfl, rfl⟩) (simplified_draws hR) hl hend with ⟨before, c, hb, hf⟩ | ⟨_, h, _⟩
      · obtain ⟨u, _, hv⟩ := hval c (by rw [hb]; simp)
        unfold Seen.value at hv
        rcases hf with hf | ⟨_, a, hf, hn⟩
        · rw [hf] at hv; cases hv
        · rw [hf] at hv
          have hv : a.fom = _ := hv
          rw [hn] at hv; cases hv
      · exact hne h
    · rfl

/-! ### GRAPE and automatic differentiation -/

/-- the pulse of the scripts for piecewise constant pulses -/
def piecewisePulse (n : ℕ) : PDict :=
  dictOf [("pulse_name", .str "Pulse_1"), ("upper_limit", .num 100), ("lower_limit", .num (-100)), ("bins_number", .num n),
    ("amplitude_variation", .num 30), ("time_name", .str "time_1"),
    ("basis", .dict (dictOf [("basis_name", .str "PiecewiseBasis"), ("bins_number", .num n)]))]

/-- the time of the scripts -/
def scriptTime : PDict := dictOf [("time_name", .str "time_1"), ("initial_value", .num 1)]

theorem script_time : DocTime scriptTime := ⟨⟨_, rfl⟩, doc_numbers rfl, doc_only rfl, fun h => absurd (.inr (.inl rfl)) h⟩

theorem piecewise_doc {lib : PyLib} (hn : 1 ≤ n) : DocPulse lib (piecewisePulse n) := by
  refine ⟨⟨_, rfl⟩, ?_, ⟨n, hn, rfl⟩, doc_numbers rfl, ⟨"PiecewiseBasis", ⟨_, rfl, ?_⟩, fun _ h => by cases h⟩, .inl (.inl rfl), .inl (.inl rfl),
    .inl (.inl rfl), ?_⟩
  · intro v hv; cases hv; exact ⟨_, rfl⟩
  · exact ⟨by simp, ⟨.inl rfl, rfl⟩, ⟨1, le_refl _, rfl⟩, doc_numbers rfl, fun h => by simp at h⟩
  · intro k hk; simp only [reservedNames, List.mem_cons, List.not_mem_nil, or_false] at hk; rcases hk with rfl | rfl | rfl <;> rfl

theorem piecewise_plain {lib : PyLib} {d : PDict} (hn : 1 ≤ n) (hp : itemsAt d "pulses" = [piecewisePulse n]) (ht : itemsAt d "times" = [scriptTime]) :
    PlainControls lib d := by
  refine ⟨.inl (by rw [hp]; simp), fun p h => ?_, fun t h => ?_⟩
  · rw [hp, List.mem_singleton] at h
    subst h
    refine ⟨⟨n, hn, rfl, ⟨_, .inl ⟨.inl rfl, rfl⟩⟩, ⟨_, .inl ⟨.inl rfl, rfl⟩⟩⟩, ⟨1, le_refl _, rfl⟩, ?_⟩
    rw [ht]
    exact ⟨_, List.mem_singleton.2 rfl, rfl⟩
  · rw [ht, List.mem_singleton] at h
    subst h
    exact .inr (.inl rfl)

theorem piecewise_standard {d : PDict} (hp : itemsAt d "pulses" = [piecewisePulse n]) (hq : itemsAt d "parameters" = []) : StandardDictionary d := by
  refine ⟨fun p h => ?_, fun p h => ?_⟩
  · rw [hp, List.mem_singleton] at h
    subst h
    exact ⟨.inl (.inl rfl), .inr (.inl rfl)⟩
  · rw [hq] at h; cases h

theorem piecewise_one {d : PDict} (hn : 2 ≤ n) (hp : itemsAt d "pulses" = [piecewisePulse n]) (ht : itemsAt d "times" = [scriptTime])
    (hq : itemsAt d "parameters" = []) {c : ControlsOut ℚ} (h1 : FitTo d c) (h2 : SampledAs d c) : OnePulse n 100 1 c := by
  refine one_pulse h1 h2 hp hq rfl rfl (by norm_num) rfl rfl hn fun t h _ => ?_
  rw [ht, List.mem_singleton] at h
  subst h
  rfl

/-- the dictionary that execute_GRAPE.py gives to the optimizer -/
def grapeDict (n : ℕ) : PDict := (piecewiseMain (grapeArgs n) settingsGrape).2

theorem grape_documented {lib : PyLib} (hn : 1 ≤ n) : Documented lib "GRAPE" (grapeDict n) where
  algorithm := by
    refine ⟨_, rfl, by simp, ⟨.inl rfl, rfl⟩, ?_, doc_numbers (ks := ["max_eval_total"]) rfl _ (by simp),
      doc_numbers (ks := ["total_time_lim"]) rfl _ (by simp), .inr (doc_numbers (ks := ["FoM_goal"]) rfl _ (by simp)),
      doc_numbers (ks := ["super_iteration_number"]) rfl _ (by simp), ?_, fun h => by simp at h, fun h => by simp at h, ?_⟩
    · intro v hv; cases hv; exact .inl rfl
    · intro v hv; cases hv
    · intro _ v hv; cases hv; exact ⟨_, rfl, trivial⟩
  pulses := ⟨[piecewisePulse n], rfl, fun p hp => by rw [List.mem_singleton] at hp; subst hp; exact piecewise_doc hn⟩
  params := ⟨[], rfl, fun p hp => by cases hp⟩
  times := ⟨[scriptTime], rfl, fun p hp => by rw [List.mem_singleton] at hp; subst hp; exact script_time⟩
  grape := fun _ h => by cases h

/-- **C108** (execute_GRAPE.py). With `n ≥ 2` slices and any L-BFGS-B, the script changes the dictionary without an error, and the optimizer accepts
it and runs GRAPE. The figure of merit is called with one pulse with `n` samples between -100 and 100 on equidistant times from 0 to 1. If it always
returns a value, at least once one below the start value `10 ^ 10`, and the user does not press Ctrl-C, the run completes, and a call with the reported
best pulse returned the reported value, the smallest one. -/
theorem C108_grape (L : GrapeLib) (hi : Installed w.lib) (hn : 2 ≤ n) :
    (piecewiseMain (grapeArgs n) settingsGrape).1 = .ok () ∧ ∃ r, optimizeGrape w L (piecewiseMain (grapeArgs n) settingsGrape).2 = some (.ok r) ∧
    (∀ c ∈ r.calls, OnePulse n 100 1 c.1) ∧
    (w.Answers → (∀ k, w.async k ≠ .sigint) → (∃ c ∈ r.calls, ∃ f, c.value = some f ∧ f < 10 ^ 10) → r.ended = .ok () ∧
      (∀ c ∈ r.calls, ∀ f, c.value = some f → r.fom ≤ f) ∧ ∃ c ∈ r.calls, c.value = some r.fom ∧ r.best = .ok c.1) := by
  obtain ⟨r, hr⟩ := C98_runs (w := w) (L := L) hi (grape_documented (n := n) (by omega)) ⟨⟨piecewisePulse n, rfl, rfl, rfl⟩, rfl⟩
  have hpl : PlainControls w.lib (grapeDict n) := piecewise_plain (n := n) (by omega) rfl rfl
  have hmin : ¬ Maximizes (grapeDict n) := by
    intro h
    have : (PVal.str "minimization") = .str "maximization" := h
    simp [PVal.str] at this
  refine ⟨rfl, r, hr, fun c hc => piecewise_one hn rfl rfl rfl ((C98_limits hr).1 c hc) ((C98_samples hr hpl).1 c hc), fun ha hs ⟨c, hc, f, hf, hlt⟩ => ?_⟩
  have hb := C98_best hr
  have hle : ∀ c ∈ r.calls, ∀ f, c.value = some f → r.fom ≤ f := fun c hc f hf => not_lt.1 fun h => hb.1 c hc f hf (.inr ⟨hmin, h⟩)
  have he := C98_completes hr hpl ha hs fun h => h c hc f hf (10 ^ 10) (.inr ⟨hmin, rfl⟩) (.inr ⟨hmin, hlt⟩)
  refine ⟨he, hle, ?_⟩
  rcases C98_best_controls hr hpl (piecewise_standard rfl rfl) he with h | h
  · rcases h with ⟨h, _⟩ | ⟨_, h⟩
    · exact absurd h hmin
    · have := hle c hc f hf
      rw [h] at this
      linarith
  · exact h

/-- What a script for automatic differentiation does with the dictionary `d`, any L-BFGS-B and any gradients: the optimizer accepts it and runs. The
figure of merit is called, also for gradients, with one pulse with `n` samples between `-A` and `A` on equidistant times from 0 to 1. If it always
returns a value, at least once one above the start value `-10 ^ 10`, and the user does not press Ctrl-C, the run completes, and the reported value
is the largest one and was returned; if `single`, it was returned by a call with the reported best pulse. -/
def AdScriptRuns (w : Surroundings) (L : AdProgramLib) (d : PDict) (n : ℕ) (A : ℚ) (single : Bool) : Prop :=
  ∃ r, optimizeAD w L d = some (.ok r) ∧ (∀ c ∈ r.all, OnePulse n A 1 c.1) ∧
    (w.Answers → (∀ k, w.async k ≠ .sigint) → (∃ c ∈ r.evaluations, ∃ f, c.value = some f ∧ -10 ^ 10 < f) → r.ended = .ok () ∧
      (∀ c ∈ r.evaluations, ∀ f, c.value = some f → f ≤ r.fom) ∧ (∃ c ∈ r.evaluations, c.value = some r.fom) ∧
      (single = true → ∃ c ∈ r.all, c.value = some r.fom ∧ r.best = .ok c.1))

theorem ad_script {L : AdProgramLib} {d p : PDict} {A : ℚ} {single : Bool} (hi : Installed w.lib) (hd : Documented w.lib "AD" d) (hn : 2 ≤ n)
    (hpl : PlainControls w.lib d) (hst : StandardDictionary d) (hdr : w.Draws d) (hmax : Maximizes d) (hp : itemsAt d "pulses" = [p])
    (hq : itemsAt d "parameters" = []) (hlo : entry p ["lower_limit"] = some (.num (-A)))
    (hhi : entry p ["upper_limit"] = some (.num A)) (hA : 0 ≤ A) (hs : entry p ["shaping_options"] = none)
    (hb : setting p ["bins_number"] (.num 101) = .num n) (ht : itemsAt d "times" = [scriptTime])
    (hsi : single = true → setting d ["algorithm_settings", "super_iteration_number"] (.num 1) = .num 1) : AdScriptRuns w L d n A single := by
  obtain ⟨r, hr⟩ := C99_runs (w := w) (L := L) hi hd
  have hone : ∀ c, FitTo d c → SampledAs d c → OnePulse n A 1 c := by
    intro c h1 h2
    refine one_pulse h1 h2 hp hq hlo hhi hA hs hb hn fun t h _ => ?_
    rw [ht, List.mem_singleton] at h
    subst h
    rfl
  have hbins : ∀ p ∈ itemsAt d "pulses", setting p ["bins_number"] (.num 101) = .num n := by
    intro p' h
    rw [hp, List.mem_singleton] at h
    subst h
    exact hb
  have hc := C99_samples_same_bins hr hpl hdr hbins hn
  refine ⟨r, hr, fun c hm => hone _ (hc.1 c hm).1 (hc.1 c hm).2, fun ha hs ⟨c, hm, f, hf, hlt⟩ => ?_⟩
  have hb := C99_best hr
  have hle : ∀ c ∈ r.evaluations, ∀ f, c.value = some f → f ≤ r.fom := fun c hc f hf => not_lt.1 fun h => hb.1 c hc f hf (.inl ⟨hmax, h⟩)
  have he := C99_completes hr hpl hdr ha hs fun h => h c hm f hf (-10 ^ 10) (.inl ⟨hmax, rfl⟩) (.inl ⟨hmax, hlt⟩)
  have hno : ¬ IsStart d r.fom := by
    rintro (⟨_, h⟩ | ⟨h, _⟩)
    · have := hle c hm f hf
      rw [h] at this
      linarith
    · exact h hmax
  exact ⟨he, hle, hb.2.resolve_right hno, fun h1 => (C99_best_controls_partial hr hpl hdr hst (hsi h1) he).resolve_left hno⟩

theorem ad_algorithm {d a : PDict} (h : entry d ["algorithm_settings"] = some (.dict a)) (h1 : ByName a "algorithm" "AD")
    (h2 : entry a ["optimization_direction"] = some (.str "maximization"))
    (h3 : ∀ k ∈ ["max_eval_total", "total_time_lim", "FoM_goal", "super_iteration_number"], OptNumber a k)
    (h4 : ∃ r, entry a ["random_number_generator"] = some (.dict r) ∧ ∃ m : ℕ, entry r ["seed_number"] = some (.num m))
    (h5 : ∃ s, entry a ["stopping_criteria"] = some (.dict s)) : HasDict d "algorithm_settings" (DocAlgorithm "AD") := by
  refine ⟨a, h, by simp, h1, ?_, h3 _ (by simp), h3 _ (by simp), .inr (h3 _ (by simp)), h3 _ (by simp), ?_, fun h => by simp at h, fun h => by simp at h, ?_⟩
  · intro v hv
    rw [h2] at hv
    exact .inr (Option.some.inj hv).symm
  · intro v hv
    obtain ⟨r, hr, hm⟩ := h4
    rw [hr] at hv
    exact ⟨r, (Option.some.inj hv).symm, hm⟩
  · intro _ v hv
    obtain ⟨s, hs⟩ := h5
    rw [hs] at hv
    exact ⟨s, (Option.some.inj hv).symm, trivial⟩

theorem piecewise_draws {d : PDict} (hp : itemsAt d "pulses" = [piecewisePulse n]) (hR : ∀ k i, 1 ≤ (w.rnd k i).length) : w.Draws d := by
  intro k i p m h hm
  rw [hp] at h
  rcases i with _ | i
  · obtain rfl : piecewisePulse n = p := Option.some.inj h
    have : ((1 : ℕ) : ℚ) = m := PVal_num_inj (a := ((1 : ℕ) : ℚ)) hm
    rw [← Nat.cast_injective this]
    exact hR _ _
  · have : (none : Option PDict) = some p := h
    cases this

/-- **C108** (execute_AD.py). -/
theorem C108_ad (L : AdProgramLib) (hi : Installed w.lib) (hn : 2 ≤ n) (hR : ∀ k i, 1 ≤ (w.rnd k i).length) :
    (piecewiseMain (adArgs 5 n) settingsAd).1 = .ok () ∧ AdScriptRuns w L (piecewiseMain (adArgs 5 n) settingsAd).2 n 100 true := by
  refine ⟨rfl, ad_script (p := piecewisePulse n) hi ?_ hn (piecewise_plain (n := n) (by omega) rfl rfl) (piecewise_standard (n := n) rfl rfl)
    (piecewise_draws (n := n) rfl hR) rfl rfl rfl rfl rfl (by norm_num) rfl rfl rfl fun _ => rfl⟩
  exact {
    algorithm := ad_algorithm rfl ⟨.inl rfl, rfl⟩ rfl (doc_numbers rfl) ⟨_, rfl, 1234, rfl⟩ ⟨_, rfl⟩
    pulses := ⟨[piecewisePulse n], rfl, fun p hp => by rw [List.mem_singleton] at hp; subst hp; exact piecewise_doc (by omega)⟩
    params := ⟨[], rfl, fun p hp => by cases hp⟩
    times := ⟨[scriptTime], rfl, fun p hp => by rw [List.mem_singleton] at hp; subst hp; exact script_time⟩
    grape := fun h => by simp at h }

/-- **C108** (execute_AD_Lindblad.py). -/
theorem C108_ad_lindblad (L : AdProgramLib) (hi : Installed w.lib) (hn : 2 ≤ n) (hR : ∀ k i, 1 ≤ (w.rnd k i).length) :
    (adLindbladMain (adArgs 2 n) settingsAd).1 = .ok () ∧ AdScriptRuns w L (adLindbladMain (adArgs 2 n) settingsAd).2 n 100 true := by
  refine ⟨rfl, ad_script (p := piecewisePulse n) hi ?_ hn (piecewise_plain (n := n) (by omega) rfl rfl) (piecewise_standard (n := n) rfl rfl)
    (piecewise_draws (n := n) rfl hR) rfl rfl rfl rfl rfl (by norm_num) rfl rfl rfl fun _ => rfl⟩
  exact {
    algorithm := ad_algorithm rfl ⟨.inl rfl, rfl⟩ rfl (doc_numbers rfl) ⟨_, rfl, 1234, rfl⟩ ⟨_, rfl⟩
    pulses := ⟨[piecewisePulse n], rfl, fun p hp => by rw [List.mem_singleton] at hp; subst hp; exact piecewise_doc (by omega)⟩
    params := ⟨[], rfl, fun p hp => by cases hp⟩
    times := ⟨[scriptTime], rfl, fun p hp => by rw [List.mem_singleton] at hp; subst hp; exact script_time⟩
    grape := fun h => by simp at h }

/-- the pulse of execute_AD_Fourier.py -/
def fourierPulse (n : ℕ) : PDict :=
  dictOf [("pulse_name", .str "Pulse_1"), ("upper_limit", .num 1000), ("lower_limit", .num (-1000)), ("amplitude_variation", .num 30),
    ("time_name", .str "time_1"), ("basis", .dict (dictOf [("basis_name", .str "Fourier"), ("basis_vector_number", .num 5),
      ("random_super_parameter_distribution", .dict (dictOf [("distribution_name", .str "Uniform"), ("lower_limit", .num (1 / 100)),
        ("upper_limit", .num 10)]))])), ("bins_number", .num n)]

/-- **C108** (execute_AD_Fourier.py). The script asks for three super-iterations, so that the reported pulse need not be the best one (C62). -/
theorem C108_ad_fourier (L : AdProgramLib) (hi : Installed w.lib) (hn : 2 ≤ n) (hR : ∀ k i, 5 ≤ (w.rnd k i).length) :
    (adFourierMain (adArgs 5 n) settingsAdFourier).1 = .ok () ∧ AdScriptRuns w L (adFourierMain (adArgs 5 n) settingsAdFourier).2 n 1000 false := by
  refine ⟨rfl, ad_script (p := fourierPulse n) hi ?_ hn ?_ ?_ ?_ rfl rfl rfl rfl rfl (by norm_num) rfl rfl rfl fun h => by cases h⟩
  · exact {
      algorithm := ad_algorithm rfl ⟨.inl rfl, rfl⟩ rfl (doc_numbers rfl) ⟨_, rfl, 1236, rfl⟩ ⟨_, rfl⟩
      pulses := by
        refine ⟨[fourierPulse n], rfl, fun p hp => ?_⟩
        rw [List.mem_singleton] at hp
        subst hp
        refine ⟨⟨_, rfl⟩, ?_, ⟨n, by omega, rfl⟩, doc_numbers rfl, ⟨"Fourier", ⟨_, rfl, by simp, ⟨.inl rfl, rfl⟩, ⟨5, by norm_num, rfl⟩,
          doc_numbers rfl, fun _ => ⟨_, rfl, ⟨.inl rfl, rfl⟩, doc_numbers rfl⟩⟩, fun h => by simp at h⟩, .inl (.inl rfl), .inl (.inl rfl),
          .inl (.inl rfl), ?_⟩
        · intro v hv; cases hv; exact ⟨_, rfl⟩
        · intro k hk; simp only [reservedNames, List.mem_cons, List.not_mem_nil, or_false] at hk; rcases hk with rfl | rfl | rfl <;> rfl
      params := ⟨[], rfl, fun p hp => by cases hp⟩
      times := ⟨[scriptTime], rfl, fun p hp => by rw [List.mem_singleton] at hp; subst hp; exact script_time⟩
      grape := fun h => by simp at h }
  · refine ⟨.inl (by rintro h; cases h), fun p h => ?_, fun t h => ?_⟩
    · obtain rfl : p = fourierPulse n := List.mem_singleton.1 h
      refine ⟨⟨n, by omega, rfl, ⟨_, .inl ⟨.inl rfl, rfl⟩⟩, ⟨_, .inl ⟨.inl rfl, rfl⟩⟩⟩, ⟨5, by norm_num, rfl⟩, scriptTime, ?_, rfl⟩
      exact List.mem_singleton.2 rfl
    · obtain rfl : t = scriptTime := List.mem_singleton.1 h
      exact .inr (.inl rfl)
  · refine ⟨fun p h => ?_, fun p h => by cases h⟩
    obtain rfl : p = fourierPulse n := List.mem_singleton.1 h
    exact ⟨.inl (.inl rfl), .inr (.inl rfl)⟩
  · intro k i p m hp hm
    rcases i with _ | i
    · obtain rfl : fourierPulse n = p := Option.some.inj hp
      have : ((5 : ℕ) : ℚ) = m := PVal_num_inj (a := ((5 : ℕ) : ℚ)) hm
      rw [← Nat.cast_injective this]
      exact hR _ _
    · have : (none : Option PDict) = some p := hp
      cases this

/-- the pulse of execute_Lindblad.py -/
def lindbladPulse : PDict :=
  dictOf [("pulse_name", .str "Pulse_1"), ("upper_limit", .num 100), ("lower_limit", .num (-100)), ("bins_number", .num 100),
    ("amplitude_variation", .num 30), ("time_name", .str "time_1"),
    ("basis", .dict (dictOf [("basis_name", .str "PiecewiseBasis"), ("bins_number", .num 100)])),
    ("scaling_function", .dict (dictOf [("function_type", .str "lambda_function"), ("lambda_function", .str "lambda t: 1.0 + 0.0*t")])),
    ("initial_guess", .dict (dictOf [("function_type", .str "lambda_function"), ("lambda_function", .str "lambda t: 0.0 + 0.0*t")]))]

/-- **C108** (execute_Lindblad.py). -/
theorem C108_lindblad (L : AdProgramLib) (hi : Installed w.lib) (hR : ∀ k i, 1 ≤ (w.rnd k i).length)
    (h1 : w.lib.evalScaling "lambda t: 1.0 + 0.0*t" = .ok (.callable fun t => t.map fun _ => 1))
    (h0 : w.lib.evalGuess "lambda t: 0.0 + 0.0*t" = .ok (.callable fun t => t.map fun _ => 0)) :
    AdScriptRuns w L settingsLindblad 100 100 true := by
  refine ad_script (p := lindbladPulse) hi ?_ (by norm_num) ?_ ?_ ?_ rfl rfl rfl rfl rfl (by norm_num) rfl rfl rfl fun _ => rfl
  · exact {
      algorithm := ad_algorithm rfl ⟨.inl rfl, rfl⟩ rfl (doc_numbers rfl) ⟨_, rfl, 1234, rfl⟩ ⟨_, rfl⟩
      pulses := by
        refine ⟨[lindbladPulse], rfl, fun p hp => ?_⟩
        rw [List.mem_singleton] at hp
        subst hp
        refine ⟨⟨_, rfl⟩, ?_, ⟨100, by norm_num, rfl⟩, doc_numbers rfl, ⟨"PiecewiseBasis", ⟨_, rfl, ?_⟩, fun _ h => by cases h⟩,
          .inr ⟨_, rfl, .inl ⟨rfl, _, _, rfl, h0⟩⟩, .inr ⟨_, rfl, .inl ⟨rfl, _, _, rfl, h1⟩⟩, .inl (.inl rfl), ?_⟩
        · intro v hv; cases hv; exact ⟨_, rfl⟩
        · exact ⟨by simp, ⟨.inl rfl, rfl⟩, ⟨1, le_refl _, rfl⟩, doc_numbers rfl, fun h => by simp at h⟩
        · intro k hk; simp only [reservedNames, List.mem_cons, List.not_mem_nil, or_false] at hk; rcases hk with rfl | rfl | rfl <;> rfl
      params := ⟨[], rfl, fun p hp => by cases hp⟩
      times := ⟨[scriptTime], rfl, fun p hp => by rw [List.mem_singleton] at hp; subst hp; exact script_time⟩
      grape := fun h => by simp at h }
  · refine ⟨.inl (by rintro h; cases h), fun p h => ?_, fun t h => ?_⟩
    · obtain rfl : p = lindbladPulse := List.mem_singleton.1 h
      refine ⟨⟨100, by norm_num, rfl, ⟨_, .inr ⟨_, rfl, .inr ⟨rfl, _, rfl, h0, fun t ht => by simpa using ht⟩⟩⟩,
        ⟨_, .inr ⟨_, rfl, .inr ⟨rfl, _, rfl, h1, fun t ht => by simpa using ht⟩⟩⟩⟩, ⟨1, le_refl _, rfl⟩, scriptTime, ?_, rfl⟩
      exact List.mem_singleton.2 rfl
    · obtain rfl : t = scriptTime := List.mem_singleton.1 h
      exact .inr (.inl rfl)
  · refine ⟨fun p h => ?_, fun p h => by cases h⟩
    obtain rfl : p = lindbladPulse := List.mem_singleton.1 h
    exact ⟨.inl (.inl rfl), .inr (.inl rfl)⟩
  · intro k i p m hp hm
    rcases i with _ | i
    · obtain rfl : lindbladPulse = p := Option.some.inj hp
      have : ((1 : ℕ) : ℚ) = m := PVal_num_inj (a := ((1 : ℕ) : ℚ)) hm
      rw [← Nat.cast_injective this]
      exact hR _ _
    · have : (none : Option PDict) = some p := hp
      cases this

end

/-- Surroundings that meet the hypotheses for all scripts: the classes are installed, Python evaluates the functions, there are five random numbers. -/
def scriptAround (user : List Seen → ControlsOut ℚ → Py (Answer ℚ)) : Surroundings :=
  { exAround 0 with
    user := user
    rnd := fun _ _ => List.replicate 5 (1 / 2)
    lib := { exLib with
      evalGuess := fun s => .ok (.callable fun t => t.map fun _ => if s = "lambda t: 0.11 + 0.0*t" then 11 / 100 else 0)
      evalScaling := fun _ => .ok (.callable fun t => t.map fun _ => 1) } }

theorem scriptAround_meets (user : List Seen → ControlsOut ℚ → Py (Answer ℚ)) : Installed (scriptAround user).lib ∧
    EvaluatesSimplified (scriptAround user).lib ∧ (∀ k i, 5 ≤ ((scriptAround user).rnd k i).length) ∧ (scriptAround user).Log ∧
    ∀ k, (scriptAround user).async k ≠ .sigint :=
  ⟨⟨fun _ _ => rfl, fun _ _ => rfl, fun _ _ => rfl, rfl⟩, ⟨rfl, rfl, rfl⟩, fun _ _ => le_refl _, (exAround_usable 0).2.2, fun k h => by cases h⟩

/-- The simplified example runs in these surroundings. -/
example : ∃ r, optimize (scriptAround fun _ => simplifiedFoM) settingsSimplified = some (.ok r) ∧ (r.calls ≠ [] → r.ended = .ok ()) := by
  obtain ⟨h1, h2, h3, h4, _⟩ := scriptAround_meets fun _ => simplifiedFoM
  obtain ⟨r, hr, _, _, h⟩ := C108_simplified h1 h2 rfl (fun k i => le_trans (by norm_num) (h3 k i)) h4
  exact ⟨r, hr, h⟩

/-- execute_dCRAB.py with the 2000 slices of the file. -/
example (user : List Seen → ControlsOut ℚ → Py (Answer ℚ)) :
    ∃ r, optimize (scriptAround user) (dcrabMain (dcrabArgs 2000) settingsDcrab).2 = some (.ok r) ∧ r.calls.length ≤ 3000 ∧
      ∀ c rest, r.calls = c :: rest → c.1.pulses = [List.replicate 2000 0] := by
  obtain ⟨h1, h2, h3, h4, _⟩ := scriptAround_meets user
  obtain ⟨_, r, hr, hb, _, h⟩ := C108_dcrab h1 (by norm_num : 2 ≤ 2000)
  exact ⟨r, hr, hb, (h h3).1⟩

end QuOCS

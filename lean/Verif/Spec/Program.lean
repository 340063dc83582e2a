/-
Vocabulary for whole optimizations: everything is expressed by the entries of the optimization dictionary and by what the user
sees of the optimization.
-/
import Verif.Model.Program
import Verif.Spec.Settings
import Verif.Spec.Run

namespace QuOCS

/-- The dictionary asks for a maximization. -/
def Maximizes (d : PDict) : Prop :=
  setting d ["algorithm_settings", "optimization_direction"] (.str "minimization") = .str "maximization"

/-- `x` is better than `y` for the direction in the dictionary. -/
def BetterFor (d : PDict) (x y : ℚ) : Prop := (Maximizes d ∧ y < x) ∨ (¬ Maximizes d ∧ x < y)

/-- The figure of merit of a call, if the function returned one. -/
def Seen.value (c : Seen) : Option ℚ :=
  match c.2 with
  | .ok a => a.fom
  | .error _ => none

/-- Neither re-evaluation nor drift compensation is in the dictionary. -/
structure SingleMeasurements (d : PDict) : Prop where
  reEval : entry d ["algorithm_settings", "re_evaluation"] = none
  drift : entry d ["algorithm_settings", "compensate_drift"] = none

/-- The samples that an entry for an initial guess or a scaling function describes for a pulse with `b` bins, as a function of the time grid:
`dflt` at all times without entry, a list of `b` numbers, or the function of a lambda expression, if it gives one number for each time. -/
def Samples (lib : PyLib) (eval : String → (List ℚ → List ℚ) → Prop) (dflt : ℚ) (given : Option PVal) (b : ℕ)
    (f : List ℚ → List ℚ) : Prop :=
  NoEntry given ∧ f = (fun t => t.map fun _ => dflt) ∨
  ∃ s, given = some (.dict s) ∧
    (entry s ["function_type"] = some (.str "list_function") ∧
       (∃ v qs, entry s ["list_function"] = some v ∧ IsArray lib v qs ∧ qs.length = b ∧ f = fun _ => qs) ∨
     entry s ["function_type"] = some (.str "lambda_function") ∧
       ∃ src, entry s ["lambda_function"] = some (.str src) ∧ eval src f ∧ ∀ t, t.length = b → (f t).length = b)

/-- The samples of the initial guess of a pulse. -/
def GuessSamples (lib : PyLib) (p : PDict) (b : ℕ) (f : List ℚ → List ℚ) : Prop :=
  Samples lib (fun src f => lib.evalGuess src = .ok (.callable f)) 0 (entry p ["initial_guess"]) b f

/-- The samples of the scaling function of a pulse. -/
def ScalingSamples (lib : PyLib) (p : PDict) (b : ℕ) (f : List ℚ → List ℚ) : Prop :=
  Samples lib (fun src f => lib.evalScaling src = .ok (.callable f)) 1 (entry p ["scaling_function"]) b f

/-- An entry of the list of pulses with at least one bin and one basis vector, with a time that is in the list of times, and with initial
guess and scaling function missing or given for these bins. -/
structure PlainPulse (lib : PyLib) (d p : PDict) : Prop where
  bins : ∃ b : ℕ, 1 ≤ b ∧ setting p ["bins_number"] (.num 101) = .num b ∧ (∃ f, GuessSamples lib p b f) ∧
    ∃ f, ScalingSamples lib p b f
  vectors : ∃ n : ℕ, 1 ≤ n ∧ setting p ["basis", "basis_vector_number"] (.num 1) = .num n
  time : ∃ t ∈ itemsAt d "times", entry t ["time_name"] = some (setting p ["time_name"] (.str "time"))

/-- A dictionary with plain pulses and fixed times and with something to optimize. -/
structure PlainControls (lib : PyLib) (d : PDict) : Prop where
  something : itemsAt d "pulses" ≠ [] ∨ itemsAt d "parameters" ≠ []
  pulses : ∀ p ∈ itemsAt d "pulses", PlainPulse lib d p
  times : ∀ t ∈ itemsAt d "times", IsFalse (setting t ["is_optimization"] (.bool false))

/-- A pulse with the default shaping, which adds to the base pulse, or with a list of shaping options in which the base pulse and directly
after it the update are added, both once. -/
structure StandardPulse (p : PDict) : Prop where
  shaping : NoEntry (entry p ["shaping_options"]) ∨ ∃ pre post,
    entry p ["shaping_options"] = some (.list (strList (pre ++ "add_base_pulse" :: "add_new_update_pulse" :: post))) ∧
    ∀ s ∈ pre ++ post, s ≠ "add_base_pulse" ∧ s ≠ "add_new_update_pulse"
  overwrite : IsFalse (setting p ["overwrite_base_pulse"] (.bool false))

/-- Standard pulses, and parameters with ordered limits. -/
structure StandardDictionary (d : PDict) : Prop where
  pulses : ∀ p ∈ itemsAt d "pulses", StandardPulse p
  limits : ∀ p ∈ itemsAt d "parameters", ∀ lo hi, IsNumber (setting p ["lower_limit"] (.num (1 / 10))) lo →
    IsNumber (setting p ["upper_limit"] (.num (11 / 10))) hi → lo ≤ hi

/-- The algorithm in the dictionary is dCRAB. -/
def IsDcrab (d : PDict) : Prop :=
  NoEntry (entry d ["algorithm_settings", "algorithm_attribute"]) ∧
    entry d ["algorithm_settings", "algorithm_name"] = some (.str "dCRAB")

/-- A population of CMA-ES in the dictionary is at least two. -/
def UsablePopulation (d : PDict) : Prop :=
  ∀ q : ℚ, entry d ["algorithm_settings", "dsm_settings", "general_settings", "population"] = some (.num q) → 2 ≤ q

/-- The algorithm can build its controls: it is dCRAB, or there are no pulses (C84). -/
def BuildsControls (d : PDict) : Prop := IsDcrab d ∨ itemsAt d "pulses" = []

/-- The user's function always returns a figure of merit. -/
def Surroundings.Answers (w : Surroundings) : Prop := ∀ h c, ∃ a f, w.user h c = .ok a ∧ a.fom = some f

/-- The generator of random numbers returns at least as many numbers as a pulse has basis vectors. -/
def Surroundings.Draws (w : Surroundings) (d : PDict) : Prop :=
  ∀ (k i : ℕ) (p : PDict) (n : ℕ), (itemsAt d "pulses")[i]? = some p →
    setting p ["basis", "basis_vector_number"] (.num 1) = .num n → n ≤ (w.rnd k i).length

/-- The logarithm of a positive whole number is not negative. -/
def Surroundings.Log (w : Surroundings) : Prop := ∀ n : ℕ, 1 ≤ n → 0 ≤ w.num.log n

/-- The controls fit to the dictionary: as many pulses and parameters as it lists; a pulse with the entries `lower_limit = lo` and
`upper_limit = hi` and without `shaping_options` has all its samples between `lo` and `hi` and a time grid with `bins_number` entries;
a parameter with the entries `lower_limit = lo` and `upper_limit = hi` is between `lo` and `hi`. -/
structure FitTo (d : PDict) (c : ControlsOut ℚ) : Prop where
  pulseNumber : c.pulses.length = (itemsAt d "pulses").length
  paramNumber : c.parameters.length = (itemsAt d "parameters").length
  pulses : ∀ (i : ℕ) (p : PDict) (u t : List ℚ) (lo hi : ℚ), (itemsAt d "pulses")[i]? = some p → c.pulses[i]? = some u →
    c.timegrids[i]? = some t → entry p ["lower_limit"] = some (.num lo) → entry p ["upper_limit"] = some (.num hi) → lo ≤ hi →
    entry p ["shaping_options"] = none →
    (∀ x ∈ u, lo ≤ x ∧ x ≤ hi) ∧ ∀ b : ℕ, entry p ["bins_number"] = some (.num b) → t.length = b
  params : ∀ (j : ℕ) (p : PDict) (v lo hi : ℚ), (itemsAt d "parameters")[j]? = some p → c.parameters[j]? = some v →
    entry p ["lower_limit"] = some (.num lo) → entry p ["upper_limit"] = some (.num hi) → lo ≤ hi → lo ≤ v ∧ v ≤ hi

end QuOCS

/-
Vocabulary for continuing an optimization: a second dictionary that starts from the best controls of a first optimization.
-/
import Verif.Spec.Program

namespace QuOCS

/-- The pulse `p'` of the second dictionary continues the pulse `p` of the first with the samples `u`: the same bins, limits and time,
at least two bins, no shaping options; the samples are given as a list (`"initial_guess": {"function_type": "list_function",
"list_function": u}`), and there is no scaling function. Basis, name, amplitude variation and shrinking may be different; the first
pulse may have a scaling function. -/
structure ContinuedPulse (lib : PyLib) (p : PDict) (u : List ℚ) (p' : PDict) : Prop where
  bins : ∃ b : ℕ, 2 ≤ b ∧ setting p ["bins_number"] (.num 101) = .num b ∧ setting p' ["bins_number"] (.num 101) = .num b
  lower : setting p' ["lower_limit"] (.num 0) = setting p ["lower_limit"] (.num 0)
  upper : setting p' ["upper_limit"] (.num 1) = setting p ["upper_limit"] (.num 1)
  time : setting p' ["time_name"] (.str "time") = setting p ["time_name"] (.str "time")
  shaping : NoEntry (entry p ["shaping_options"]) ∧ NoEntry (entry p' ["shaping_options"])
  scaling : NoEntry (entry p' ["scaling_function"])
  guess : ∃ s v, entry p' ["initial_guess"] = some (.dict s) ∧ entry s ["function_type"] = some (.str "list_function") ∧
    entry s ["list_function"] = some v ∧ IsArray lib v u

/-- The parameter `p'` of the second dictionary continues `p` with the value `v`: the same ordered limits, and `v` is the initial value. -/
structure ContinuedParam (p : PDict) (v : ℚ) (p' : PDict) : Prop where
  lower : setting p' ["lower_limit"] (.num (1 / 10)) = setting p ["lower_limit"] (.num (1 / 10))
  upper : setting p' ["upper_limit"] (.num (11 / 10)) = setting p ["upper_limit"] (.num (11 / 10))
  ordered : ∀ lo hi, IsNumber (setting p ["lower_limit"] (.num (1 / 10))) lo → IsNumber (setting p ["upper_limit"] (.num (11 / 10))) hi → lo ≤ hi
  value : IsNumber (setting p' ["initial_value"] (.num 1)) v

/-- The dictionary `d'` starts from the controls `out`, which belong to the dictionary `d`: the times are the same, and all pulses and
parameters are continued. The settings of the algorithm may be different. -/
structure ContinuesFrom (lib : PyLib) (d : PDict) (out : ControlsOut ℚ) (d' : PDict) : Prop where
  times : itemsAt d' "times" = itemsAt d "times"
  pulseNumber : (itemsAt d' "pulses").length = (itemsAt d "pulses").length
  paramNumber : (itemsAt d' "parameters").length = (itemsAt d "parameters").length
  pulses : ∀ (i : ℕ) (p p' : PDict) (u : List ℚ), (itemsAt d "pulses")[i]? = some p → (itemsAt d' "pulses")[i]? = some p' →
    out.pulses[i]? = some u → ContinuedPulse lib p u p'
  params : ∀ (j : ℕ) (p p' : PDict) (v : ℚ), (itemsAt d "parameters")[j]? = some p → (itemsAt d' "parameters")[j]? = some p' →
    out.parameters[j]? = some v → ContinuedParam p v p'

end QuOCS

/-
Vocabulary for whole optimizations: the samples and the time grids of the controls.
-/
import Verif.Spec.Program

namespace QuOCS

/-- Each pulse that the dictionary lists with `b ≥ 2` bins has `b` samples; its time grid has `b` equidistant times from zero to the duration
`T` that the dictionary gives. -/
structure SampledAs (d : PDict) (c : ControlsOut ℚ) : Prop where
  gridNumber : c.timegrids.length = (itemsAt d "pulses").length
  samples : ∀ (i : ℕ) (p : PDict) (u t : List ℚ) (b : ℕ), (itemsAt d "pulses")[i]? = some p → c.pulses[i]? = some u →
    c.timegrids[i]? = some t → setting p ["bins_number"] (.num 101) = .num b → 2 ≤ b → u.length = b ∧ t.length = b ∧
    ∀ T : ℚ, (∀ t ∈ itemsAt d "times", entry t ["time_name"] = some (setting p ["time_name"] (.str "time")) →
      setting t ["initial_value"] (.num 1) = .num T) → ∀ k < b, t[k]? = some (k * (T / (b - 1 : ℕ)))

end QuOCS

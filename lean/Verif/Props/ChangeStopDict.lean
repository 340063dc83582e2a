/-
C117: the entry for the change-based stop that the constructor of the stopping criteria takes from the dictionary.
-/
import Verif.Props.ChangeStop
import Verif.Props.Settings
import Verif.Lemmas.SettingsUse
import Verif.Lemmas.Accepted

set_option linter.unusedSectionVars false
set_option linter.unusedVariables false

namespace QuOCS

/-- **C117.** For every dictionary of stopping criteria the constructor succeeds. It uses the entry `change_based_stop` of the user as it is; parts that
are missing in it are not filled in. Without the entry the criterion is switched off: no sequence of evaluations records, logs or stops anything. -/
theorem C117_entry_of_dictionary (d : PDict) :
    ∃ st, (readStopping d).1 = .ok st ∧
      (∀ v, d.get? "change_based_stop" = some v → st.changeBased = v) ∧
      (d.get? "change_based_stop" = none → ∀ (foms : List ℚ) (s : CbsState), foms.foldl (cbsEvaluation st.changeBased) s = s) := by
  obtain ⟨st, h⟩ := stopping_go exLib d
  have hst := stopping_use exLib h
  refine ⟨st, h, fun v hv => ?_, fun hn foms s => ?_⟩
  · rw [hst]
    simp only [setting, entry, hv, Option.getD_some]
  · have hc : st.changeBased = changeBasedDefault := by
      rw [hst]
      simp only [setting, entry, hn, Option.getD_none]
    rw [hc]
    exact C117_switched_off _ (.num 1) rfl (.inl ⟨1, le_refl _, rfl⟩) foms s

/-- a dictionary with an incomplete entry, and one without -/
example : (PDict.cons "change_based_stop" (.dict (.cons "cbs_change" (.num 2) .nil)) .nil).get? "change_based_stop" =
      some (.dict (.cons "cbs_change" (.num 2) .nil)) ∧
    (PDict.cons "max_eval" (.num 100) .nil).get? "change_based_stop" = none := ⟨rfl, rfl⟩

end QuOCS

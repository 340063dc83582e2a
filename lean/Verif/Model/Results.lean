/-
Model of `_get_final_results` of the three algorithms.
-/
import Verif.Model.Algorithm

namespace QuOCS

/-- The dictionary of final results; a key that an algorithm does not report is `none`. -/
structure FinalResults (V F : Type) where
  /-- `"Figure of merit"` -/
  fom : F
  /-- `"total number of function evaluations"` (dCRAB), `"nfev"` (GRAPE) -/
  evaluations : Option ℕ
  /-- `"dcrab_para_list"` -/
  paraList : Option (List V)
  /-- `"parameters"` (DirectSearch); the inner option is `AttributeError` before the first evaluation -/
  parameters : Option (Option V)

section
variable {K V C O F : Type} [Neg F]

/-- `_get_final_results` (dCRABAlgorithm.py:443-457, DirectSearchAlgorithm.py:328-339, GRAPEAlgorithm.py:235-245).
Not modelled: `"Std"`, `"dcrab_freq_list"`, `"terminate_reason"`. -/
def finalResults (cfg : AlgCfg K F) (s : AlgState V C O F) : FinalResults V F :=
  match cfg.kind with
  | .dcrab => ⟨dirMul cfg.maximize s.bestFoM, some s.iter, some s.paraList, none⟩
  | .directSearch => ⟨dirMul cfg.maximize s.bestFoM, none, none, some s.xx⟩
  | .grape => ⟨dirMul cfg.maximize s.bestFoM, some s.iter, none, none⟩

end
end QuOCS

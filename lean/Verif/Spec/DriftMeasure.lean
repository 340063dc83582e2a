/-
Vocabulary for drift compensation in whole optimizations.
-/
import Verif.Spec.DriftRun
import Verif.Spec.ProgramMean

namespace QuOCS

/-- What the end of a run says about its result `run`, the reported best controls and the reported figure of merit. -/
def EndReported {K F : Type} (run : Py Unit) (best : Py (ControlsOut K)) (v : F) : RunEnd (ControlsOut K) F → Prop
  | .kept c v' => best = .ok c ∧ v = v'
  | .failed => run ≠ .ok ()
  | .inMeasurements => True

/-- The dictionary asks for drift compensation after super-iterations only, and for no re-evaluation. -/
structure CompensatesAfterSI (d : PDict) : Prop where
  reEval : entry d ["algorithm_settings", "re_evaluation"] = none
  minutes : ∀ m : ℚ, setting d ["algorithm_settings", "compensate_drift", "compensate_after_minutes"] (.num 0) = .num m → m ≤ 0
  afterSI : ¬ IsFalse (setting d ["algorithm_settings", "compensate_drift", "compensate_after_SI"] (.bool false))

/-- The number of measurements of a drift compensation. -/
def MeasurementsOf (d : PDict) (number : ℕ) : Prop :=
  ∃ z : ℤ, setting d ["algorithm_settings", "compensate_drift", "num_average"] (.num 1) = .num z ∧ number = z.toNat

/-- The largest number of super-iterations. -/
def SuperIterationsOf (lib : PyLib) (d : PDict) (m : ℕ) : Prop :=
  ∃ v, ∃ z : ℤ, entry d ["algorithm_settings", "super_iteration_number"] = some v ∧ IsInt lib v z ∧ m = z.toNat

end QuOCS

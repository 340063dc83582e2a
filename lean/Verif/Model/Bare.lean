/-
The best pulses without guess and scaling (`get_best_bare_controls`).
-/
import Verif.Model.Controls

namespace QuOCS

section
variable {K : Type*} [Field K] [LinearOrder K]

/-- `get_best_bare_controls` (OptimizationAlgorithm.py:300-303) with the controls object of the algorithm. -/
def bestBareControls (M : MathFns K) (c : Controls K) : Py (List (List K)) := do
  let x ← c.mean
  let r ← c.getBare M x
  pure r.2

end
end QuOCS

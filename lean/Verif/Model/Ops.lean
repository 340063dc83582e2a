/-
The controls object of `Verif.Model.Controls` as seen by the algorithms.
-/
import Verif.Model.Algorithm
import Verif.Model.Controls

namespace QuOCS

section
variable {K : Type} [Field K] [LinearOrder K]

/-- The methods of `Controls` used by the algorithms (dCRABAlgorithm.py:229, 245, 219, 253-256, 434,
OptimizationAlgorithm.py:293-298). `rnd k i` are the random numbers drawn in super-iteration `k` for pulse `i`;
`simplex` is `simplex_creation`. -/
def controlsOps (M : MathFns K) (rnd : ℕ → ℕ → List K) (simplex : ℕ → List K → List K → Py (List (List K))) :
    CtlOps (Controls K) (List K) (ControlsOut K) where
  getControls c x := c.getControls M x
  mean c := c.mean
  sigma c := c.sigma
  updateBase c x := c.updateBase M x
  selectBasis k c := c.selectBasis (rnd k)
  simplex := simplex

end
end QuOCS

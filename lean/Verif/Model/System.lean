/-
The assembled system: the controls object of `Verif.Model.Controls` with the search vectors of the direct-search
methods (arrays with one entry per control parameter) and `simplex_creation` of `Verif.Model.LinearAlgebra`.
-/
import Verif.Model.Ops
import Verif.Model.LinearAlgebra

namespace QuOCS

section
variable {K : Type} [Field K] [LinearOrder K]

/-- An array as a search vector with `n` entries. The search methods take the number of entries from the array itself;
`ValueError` stands for arrays with another number of entries, which the controls object never returns
(`Ready.mean`, `Ready.sigma`). -/
def vecOfList (n : ℕ) (l : List K) : Py (Vec K n) :=
  if h : l.length = n then .ok (fun i => l[i]) else .error .valueError

/-- `_get_controls`: dCRAB delivers all three lists (dCRABAlgorithm.py:427-440). DirectSearch unpacks into
`[], [], parameters_list` (DirectSearchAlgorithm.py:316-326), which raises `ValueError` when there are pulses. -/
def getControlsFor (kind : AlgKind) (M : MathFns K) (c : Controls K) (x : List K) : Py (Controls K × ControlsOut K) := do
  let r ← c.getControls M x
  if kind = .directSearch ∧ r.2.pulses ≠ [] then .error .valueError else .ok r

/-- The controls object and `simplex_creation` as used by dCRAB and DirectSearch (dCRABAlgorithm.py:219, 229, 245,
253-256, 427-440; DirectSearchAlgorithm.py:296-326). `rnd k i` are the random numbers drawn in super-iteration `k` for
pulse `i`, `draws k` those of `simplex_creation`. -/
def systemOps (kind : AlgKind) (M : MathFns K) (sqrt : K → K) (rnd : ℕ → ℕ → List K) {n : ℕ} (draws : ℕ → Vec K n) :
    CtlOps (Controls K) (Vec K n) (ControlsOut K) where
  getControls c x := getControlsFor kind M c (List.ofFn x)
  mean c := do vecOfList n (← c.mean)
  sigma c := do vecOfList n (← c.sigma)
  updateBase c x := c.updateBase M (List.ofFn x)
  selectBasis k c := c.selectBasis (rnd k)
  simplex k mean sigma := simplexCreation sqrt mean sigma (draws k)

end
end QuOCS

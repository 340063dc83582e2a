/-
Vocabulary for reproducing the best controls after a run.
-/
import Verif.Spec.Run

namespace QuOCS

/-- The controls object `o` shows the controls `c` at the search vector `x`. -/
def Shows {O V C : Type} (ops : CtlOps O V C) (o : O) (x : V) (c : C) : Prop :=
  (ops.getControls o x).map Prod.snd = .ok c

/-- The controls object `o` shows the controls `c` at its own mean value (what `get_best_controls` returns). -/
def ShowsMean {O V C : Type} (ops : CtlOps O V C) (o : O) (c : C) : Prop :=
  ∃ x, ops.mean o = .ok x ∧ Shows ops o x c

/-- What a controls object has to satisfy (on the objects with `I`) so that results can be reproduced. -/
structure Reproducible {O V C : Type} (ops : CtlOps O V C) (I : O → Prop) : Prop where
  /-- building controls does not change the controls built later -/
  build : ∀ o x o' c, I o → ops.getControls o x = .ok (o', c) → I o' ∧ ∀ y c', Shows ops o y c' → Shows ops o' y c'
  /-- making `x` the new base: the mean then shows what `x` showed before -/
  base : ∀ o x o', I o → ops.updateBase o x = .ok o' → I o' ∧ ∀ c, Shows ops o x c → ShowsMean ops o' c
  /-- a new basis does not change what the mean shows -/
  basis : ∀ k o o', I o → ops.selectBasis k o = .ok o' → I o' ∧ ∀ c, ShowsMean ops o c → ShowsMean ops o' c

/-- The same object, which in addition records the numbers of all super-iterations for which a basis was drawn. -/
def recording {O V C : Type} (ops : CtlOps O V C) : CtlOps (O × List ℕ) V C where
  getControls o x := (ops.getControls o.1 x).map fun r => ((r.1, o.2), r.2)
  mean o := ops.mean o.1
  sigma o := ops.sigma o.1
  updateBase o x := (ops.updateBase o.1 x).map fun r => (r, o.2)
  selectBasis k o := (ops.selectBasis k o.1).map fun r => (r, o.2 ++ [k])
  simplex := ops.simplex

end QuOCS

/-
Specification for C110: the reports of a run, one for each call of the user's function that counts.
-/
import Verif.Spec.History

namespace QuOCS

variable {C F G : Type}

/-- The smallest of a start value and the values of the calls that count, seen through `sign`. -/
def bestAfter [LT G] [DecidableLT G] (sign : F → G) (best : G) (l : List (C × Py (Answer F))) : G :=
  (l.filterMap usable).foldl (fun b f => if sign f < b then sign f else b) best

/-- The reports for a list of calls, numbered from `k + 1` on: for each call that counts its controls, value and number, and whether it is
below all values so far. -/
def reportsOf [LT G] [DecidableLT G] (sign : F → G) (best : G) : ℕ → List (C × Py (Answer F)) → List (DumpCall C G)
  | _, [] => []
  | k, c :: l =>
    ((usable c).toList.map fun f => ⟨some c.1, decide (sign f < best), sign f, k + 1, k + 1⟩) ++
      reportsOf sign (bestAfter sign best [c]) (k + 1) l

end QuOCS

import Mathlib.Data.List.Nodup
import Mathlib.Data.List.Infix

/-!
# Vocabulary for the properties about files
-/

namespace QuOCS.Spec

/-- No control is lost in a file (a partial function from keys to values): every control has a key of its own. -/
def AllKept {β : Type*} (file : String → Option β) (controls : List β) : Prop :=
  ∃ keys : List String, keys.Nodup ∧ keys.map file = controls.map some

/-- A name without decimal digits that does not begin with `time_grid_for_`. -/
def Plain (name : String) : Prop :=
  (∀ c ∈ name.toList, c.isDigit = false) ∧ ¬ "time_grid_for_".toList <+: name.toList

end QuOCS.Spec

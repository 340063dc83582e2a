/-
Vocabulary for drift compensation inside a search.
-/
import Verif.Spec.MapSearch

namespace QuOCS
variable {K V F : Type}

/-- Evaluations of the point `x` with the values `fs`, in iteration `it`. -/
def measurements (x : V) (it : ℕ) (fs : List F) : List (Ev K V F) := fs.map fun f => ⟨.eval x it, f⟩

/-- The call announces a drift-compensated value. -/
def Op.IsDrift : Op K V F → Prop
  | .drift _ _ _ => True
  | _ => False

/-- `LastCompensation h t` : after the calls `h` of a search, `t` is the time of its last drift compensation, or the time
of its start as long as there was none. -/
inductive LastCompensation : List (Ev K V F) → ℚ → Prop
  | start (t0 t : ℚ) : LastCompensation [⟨.setConv false, ()⟩, ⟨.now, t0⟩, ⟨.now, t⟩] t
  | renewed (h t x it v r) : LastCompensation (h ++ [⟨.now, t⟩, ⟨.drift x it v, r⟩]) t
  | later (h t e) (he : ¬ e.1.IsDrift) (ht : LastCompensation h t) : LastCompensation (h ++ [e]) t

end QuOCS

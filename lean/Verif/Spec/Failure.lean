/-
When a run may fail.
-/
import Verif.Model.Algorithm

namespace QuOCS
variable {V C F : Type}

/-- The call itself failed: the user's function raised `e`, or it returned no figure of merit (`None`), which Python
notices as a `TypeError` when the value is multiplied. -/
def Call.Failed (e : PyErr) (c : Call V C F) : Prop :=
  c.ans = .error e ∨ (e = .typeError ∧ ∃ a, c.ans = .ok a ∧ a.fom = none)

/-- The last call of the user's function failed: the log ends with a call that records what the user's function did
with these controls after the earlier calls, and that call failed. -/
def UserFailed (env : Env V C F) (e : PyErr) (log : List (Call V C F)) : Prop :=
  ∃ before c, log = before ++ [c] ∧ c.ans = env.getFoM before c.ctl ∧ c.Failed e

/-- The user's function always returns a figure of merit. -/
def AlwaysAnswers (env : Env V C F) : Prop := ∀ h c, ∃ a f, env.getFoM h c = .ok a ∧ a.fom = some f

end QuOCS

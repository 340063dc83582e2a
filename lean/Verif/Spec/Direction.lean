/-
Vocabulary for C06: the mirrored optimization problem.
-/
import Verif.Spec.Run

namespace QuOCS

/-- The answer with negated figure of merit (same `std`, same status code; the same exception). -/
def mirrorAnswer {F : Type} [Neg F] : Py (Answer F) → Py (Answer F)
  | .ok a => .ok { a with fom := a.fom.map (fun x => -x) }
  | .error e => .error e

/-- The same call with negated answer. -/
def mirrorCall {V C F : Type} [Neg F] (c : Call V C F) : Call V C F := { c with ans := mirrorAnswer c.ans }

/-- The settings of the minimization that corresponds to a maximization: negated goal, everything else unchanged. -/
def asMinimization {K F : Type} [Neg F] (cfg : AlgCfg K F) : AlgCfg K F :=
  { cfg with maximize := false, userGoal := cfg.userGoal.map (fun x => -x) }

/-- The user's function negated. It may depend on the history of earlier calls: the original function is shown the
history of its own (not negated) answers. -/
def mirrorEnv {V C F : Type} [Neg F] (env : Env V C F) : Env V C F :=
  { env with getFoM := fun history c => mirrorAnswer (env.getFoM (history.map mirrorCall) c) }

end QuOCS

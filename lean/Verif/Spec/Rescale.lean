/-
Vocabulary for C91: the same optimization problem with another scale for the figure of merit.
-/
import Verif.Spec.Run
import Verif.Model.CMAES

namespace QuOCS

section
variable {K V C F : Type}

/-- The answer with the figure of merit `f` replaced by `ψ f` (same `std`, same status code). -/
def Answer.rescale (ψ : F → F) (a : Answer F) : Answer F := { a with fom := a.fom.map ψ }

/-- The same call with rescaled answer (or the same exception). -/
def Call.rescale (ψ : F → F) (c : Call V C F) : Call V C F := { c with ans := c.ans.map (Answer.rescale ψ) }

/-- The same report with rescaled figure of merit. -/
def DumpCall.rescale (φ : F → F) (d : DumpCall C F) : DumpCall C F := { d with fom := φ d.fom }

/-- `fm` reports on the scale `ψ` what the user's function reports: given the same history of calls (with rescaled answers), it
returns the rescaled answer or raises the same exception. -/
def Rescales (ψ : F → F) (env : Env V C F) (fm : List (Call V C F) → C → Py (Answer F)) : Prop :=
  ∀ l c, fm (l.map (Call.rescale ψ)) c = (env.getFoM l c).map (Answer.rescale ψ)

/-- another user function in the same environment -/
def Env.answering (env : Env V C F) (fm : List (Call V C F) → C → Py (Answer F)) : Env V C F := { env with getFoM := fm }

/-- The settings that are on the scale of the figure of merit: goal, `fatol`, `cbs_change`. -/
def AlgCfg.onScale (cfg : AlgCfg K F) (goal : Option F) (fatol cbsChange : F) : AlgCfg K F :=
  { cfg with userGoal := goal, sc := { cfg.sc with fatol := fatol, cbsChange := cbsChange } }

/-- A sorting function whose result depends only on the order of the values. -/
def OrderOnly {n : ℕ} [LT F] (argsort : (Fin n → F) → Equiv.Perm (Fin n)) : Prop :=
  ∀ f g, (∀ i j, f i < f j ↔ g i < g j) → argsort f = argsort g

/-- `f` is better than the value at which the record starts (10^10 for minimization, -10^10 for maximization). -/
def BelowStart [Neg F] [LT F] (cfg : AlgCfg K F) (f : F) : Prop :=
  if cfg.maximize then -cfg.fomMax < f else f < cfg.fomMax

/-- Nelder-Mead without drift compensation, or CMA-ES, with a sorting function that sees only the order. -/
def ComparesOnly [Field K] [LinearOrder K] [FloorRing K] [Add F] [Sub F] [Mul F] [Div F] [Neg F] [Zero F] [One F] [NatCast F] [LE F]
    [LT F] [DecidableLE F] [DecidableLT F] {n : ℕ} (dsm : Dsm K (Vec K n) F) : Prop :=
  (∃ c fuel, dsm = nelderMead c fuel ∧ c.driftMinutes ≤ 0 ∧ OrderOnly c.argsort) ∨
    ∃ lib p fuel, dsm = cmaes lib p fuel ∧ ∀ L, OrderOnly (lib.argsort (l := L))

/-- Two runs that differ only by the scale of the figure of merit: the same end (or exception), the same calls with rescaled answers,
the same best controls and the same reports up to the figure of merit; for a run that ends normally, the final figure of merit is the
rescaled one, unless both runs have none. -/
structure SameRun {O : Type} [Neg F] (ops : CtlOps O V C) (cfg : AlgCfg K F) (ψ : F → F) (r r' : Py Unit × AlgState V C O F) : Prop where
  ends : r'.1 = r.1
  calls : r'.2.log = r.2.log.map (Call.rescale ψ)
  best : bestControls ops r'.2 = bestControls ops r.2
  reports : r'.2.dumps.map (fun d => (d.ctl, d.isRecord, d.iteration, d.calls)) =
    r.2.dumps.map (fun d => (d.ctl, d.isRecord, d.iteration, d.calls))
  final : r.1 = .ok () → finalFoM cfg r'.2 = ψ (finalFoM cfg r.2) ∨
    (finalFoM cfg r.2 = dirMul cfg.maximize cfg.fomMax ∧ finalFoM cfg r'.2 = dirMul cfg.maximize cfg.fomMax)

end
end QuOCS

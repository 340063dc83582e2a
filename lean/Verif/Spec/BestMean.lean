/-
Vocabulary for the best figure of merit with re-evaluation and drift compensation: a mean over a group of evaluations.
-/
import Verif.Spec.ReEval
import Verif.Spec.Run
import Mathlib.Data.List.ReduceOption

namespace QuOCS
variable {K V C F : Type} [Field F] [LinearOrder F]

/-- What counts for an evaluation of a group: the figure of merit the user's function answered or, for an evaluation that was not made
because the run had been stopped, the placeholder (`1e10`, for a maximization `-1e10`). -/
def Counts (cfg : AlgCfg K F) : Option (Call V C F) → F → Prop
  | some c, f => c.value = some f
  | none, f => f = if cfg.maximize then -cfg.fomMax else cfg.fomMax

/-- `v` is the mean over a group of successive evaluations in the history `log`; all evaluations that were made satisfy `P` and at least
one was made. -/
def MeanOfCalls (cfg : AlgCfg K F) (P : Call V C F → Prop) (log : List (Call V C F)) (v : F) : Prop :=
  ∃ (group : List (Option (Call V C F))) (fs : List F), (∃ c, some c ∈ group) ∧ group.reduceOption <:+: log ∧
    (∀ c, some c ∈ group → P c) ∧ List.Forall₂ (Counts cfg) group fs ∧ v = average fs

end QuOCS

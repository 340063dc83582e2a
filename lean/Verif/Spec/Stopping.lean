/-
Vocabulary for the stopping criteria of one direct search.
-/
import Mathlib.Algebra.Order.Field.Basic
import Verif.Model.Stopping
import Verif.Model.Algorithm
import Verif.Spec.Search
import Verif.Spec.Run

namespace QuOCS

/-- The criteria checked after an iteration of a direct search. -/
inductive Criterion
  | evaluations | simplex | spread | time
  deriving DecidableEq, Repr

/-- The reason reported for a criterion. -/
def Criterion.text : Criterion → String
  | .evaluations => "Exceeded number of allowed function evaluations per direct search."
  | .simplex => "Convergence of the simplex."
  | .spread => "Convergence of the FoM (fatol)."
  | .time => "Optimization time for direct search exceeded limit."

/-- What the criteria look at: number of evaluations of the search, size of the simplex (`none` for a population),
figures of merit in the simplex or population, minutes since the search started. -/
structure Situation (K F : Type) where
  evals : ℕ
  size : Option K
  foms : List F
  minutes : ℚ

section
variable {K F : Type} [LinearOrder K] [Field F] [LinearOrder F]

/-- Square of the standard deviation: mean squared distance from the mean. -/
def spreadSq (f : List F) : F :=
  (f.map (fun x => (x - f.sum / (f.length : F)) ^ 2)).sum / (f.length : F)

/-- Is the criterion met? `sqrt` is the square root used for the standard deviation. -/
def Criterion.Met (sqrt : F → F) (c : ScCfg K F) (s : Situation K F) : Criterion → Prop
  | .evaluations => c.maxEval ≤ (s.evals : ℤ)
  | .simplex => ∃ d, s.size = some d ∧ d ≤ c.xatol
  | .spread => sqrt (spreadSq s.foms) ≤ c.fatol
  | .time => c.timeLim ≤ s.minutes

/-- `sqrt` is a square root, as far as comparisons go. -/
def IsSqrt (sqrt : F → F) : Prop := ∀ x t, 0 ≤ x → (sqrt x ≤ t ↔ 0 ≤ t ∧ x ≤ t ^ 2)

/-- Squared error of the line `i ↦ a * i + b` for the values `f_0, f_1, ...`. -/
def lineError (f : List F) (a b : F) : F := (f.mapIdx (fun i y => (y - (a * (i : F) + b)) ^ 2)).sum

/-- The line `i ↦ a * i + b` is a least-squares line for the values `f_0, f_1, ...`. -/
def IsLeastSquaresLine (f : List F) (a b : F) : Prop := ∀ a' b', lineError f a b ≤ lineError f a' b'

/-- The change-based criterion for the values `t` measured so far in the search: it is switched on, there are at least
`n = cbs_funct_evals` values, and the least-squares line through the last `n` of them changes by less than `cbs_change`
over `n` evaluations. -/
def ChangeMet (c : ScCfg K F) (t : List F) : Prop :=
  1 < c.cbsEvals ∧ c.cbsEvals ≤ (t.length : ℤ) ∧
    ∃ a b, IsLeastSquaresLine (t.drop (t.length - c.cbsEvals.toNat)) a b ∧ |a * (c.cbsEvals.toNat : F)| < c.cbsChange

end

section
variable {K V C O F : Type} [LE K] [DecidableLE K] [Neg F]

/-- The figures of merit of the given calls, as the algorithm sees them. -/
def seenFoMs (cfg : AlgCfg K F) (l : List (Call V C F)) : List F :=
  l.filterMap (fun c => c.value.map (dirMul cfg.maximize))
end

section
variable {K V C O F : Type} [LinearOrder K] [Field F] [LinearOrder F]

/-- The criterion `cr` is met in the situation in which the criteria are checked by the call `o`, made in the state `s`. -/
def MetAt (cfg : AlgCfg K F) (env : Env V C F) (s : AlgState V C O F) (o : Op K V F) (cr : Criterion) : Prop :=
  match o with
  | .checkNM size foms calls =>
      cr.Met env.sqrt cfg.sc ⟨calls, size.toOption, foms, env.clock s.ticks - s.sc.startTime⟩
  | .checkCMA foms calls => cr.Met env.sqrt cfg.sc ⟨calls, none, foms, env.clock s.ticks - s.sc.startTime⟩
  | _ => False

end

end QuOCS

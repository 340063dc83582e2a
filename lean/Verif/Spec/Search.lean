/-
Vocabulary for the properties of search methods: what can be observed of a search method is the sequence of its calls
together with the answers it got.
-/
import Verif.Model.Strat

namespace QuOCS

/-- A call of a search method together with the answer it got. -/
abbrev Ev (K V F : Type) := (o : Op K V F) × o.Res

/-- `Plays m evs m'` : the search method `m` can make the calls `evs` (for some behaviour of the objective, the stopping
criteria, the clock ... giving those answers) and is `m'` from then on. `m' = .ret a` : it has finished with result `a`. -/
inductive Plays {K V F α : Type} : Strat K V F α → List (Ev K V F) → Strat K V F α → Prop
  | nil (m) : Plays m [] m
  | cons (o k r evs m') (h : Plays (k r) evs m') : Plays (.op o k) (⟨o, r⟩ :: evs) m'

section
variable {K V F : Type}

/-- The calls `evs` are answered one after the other by the handler `hd`, leading from the state `s` to `s'`. -/
def Handled {S : Type} (hd : (o : Op K V F) → Prog S o.Res) : S → List (Ev K V F) → S → Prop
  | s, [], s' => s' = s
  | s, ⟨o, r⟩ :: evs, s' => ∃ s1, hd o s = (.ok r, s1) ∧ Handled hd s1 evs s'

/-- the point and the value, if the call is an evaluation of the objective -/
def Ev.evaluated : Ev K V F → Option (V × F)
  | ⟨.eval x _, f⟩ => some (x, f)
  | _ => none

/-- Is it a call of the objective function (an evaluation, or the announcement of a drift-compensated value)? -/
def Ev.isObjective : Ev K V F → Bool
  | ⟨.eval _ _, _⟩ => true
  | ⟨.drift _ _ _, _⟩ => true
  | _ => false

/-- All evaluations of the objective: points and values, in order. -/
def evals (evs : List (Ev K V F)) : List (V × F) := evs.filterMap Ev.evaluated

/-- Number of calls of the objective. -/
def objectiveCalls (evs : List (Ev K V F)) : ℕ := evs.countP Ev.isObjective

/-- The event makes the stopping-criteria object say "converged" from now on: it was seen to say so, the search was told
that the run is stopped, or the Nelder-Mead / CMA-ES criteria were checked with at least `m` evaluations (`m` = maximum
per direct search). -/
def Ev.Converges (m : ℤ) : Ev K V F → Prop
  | ⟨.readConv, b⟩ => b = true
  | ⟨.checkNM _ _ calls, _⟩ => m ≤ (calls : ℤ)
  | ⟨.checkCMA _ calls, _⟩ => m ≤ (calls : ℤ)
  | ⟨.userStop, _⟩ => True
  | _ => False

/-- The stopping-criteria object does its job: after an event that makes it say "converged" it goes on saying so, until
it is reset. -/
def StopLaws (m : ℤ) (evs : List (Ev K V F)) : Prop :=
  ∀ pre t mid r post, evs = pre ++ t :: mid ++ ⟨.readConv, r⟩ :: post → Ev.Converges m t →
    (∀ b, (⟨.setConv b, ()⟩ : Ev K V F) ∉ mid) → r = true

/-- The run counts its evaluations: as long as the callback answers that the run goes on, at most `M` evaluations have
been asked for. -/
def BudgetLaws (M : ℕ) (evs : List (Ev K V F)) : Prop :=
  ∀ pre post, evs = pre ++ ⟨.callback, true⟩ :: post → (evals pre).length ≤ M

/-- The search found itself stopped right after the evaluation number `k + 1` or a later one. -/
def StoppedAfterEval (k : ℕ) (evs : List (Ev K V F)) : Prop :=
  ∃ pre x it f post, evs = pre ++ ⟨.eval x it, f⟩ :: ⟨.readConv, true⟩ :: post ∧ k ≤ objectiveCalls pre

end
end QuOCS

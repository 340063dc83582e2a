/-
Specification for C109: what the lists of a run and the signals to a graphical interface are to contain.
-/
import Verif.Model.Algorithm

namespace QuOCS

variable {V C O F G : Type}

/-- controls and answer of a call -/
def Call.seen (c : Call V C F) : C × Py (Answer F) := (c.ctl, c.ans)

/-- The value of a call of the user's `get_FoM` (given by controls and answer) that counts: the call returned, with a value, and
with status code zero (or none). -/
def usable (c : C × Py (Answer F)) : Option F :=
  match c.2 with
  | .ok a => if a.status.getD 0 = 0 then a.fom else none
  | .error _ => none

/-- the value in the sign of the minimization -/
def inSign [Neg F] (maximize : Bool) (f : F) : F := if maximize then -f else f

/-- what the controls signal carried -/
def Signal.sent? : Signal C F → Option C
  | .controls c => some c
  | .plot _ _ => none

/-- what the plot signal carried -/
def Signal.plotted? : Signal C F → Option (ℕ × F)
  | .controls _ => none
  | .plot n f => some (n, f)

/-- The numbers of the calls (from `k + 1` on) that count. -/
def usableNumbers : ℕ → List (C × Py (Answer F)) → List ℕ
  | _, [] => []
  | k, c :: l => (if (usable c).isSome then [k + 1] else []) ++ usableNumbers (k + 1) l

/-- a signal with the value seen through `g` -/
def Signal.mapValue (g : F → G) : Signal C F → Signal C G
  | .controls c => .controls c
  | .plot n f => .plot n (g f)

/-- The signals for a list of calls, numbered from `k + 1` on: the controls before each call, and number and value after each
call that counts. -/
def signalsOf (sign : F → G) : ℕ → List (C × Py (Answer F)) → List (Signal C G)
  | _, [] => []
  | k, c :: l =>
    [.controls c.1] ++ ((usable c).toList.map fun f => .plot (k + 1) (sign f)) ++
      signalsOf sign (k + 1) l

/-- The calls for values, where `g` lists the positions of the calls for gradients. -/
def valueCalls (g : List ℕ) (log : List (Call V C F)) : List (Call V C F) :=
  (log.zipIdx.filter fun p => p.2 ∉ g).map Prod.fst

end QuOCS

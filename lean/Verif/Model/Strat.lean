/-
Search methods as programs that talk to the optimization algorithm only through the calls a direct-search method has:
the objective function it is given, its stopping-criteria object, the callback and the clock.
A search method is a value of `Strat` (an interaction tree); `interp` runs it against an implementation of the calls.
-/
import Verif.Model.Prog

namespace QuOCS

/-- The calls available to a direct-search method (`DirectSearchMethod.run_dsm`).
* `eval x it` : `func(x, iterations)` (NelderMead.py:93, 106, ...; CMAES.py:137)
* `drift x it v` : `func(x, iterations, v)` (NelderMead.py:196)
* `readConv`, `setConv b` : read / write `self.sc_obj.is_converged`
* `callback` : `self.callback()` (NelderMead.py:204)
* `userStop` : NelderMead.py:205-207, CMAES.py:202-204
* `checkNM`, `checkCMA` : `self.sc_obj.check_stopping_criteria(...)`; `size` is the simplex size computed from `sim`
* `now` : `datetime.now()` in minutes
* `reason` : `self.sc_obj.terminate_reason`
* `fail e` : raise an exception -/
inductive Op (K V F : Type) : Type
  | eval (x : V) (it : ℕ)
  | drift (x : V) (it : ℕ) (v : F)
  | readConv
  | setConv (b : Bool)
  | callback
  | userStop
  | checkNM (size : Py K) (fsim : List F) (calls : ℕ)
  | checkCMA (fsim : List F) (calls : ℕ)
  | now
  | reason
  | fail (e : PyErr)

/-- Type of the answer to a call. -/
@[reducible] def Op.Res {K V F : Type} : Op K V F → Type
  | .eval _ _ => F
  | .drift _ _ _ => F
  | .readConv => Bool
  | .setConv _ => Unit
  | .callback => Bool
  | .userStop => Unit
  | .checkNM _ _ _ => Unit
  | .checkCMA _ _ => Unit
  | .now => ℚ
  | .reason => String
  | .fail _ => Empty

/-- A search method: finished, or a call followed by a continuation for every possible answer. -/
inductive Strat (K V F : Type) (α : Type) : Type
  | ret (a : α)
  | op (o : Op K V F) (k : o.Res → Strat K V F α)

namespace Strat
variable {K V F α β S : Type}

/-- sequencing -/
protected def bind : Strat K V F α → (α → Strat K V F β) → Strat K V F β
  | .ret a, f => f a
  | .op o k, f => .op o (fun r => (k r).bind f)

instance : Monad (Strat K V F) where
  pure := .ret
  bind := Strat.bind

/-- a single call -/
def call (o : Op K V F) : Strat K V F o.Res := .op o .ret

/-- raise an exception -/
def fail (e : PyErr) : Strat K V F α := .op (.fail e) (fun r => nomatch r)

/-- run a computation without calls -/
def lift (x : Py α) : Strat K V F α :=
  match x with
  | .ok a => .ret a
  | .error e => fail e

/-- Running a search method against an implementation `h` of the calls. -/
def interp (h : (o : Op K V F) → Prog S o.Res) : Strat K V F α → Prog S α
  | .ret a => pure a
  | .op o k => (h o) >>= (fun r => interp h (k r))

end Strat
end QuOCS

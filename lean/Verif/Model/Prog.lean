/-
A Python method that reads and writes object attributes and may raise: a function from the object state to a result
(value or exception) and the new state. Attribute changes made before an exception are kept, as in Python.
-/
import Verif.Model.Numpy

namespace QuOCS

/-- Stateful Python computation with exceptions. -/
def Prog (S α : Type) : Type := S → Py α × S

namespace Prog
variable {S α β : Type}

/-- `return a` -/
@[reducible] protected def pure (a : α) : Prog S α := fun s => (.ok a, s)

/-- sequencing; an exception skips the rest -/
@[reducible] protected def bind (m : Prog S α) (f : α → Prog S β) : Prog S β := fun s =>
  match m s with
  | (.ok a, s') => f a s'
  | (.error e, s') => (.error e, s')

instance : Monad (Prog S) where
  pure := Prog.pure
  bind := Prog.bind

/-- read the state -/
def get : Prog S S := fun s => (.ok s, s)
/-- update the state -/
def modify (f : S → S) : Prog S Unit := fun s => (.ok (), f s)
/-- raise an exception -/
def raise (e : PyErr) : Prog S α := fun s => (.error e, s)
/-- run a computation that does not touch the state -/
def lift (x : Py α) : Prog S α := fun s => (x, s)

end Prog
end QuOCS

/-
Model of the few NumPy / Python built-ins that the QuOCS code relies on.

Numbers: Python floats are modelled by an arbitrary linearly ordered field `K` (exact arithmetic).
Arrays: one-dimensional arrays are `List K`; a NumPy scalar that takes part in broadcasting is a list of length one.
Exceptions: Python exceptions are the values of `PyErr`, raised in `Except PyErr`.
-/
import Mathlib.Algebra.Order.Field.Basic
import Mathlib.Algebra.BigOperators.Group.List.Basic
import Mathlib.Algebra.Order.AbsoluteValue.Basic

namespace QuOCS

/-- The Python exception classes that the modelled code can raise; `userError` is any exception raised by the user's
code. `outOfFuel` is not a Python exception: it marks that the observation of a `while` loop was cut off after the given
number of rounds (the loop would go on). -/
inductive PyErr
  | valueError | indexError | typeError | keyError | attributeError | fileExists | zeroDivision
  | notImplemented | unboundLocal | osError | userError | overflowError | outOfFuel
  deriving DecidableEq, Repr

/-- A Python computation: a value or an exception. -/
abbrev Py (α : Type*) := Except PyErr α

section
variable {K : Type*}

/-- `xs[i]` for a non-negative index: `IndexError` beyond the end. -/
def getIdx {α : Type*} (xs : List α) (i : ℕ) : Py α :=
  match xs[i]? with
  | some x => .ok x
  | none => .error .indexError

/-- NumPy binary element-wise operation with broadcasting of one-dimensional arrays
(equal length, or one of the operands has length one, otherwise `ValueError`). -/
def bop (f : K → K → K) (a b : List K) : Py (List K) :=
  if a.length = b.length then .ok (List.zipWith f a b)
  else if a.length = 1 then
    match a with
    | [x] => .ok (b.map (f x))
    | _ => .error .valueError
  else if b.length = 1 then
    match b with
    | [y] => .ok (a.map (fun x => f x y))
    | _ => .error .valueError
  else .error .valueError

/-- NumPy in-place `a += b`: like broadcasting, but the result must have the shape of `a`. -/
def iadd [Add K] (a b : List K) : Py (List K) :=
  if a.length = b.length then .ok (List.zipWith (· + ·) a b)
  else
    match b with
    | [y] => .ok (a.map (fun x => x + y))
    | _ => .error .valueError

/-- `np.zeros(n)`. -/
def zeros [Zero K] (n : ℕ) : List K := List.replicate n 0

/-- `np.amax` : `ValueError` on an empty array. -/
def amax [LinearOrder K] : List K → Py K
  | [] => .error .valueError
  | x :: xs => .ok (xs.foldl max x)

/-- `np.amin` : `ValueError` on an empty array. -/
def amin [LinearOrder K] : List K → Py K
  | [] => .error .valueError
  | x :: xs => .ok (xs.foldl min x)

/-- `np.linspace(0, T, n)`: the empty array for `n = 0`, `[0]` for `n = 1`, otherwise `i * (T/(n-1))`.
(NumPy sets the last sample to `T` explicitly; in exact arithmetic this is the same number.) -/
def linspace0 [Field K] (T : K) (n : ℕ) : List K :=
  (List.range n).map (fun (i : ℕ) => (i : K) * (T / ((n - 1 : ℕ) : K)))

end
end QuOCS

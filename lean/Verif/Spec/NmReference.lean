/-
The published Nelder-Mead method (J. C. Lagarias, J. A. Reeds, M. H. Wright, P. E. Wright, SIAM J. Optim. 9, 112 (1998); with
the parameters of F. Gao, L. Han, Comput. Optim. Appl. 51, 259 (2012)), written from the publication and without reference to
the model of the code: which point is evaluated next, given the values so far.
-/
import Mathlib.Algebra.Field.Basic
import Mathlib.Algebra.BigOperators.Fin
import Mathlib.Algebra.Module.Pi
import Mathlib.Order.Fin.Basic
import Mathlib.Order.Monotone.Defs

namespace QuOCS
namespace NmRef

/-- Factors of reflection, expansion, contraction and shrinking. -/
structure Factors (K : Type) where
  reflection : K
  expansion : K
  contraction : K
  shrinking : K

/-- The usual factors. -/
def usual {K : Type} [Field K] : Factors K := ⟨1, 2, 1 / 2, 1 / 2⟩

/-- The factors of Gao and Han for dimension `n`. -/
def adaptive {K : Type} [Field K] (n : ℕ) : Factors K := ⟨1, 1 + 2 / n, 3 / 4 - 1 / (2 * n), 1 - 1 / n⟩

/-- A vertex: a point and its value. -/
abbrev Vertex (K F : Type) (n : ℕ) := (Fin n → K) × F

/-- The `n + 1` vertices, best one first. -/
abbrev Simplex (K F : Type) (n : ℕ) := Fin (n + 1) → Vertex K F n

section
variable {K F : Type} {n : ℕ} [Field K] (p : Factors K) (S : Simplex K F n)

/-- centroid of the `n` best vertices -/
def centre : Fin n → K := (1 / (n : K)) • ∑ i : Fin n, (S i.castSucc).1

/-- the point on the line from the worst vertex through the centre, `t` times as far beyond the centre -/
def beyond (t : K) : Fin n → K := centre S + t • (centre S - (S (Fin.last n)).1)

/-- reflection -/
def reflected : Fin n → K := beyond S p.reflection

/-- expansion -/
def expanded : Fin n → K := beyond S (p.reflection * p.expansion)

/-- contraction towards the reflected point -/
def outside : Fin n → K := beyond S (p.reflection * p.contraction)

/-- contraction towards the worst vertex -/
def inside : Fin n → K := beyond S (-p.contraction)

/-- vertex `i` moved towards the best vertex -/
def shrunk (i : Fin (n + 1)) : Fin n → K := (S 0).1 + p.shrinking • ((S i).1 - (S 0).1)

/-- value of the best, the second worst and the worst vertex -/
def best : F := (S 0).2

/-- value of the vertex before the worst one -/
def secondWorst : F := (S ⟨n - 1, by omega⟩).2

/-- value of the worst vertex -/
def worst : F := (S (Fin.last n)).2

/-- the worst vertex is replaced -/
def replaceWorst (x : Fin n → K) (f : F) : Simplex K F n := fun i => if i = Fin.last n then (x, f) else S i

/-- What an iteration does next: evaluate a point, or end with these vertices (not yet sorted). -/
inductive Action (K F : Type) (n : ℕ)
  | evaluate (x : Fin n → K)
  | finish (T : Simplex K F n)

/-- Shrinking, when the shrunk vertices `1, ..., fs.length` have the values `fs`. -/
def shrinkStep (fs : List F) : Action K F n :=
  if h : fs.length < n then .evaluate (shrunk p S ⟨fs.length + 1, by omega⟩)
  else .finish (fun i => if h0 : (i : ℕ) = 0 then S 0 else (shrunk p S i, fs[(i : ℕ) - 1]'(by have := i.2; omega)))

/-- The rule: what an iteration with the sorted vertices `S` does, when its evaluations so far gave the values listed. -/
def rule [LT F] [LE F] [DecidableLT F] [DecidableLE F] : List F → Action K F n
  | [] => .evaluate (reflected p S)
  | [fr] =>
    if fr < best S then .evaluate (expanded p S)
    else if fr < secondWorst S then .finish (replaceWorst S (reflected p S) fr)
    else if fr < worst S then .evaluate (outside p S)
    else .evaluate (inside p S)
  | fr :: f :: fs =>
    if fr < best S then
      if f < fr then .finish (replaceWorst S (expanded p S) f) else .finish (replaceWorst S (reflected p S) fr)
    else if fr < worst S then
      if f ≤ fr then .finish (replaceWorst S (outside p S) f) else shrinkStep p S fs
    else
      if f < worst S then .finish (replaceWorst S (inside p S) f) else shrinkStep p S fs

/-- `S` are the vertices `T`, sorted by their values. -/
def SortedOf [LE F] (T S : Simplex K F n) : Prop :=
  (∃ e : Equiv.Perm (Fin (n + 1)), ∀ i, S i = T (e i)) ∧ ∀ i j, i ≤ j → (S i).2 ≤ (S j).2

/-- The correction for a drift of the objective: the best vertex was measured again, with the values `ms`; it gets their mean,
and the values of the others are shifted as much. -/
def corrected [Field F] (ms : List F) : Simplex K F n := fun i =>
  if i = 0 then ((S 0).1, ms.sum / ms.length) else ((S i).1, (S i).2 + (ms.sum / ms.length - (S 0).2))

/-- `Reached p start m l S fs`: the evaluations `l` (points and values, in order) are the ones of the method with start vertices
`start`; it is in an iteration with the sorted vertices `S`, in which the evaluations so far gave the values `fs`. Between
two iterations there may be a correction for a drift, with `m` measurements of the best vertex (`m = none`: never). -/
inductive Reached [Field F] [LinearOrder F] (start : Fin (n + 1) → Fin n → K) (m : Option ℕ) :
    List (Vertex K F n) → Simplex K F n → List F → Prop
  | start {fs : Fin (n + 1) → F} {S : Simplex K F n} (sorted : SortedOf (fun i => (start i, fs i)) S) :
      Reached start m (List.ofFn fun i => (start i, fs i)) S []
  | evaluate {l : List (Vertex K F n)} {S : Simplex K F n} {fs : List F} {x : Fin n → K} (f : F)
      (before : Reached start m l S fs) (asked : rule p S fs = .evaluate x) : Reached start m (l ++ [(x, f)]) S (fs ++ [f])
  | finish {l : List (Vertex K F n)} {S T S' : Simplex K F n} {fs : List F} (before : Reached start m l S fs)
      (done : rule p S fs = .finish T) (sorted : SortedOf T S') : Reached start m l S' []
  | drift {l : List (Vertex K F n)} {S : Simplex K F n} {ms : List F} (before : Reached start m l S [])
      (number : m = some ms.length) :
      Reached start m (l ++ ms.map fun f => ((S 0).1, f)) (corrected S ms) []

/-- The method evaluates `x` next, after the evaluations `l`: a start vertex; or what the rule asks for; or the best vertex
again, in a correction for a drift. -/
inductive Asks [Field F] [LinearOrder F] (start : Fin (n + 1) → Fin n → K) (m : Option ℕ) (l : List (Vertex K F n))
    (x : Fin n → K) : Prop
  | start (k : Fin (n + 1)) (fs : Fin (n + 1) → F) (before : l = (List.ofFn fun i => (start i, fs i)).take k) (here : x = start k)
  | rule (S : Simplex K F n) (fs : List F) (before : Reached p start m l S fs) (asked : rule p S fs = .evaluate x)
  | drift (l0 : List (Vertex K F n)) (S : Simplex K F n) (ms : List F) (k : ℕ) (before : Reached p start m l0 S [])
      (measured : l = l0 ++ ms.map fun f => ((S 0).1, f)) (more : m = some k ∧ ms.length < k) (here : x = (S 0).1)

end
end NmRef
end QuOCS

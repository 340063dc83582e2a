/-
Vocabulary for the partial trace, independent of the model.
-/
import Mathlib.Data.List.Basic
import Mathlib.Data.List.Forall2

namespace QuOCS

/-- `x` is an index list for the dimensions `dims`. -/
def IsIndex (x dims : List ℕ) : Prop := List.Forall₂ (· < ·) x dims

/-- All index lists for the dimensions. -/
def indices : List ℕ → List (List ℕ)
  | [] => [[]]
  | d :: ds => (List.range d).flatMap fun c => (indices ds).map (c :: ·)

/-- The subsystems of `N` that are not traced over. -/
def kept (pos : List ℕ) (N : ℕ) : List ℕ := (List.range N).filter fun i => i ∉ pos

/-- The index list of the whole system that has the indices `c` at the positions traced over and the indices `x` at the
other positions. -/
def combine (pos : List ℕ) (N : ℕ) (x c : List ℕ) : List ℕ :=
  (List.range N).map fun p => if p ∈ pos then c.getD (pos.idxOf p) 0 else x.getD ((kept pos N).idxOf p) 0

/-- Number of the basis state of a composite system: the index list read as a number with mixed radix. -/
def basisState : List ℕ → List ℕ → ℕ
  | _ :: ds, i :: is => i * ds.prod + basisState ds is
  | _, _ => 0

end QuOCS

/-
Vocabulary for the properties of the time evolution, independent of the model.
-/
import Mathlib.Data.Complex.Basic
import Mathlib.LinearAlgebra.Matrix.ConjTranspose
import Mathlib.LinearAlgebra.Matrix.Trace

namespace QuOCS
open Matrix

section
variable {d : ℕ}

/-- The amplitude array has a row for each of `K` controls and at least `n` columns. -/
def HasShape (drive : List (List ℂ)) (K n : ℕ) : Prop := ∀ k < K, ∃ row, drive[k]? = some row ∧ n ≤ row.length

/-- The amplitude of control `k` in slice `i`. -/
def amplitude (drive : List (List ℂ)) (k i : ℕ) : ℂ := (drive.getD k []).getD i 0

/-- The Hamiltonian `A + Σ_k u_k(i) B_k` of slice `i`. -/
def hamiltonian (drive : List (List ℂ)) (A : Matrix (Fin d) (Fin d) ℂ) (B : List (Matrix (Fin d) (Fin d) ℂ)) (i : ℕ) :
    Matrix (Fin d) (Fin d) ℂ :=
  A + ∑ k : Fin B.length, amplitude drive k i • B[k]

/-- The evolution over the slices `0, .., n - 1` with propagators `P`: later propagators act from the left. -/
def ordered (P : ℕ → Matrix (Fin d) (Fin d) ℂ) : ℕ → Matrix (Fin d) (Fin d) ℂ
  | 0 => 1
  | n + 1 => P n * ordered P n

/-- The amplitudes of all controls are real in the first `n` slices. -/
def RealDrive (drive : List (List ℂ)) (K n : ℕ) : Prop := ∀ k < K, ∀ i < n, star (amplitude drive k i) = amplitude drive k i

end
end QuOCS

/-
Vocabulary for the properties of the Ising problem, independent of the model.
-/
import Mathlib.Analysis.Complex.Basic
import Verif.Spec.Problems
import Mathlib.Algebra.BigOperators.Group.Finset.Basic

namespace QuOCS

/-- The value (0 or 1) of qubit `j` in the basis state number `x` of `n` qubits; qubit 0 is the most significant one. -/
def qubit (n x j : ℕ) : ℕ := x / 2 ^ (n - 1 - j) % 2

/-- The spin of qubit `j`: 1 for the value 0, -1 for the value 1. -/
def spin (n x j : ℕ) : ℝ := if qubit n x j = 0 then 1 else -1

/-- The energy of a ring of `n` spins with couplings `J` of neighbours and `g` of next-nearest neighbours. -/
def ringEnergy (n : ℕ) (J g : ℝ) (x : ℕ) : ℝ :=
  -J * ∑ j ∈ Finset.range n, spin n x j * spin n x ((j + 1) % n) -
    g * ∑ j ∈ Finset.range n, spin n x j * spin n x ((j + 2) % n)

/-- The number of qubits with different values in the basis states `x` and `y`. -/
def flips (n x y : ℕ) : ℕ := ((Finset.range n).filter fun j => qubit n x j ≠ qubit n y j).card

/-- The state of `n` qubits in which all of them have the value 0. -/
def allUp (n : ℕ) : Fin (2 ^ n) → ℂ := fun x => if ∀ j < n, qubit n x j = 0 then 1 else 0

/-- The state of `n` qubits in which all of them have the value 1. -/
def allDown (n : ℕ) : Fin (2 ^ n) → ℂ := fun x => if ∀ j < n, qubit n x j = 1 then 1 else 0

/-- The evolution under the Hamiltonian `H + u(i) B` in slice `i`, for `n` slices of length `dt`; later slices act from the
left. -/
noncomputable def drivenPropagator {d : ℕ} (H B : Matrix (Fin d) (Fin d) ℂ) (u : List ℝ) (dt : ℝ) (n : ℕ) :
    Matrix (Fin d) (Fin d) ℂ :=
  ordered (fun i => stepPropagator dt (H + ((u.getD i 0 : ℝ) : ℂ) • B)) n

end QuOCS

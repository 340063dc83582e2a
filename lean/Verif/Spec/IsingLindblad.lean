/-
Specification of the ring of spins with dephasing: the differential equation and its solutions.
-/
import Verif.Spec.Lindblad
import Verif.Spec.Ising
import Verif.Spec.Tools
import Mathlib.Analysis.Calculus.Deriv.Basic

namespace QuOCS
open Matrix Set

/-- `rho` solves the differential equation `rho' = rhs rho t` on `[0, T]` and starts at `rho0`. The right-hand side may jump at finitely many times:
the derivative is the one from the right. -/
structure SolvesOn {d : ℕ} (rhs : Matrix (Fin d) (Fin d) ℂ → ℝ → Matrix (Fin d) (Fin d) ℂ) (rho0 : Matrix (Fin d) (Fin d) ℂ) (T : ℝ)
    (rho : ℝ → Matrix (Fin d) (Fin d) ℂ) : Prop where
  start : rho 0 = rho0
  cont : ∀ i j, ContinuousOn (fun t => rho t i j) (Icc 0 T)
  deriv : ∀ t ∈ Ico 0 T, ∀ i j, HasDerivWithinAt (fun t => rho t i j) (rhs (rho t) t i j) (Ici t) t

/-- A solver of differential equations without error: where the equation has a solution up to the last time of the grid, it returns the values of a
solution at the times of the grid. -/
def ExactSolver {d : ℕ} {ε : Type} (solve : (Matrix (Fin d) (Fin d) ℂ → ℝ → Matrix (Fin d) (Fin d) ℂ) → Matrix (Fin d) (Fin d) ℂ → List ℝ →
    Except ε (List (Matrix (Fin d) (Fin d) ℂ))) : Prop :=
  ∀ rhs rho0 grid, (∃ rho, SolvesOn rhs rho0 (grid.getLastD 0) rho) →
    ∃ rho, SolvesOn rhs rho0 (grid.getLastD 0) rho ∧ solve rhs rho0 grid = .ok (grid.map rho)

/-- The ring of spins 1/2 with couplings of neighbours and next-nearest neighbours, each spin driven along x with amplitude `u`. -/
noncomputable def drivenRing (n : ℕ) (J g u : ℝ) : Matrix (Fin (2 ^ n)) (Fin (2 ^ n)) ℂ :=
  Matrix.diagonal (fun x : Fin (2 ^ n) => ((ringEnergy n J g x / 4 : ℝ) : ℂ)) +
    (u : ℂ) • Matrix.of fun x y : Fin (2 ^ n) => if flips n x y = 1 then (1 / 2 : ℂ) else 0

/-- Dephasing of all spins together: the square root of the rate times the total spin along z. -/
noncomputable def totalSpin (n : ℕ) (gamma : ℝ) : Matrix (Fin (2 ^ n)) (Fin (2 ^ n)) ℂ :=
  Matrix.diagonal fun x : Fin (2 ^ n) => ((Real.sqrt gamma * ∑ j ∈ Finset.range n, spin n x j / 2 : ℝ) : ℂ)

/-- The value at time `t` of a pulse whose sample number `k` acts from the time `k` of the grid `0, ..., T` on. -/
noncomputable def heldPulse (pulse : List ℝ) (T t : ℝ) : ℝ := pulse.getD ⌊t / (T / (pulse.length - 1))⌋₊ 0

/-- The probability to find a system with density matrix `rho` in the state `psi`. -/
noncomputable def population {d : ℕ} (rho : Matrix (Fin d) (Fin d) ℂ) (psi : Fin d → ℂ) : ℝ := (star psi ⬝ᵥ (rho *ᵥ psi)).re

end QuOCS

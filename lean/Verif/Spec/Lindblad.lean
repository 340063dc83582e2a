/-
Vocabulary for open quantum systems, independent of the model.
-/
import Verif.Spec.Problems

namespace QuOCS
open Matrix

/-- The right-hand side of the Lindblad equation with Hamiltonian `H` and one jump operator `L`. -/
noncomputable def lindbladRhs {d : ℕ} (H L rho : Matrix (Fin d) (Fin d) ℂ) : Matrix (Fin d) (Fin d) ℂ :=
  -Complex.I • (H * rho - rho * H) + (L * rho * Lᴴ - (1 / 2 : ℂ) • (Lᴴ * L * rho + rho * (Lᴴ * L)))

/-- A qubit with level splitting `E`, driven along x with amplitude `u`. -/
def drivenQubit (E u : ℝ) : Matrix (Fin 2) (Fin 2) ℂ := !![(E : ℂ), (u : ℂ); (u : ℂ), 0]

/-- Decay to the state 0 with rate `gamma`. -/
noncomputable def decayOperator (gamma : ℝ) : Matrix (Fin 2) (Fin 2) ℂ := !![0, ((Real.sqrt gamma : ℝ) : ℂ); 0, 0]

end QuOCS

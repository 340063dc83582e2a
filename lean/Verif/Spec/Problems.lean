/-
Vocabulary for the properties of the example problems, independent of the model.
-/
import Verif.Spec.TimeEvolution
import Mathlib.Analysis.Normed.Algebra.MatrixExponential
import Mathlib.Analysis.SpecialFunctions.Exp
import Mathlib.Analysis.Complex.Norm
import Mathlib.LinearAlgebra.Matrix.Notation
import Mathlib.LinearAlgebra.Matrix.PosDef

namespace QuOCS
open Matrix

/-- A state vector of norm one. -/
def IsUnitKet {d : ℕ} (psi : Fin d → ℂ) : Prop := ∑ i, ‖psi i‖ ^ 2 = 1

/-- The probability `|⟨psi|phi⟩|²` to find `psi` in the state `phi`. -/
noncomputable def transition {d : ℕ} (psi phi : Fin d → ℂ) : ℝ := ‖∑ i, star (psi i) * phi i‖ ^ 2

/-- The density matrix of the state vector `psi`. -/
def pureState {d : ℕ} (psi : Fin d → ℂ) : Matrix (Fin d) (Fin d) ℂ := Matrix.vecMulVec psi (star psi)

/-- Two state vectors describe the same state: they differ by a phase. -/
def SameState {d : ℕ} (psi phi : Fin d → ℂ) : Prop := ∃ c : ℂ, ‖c‖ = 1 ∧ phi = c • psi

/-- The propagator of a step of length `dt` with Hamiltonian `H`. -/
noncomputable def stepPropagator {d : ℕ} (dt : ℝ) (H : Matrix (Fin d) (Fin d) ℂ) : Matrix (Fin d) (Fin d) ℂ :=
  NormedSpace.exp ((-Complex.I * dt) • H)

/-- A qubit with detuning `delta1`, driven along x with amplitude `a` and an error `delta2` of the amplitude. -/
noncomputable def qubitHamiltonian (a delta1 delta2 : ℝ) : Matrix (Fin 2) (Fin 2) ℂ :=
  !![(delta1 / 2 : ℝ), ((a + delta2) / 2 : ℝ); ((a + delta2) / 2 : ℝ), (-(delta1 / 2) : ℝ)]

/-- A qubit with detuning `delta1`, driven in the direction `phi` of the x-y plane with amplitude `a` and a relative error
`delta2` of the amplitude. -/
noncomputable def qubitHamiltonian2 (a phi delta1 delta2 : ℝ) : Matrix (Fin 2) (Fin 2) ℂ :=
  !![((delta1 / 2 : ℝ) : ℂ), ((a * (1 + delta2) : ℝ) : ℂ) * Complex.exp (-(phi * Complex.I));
     ((a * (1 + delta2) : ℝ) : ℂ) * Complex.exp (phi * Complex.I), ((-(delta1 / 2) : ℝ) : ℂ)]

open scoped ComplexOrder in
/-- `sqrtm` computes the positive semidefinite square root of every positive semidefinite matrix. -/
def IsSqrtm {d : ℕ} (sqrtm : Matrix (Fin d) (Fin d) ℂ → Matrix (Fin d) (Fin d) ℂ) : Prop :=
  ∀ A, A.PosSemidef → (sqrtm A).PosSemidef ∧ sqrtm A * sqrtm A = A

end QuOCS

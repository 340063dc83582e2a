/-
Specification of the tool functions: fidelities of density matrices, noise, resampling.
-/
import Verif.Spec.Problems
import Mathlib.Analysis.Matrix.Order
import Mathlib.LinearAlgebra.Matrix.Charpoly.Basic
import Mathlib.Algebra.Polynomial.Roots
import Mathlib.Probability.Distributions.Gaussian.Real
import Mathlib.Probability.Independence.Basic
import Mathlib.Probability.HasLaw
import Mathlib.Probability.Moments.Covariance

namespace QuOCS
open Matrix
open scoped ComplexOrder MatrixOrder

/-- `eigh` diagonalizes Hermitian matrices with orthonormal eigenvectors. -/
def IsEigh {d : ℕ} (eigh : Matrix (Fin d) (Fin d) ℂ → (Fin d → ℝ) × Matrix (Fin d) (Fin d) ℂ) : Prop :=
  ∀ a, aᴴ = a → (eigh a).2ᴴ * (eigh a).2 = 1 ∧ a * (eigh a).2 = (eigh a).2 * Matrix.diagonal fun i => ((eigh a).1 i : ℂ)

/-- `eigvals` returns the roots of the characteristic polynomial, with multiplicities, in any order. -/
def IsEigvals {d : ℕ} (eigvals : Matrix (Fin d) (Fin d) ℂ → List ℂ) : Prop :=
  ∀ a, (↑(eigvals a) : Multiset ℂ) = a.charpoly.roots

/-- A density matrix: positive semidefinite with trace one. -/
def IsDensity {d : ℕ} (rho : Matrix (Fin d) (Fin d) ℂ) : Prop := rho.PosSemidef ∧ rho.trace = 1

/-- The Uhlmann fidelity `(tr √(√a b √a))²` of two positive semidefinite matrices. -/
noncomputable def uhlmann {d : ℕ} (a b : Matrix (Fin d) (Fin d) ℂ) : ℝ :=
  (CFC.sqrt (CFC.sqrt a * b * CFC.sqrt a)).trace.re ^ 2

/-- What a generator of standard normal numbers promises: independent numbers with mean zero and variance one, normally
distributed. -/
def StandardNormals {Ω : Type*} [MeasurableSpace Ω] (P : MeasureTheory.Measure Ω) (r : ℕ → Ω → ℝ) : Prop :=
  (∀ j, ProbabilityTheory.HasLaw (r j) (ProbabilityTheory.gaussianReal 0 1) P) ∧ ProbabilityTheory.iIndepFun r P

/-- Covariance of the Ornstein-Uhlenbeck process with correlation time `tau` and diffusion constant `c`, started at a fixed
value, at the times `s` and `t`. -/
noncomputable def ouCovariance (tau c s t : ℝ) : ℝ := c * tau / 2 * (Real.exp (-|t - s| / tau) - Real.exp (-(t + s) / tau))

/-- Mean of the process at the time `t`. -/
noncomputable def ouMean (tau x0 t : ℝ) : ℝ := x0 * Real.exp (-t / tau)

/-- `v` is the value of a sample that is nearest in time to `t`, if sample `k` is taken at the time `k dt`. -/
def IsNearestSample (dt : ℝ) (pulse : List ℝ) (t v : ℝ) : Prop :=
  ∃ k : ℕ, pulse[k]? = some v ∧ ∀ j < pulse.length, |t - k * dt| ≤ |t - j * dt|

end QuOCS

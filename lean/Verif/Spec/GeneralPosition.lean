/-
Random draws: general position, and the distribution of independent standard normal draws.
-/
import Mathlib.Probability.ProductMeasure
import Mathlib.Probability.Distributions.Gaussian.Real
import Mathlib.LinearAlgebra.LinearIndependent.Defs

namespace QuOCS
open MeasureTheory ProbabilityTheory

/-- A sequence of vectors of dimension `n` is in general position: any `n` of them are linearly independent. -/
def InGeneralPosition {n : ℕ} (z : ℕ → Fin n → ℝ) : Prop :=
  ∀ s : Fin n → ℕ, Function.Injective s → LinearIndependent ℝ fun i => z (s i)

/-- The standard normal distribution in `n` dimensions: independent standard normal components. -/
noncomputable def stdNormal (n : ℕ) : Measure (Fin n → ℝ) := Measure.pi fun _ => gaussianReal 0 1

/-- Infinitely many independent draws from the standard normal distribution in `n` dimensions. -/
noncomputable def stdNormalDraws (n : ℕ) : Measure (ℕ → Fin n → ℝ) := Measure.infinitePi fun _ => stdNormal n

instance (n : ℕ) : IsProbabilityMeasure (stdNormal n) := by unfold stdNormal; infer_instance

instance (n : ℕ) : IsProbabilityMeasure (stdNormalDraws n) := by unfold stdNormalDraws; infer_instance

end QuOCS

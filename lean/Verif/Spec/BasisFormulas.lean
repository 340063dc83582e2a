import Verif.Model.Pulse
import Mathlib.Analysis.SpecialFunctions.Trigonometric.Sinc
import Mathlib.Analysis.SpecialFunctions.Trigonometric.Inverse
import Mathlib.Analysis.SpecialFunctions.Gaussian.GaussianIntegral
import Mathlib.MeasureTheory.Integral.IntervalIntegral.Basic

/-!
# The documented formulas of the bases

The table "Bases Overview" of Documentation/Settings_in_Optimization_Dict.md:302-308, with the functions of real analysis.
-/
namespace QuOCS
open Finset

/-- The error function. -/
noncomputable def errorFn (x : ℝ) : ℝ := 2 / √Real.pi * ∫ t in (0 : ℝ)..x, Real.exp (-t ^ 2)

/-- The functions and constants of NumPy and SciPy are those of real analysis. -/
structure MathFns.Standard (M : MathFns ℝ) : Prop where
  sin : M.sin = Real.sin
  cos : M.cos = Real.cos
  arccos : M.arccos = Real.arccos
  erf : M.erf = errorFn
  pi : M.pi = Real.pi
  sqrt2 : M.sqrt2 = √2

/-- The time of sample `j` of a pulse of duration `T` with `b` samples: equidistant, from `0` to `T`. -/
noncomputable def sampleTime (T : ℝ) (b j : ℕ) : ℝ := j * (T / ((b - 1 : ℕ) : ℝ))

/-- Fourier: `A_i sin(2π ω_i t/t_f) + B_i cos(2π ω_i t/t_f)` (:304). -/
noncomputable def docFourier (n : ℕ) (A B ω : ℕ → ℝ) (tf t : ℝ) : ℝ :=
  ∑ i ∈ range n, (A i * Real.sin (2 * Real.pi * ω i * t / tf) + B i * Real.cos (2 * Real.pi * ω i * t / tf))

/-- Sigmoid: one step `A ½ (1 + erf((t-τ)/(√2 σ)))` (:305). -/
noncomputable def docStep (A τ σ t : ℝ) : ℝ := A * (1 / 2) * (1 + errorFn ((t - τ) / (√2 * σ)))

/-- Chebyshev: `A_i cos(ω_i arccos(-1 + 2t/t_f) + B_i)` (:307). -/
noncomputable def docChebyshev (n : ℕ) (A B ω : ℕ → ℝ) (tf t : ℝ) : ℝ :=
  ∑ i ∈ range n, A i * Real.cos (ω i * Real.arccos (-1 + 2 * t / tf) + B i)

/-- Sinc: `A_i sinc(2π ω_max (t - t_i)/t_f)` (:308). -/
noncomputable def docSinc (n : ℕ) (A τ : ℕ → ℝ) (ωmax tf t : ℝ) : ℝ :=
  ∑ i ∈ range n, A i * Real.sinc (2 * Real.pi * ωmax * (t - τ i) / tf)

end QuOCS

import Verif.Spec.BasisFormulas

/-!
# Update pulses made of steps

The sigmoid bases with optimized step times and step widths: SigmoidTimeDep, SigmoidSigmas and SigmoidAllParas.
-/
namespace QuOCS
open Finset

/-- The value at time `t` of a pulse made of steps: the first of size `A 0` at `offset`, then one of size `A (i+1)` and width `s i` at
every time `τ i`, and, if `closing`, a last one at `T - offset` which undoes all the others. -/
noncomputable def stepsAt (n : ℕ) (A τ s : ℕ → ℝ) (closing : Prop) [Decidable closing] (offset σ T t : ℝ) : ℝ :=
  docStep (A 0) offset σ t + ∑ i ∈ range n, docStep (A (i + 1)) (τ i) (s i) t +
    if closing then docStep (-∑ i ∈ range (n + 1), A i) (T - offset) σ t else 0

/-- The step times used instead of the wanted ones: the same if they are all between `offset` and `T - offset`; if that interval is not
empty, then they lie in it in any case and have the order of the wanted ones. -/
structure MovedInside (n : ℕ) (offset T : ℝ) (wanted used : ℕ → ℝ) : Prop where
  same : (∀ i < n, offset ≤ wanted i ∧ wanted i ≤ T - offset) → ∀ i < n, used i = wanted i
  inside : offset ≤ T - offset → ∀ i < n, offset ≤ used i ∧ used i ≤ T - offset
  order : offset ≤ T - offset → ∀ i < n, ∀ j < n, wanted i ≤ wanted j → used i ≤ used j

/-- The width of a step at time `τ` for the variation `δ`. With a noticeable offset it goes back and forth between `σ` and the width
for which the nearer end of the pulse is as many widths away as `offset` is for the first step. -/
noncomputable def stepWidth (offset σ T τ δ : ℝ) : ℝ :=
  if 1 / 10 ^ 10 ≤ offset then σ + (σ * min τ (T - τ) / offset - σ) * ((1 - Real.cos (Real.pi * δ)) / 2) else σ + δ

end QuOCS

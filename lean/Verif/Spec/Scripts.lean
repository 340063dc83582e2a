/-
Vocabulary for the scripts in `Examples/`.
-/
import Verif.Spec.Program
import Mathlib.Data.Real.Basic

namespace QuOCS

/-- A list of `n` samples between `-A` and `A` with a list of `n` equidistant times from zero to `T`. -/
structure SamplesOn (n : ℕ) (A T : ℚ) (u t : List ℚ) : Prop where
  number : u.length = n
  range : ∀ x ∈ u, -A ≤ x ∧ x ≤ A
  times : t.length = n
  grid : ∀ k < n, t[k]? = some (k * (T / (n - 1 : ℕ)))

/-- Controls of one pulse with `n` samples between `-A` and `A`, on `n` equidistant times from zero to `T`. -/
def OnePulse (n : ℕ) (A T : ℚ) (c : ControlsOut ℚ) : Prop :=
  ∃ u t, c = ⟨[u], [t], []⟩ ∧ SamplesOn n A T u t

/-- Controls of two such pulses. -/
def TwoPulses (n : ℕ) (A T : ℚ) (c : ControlsOut ℚ) : Prop :=
  ∃ u v t s, c = ⟨[u, v], [t, s], []⟩ ∧ SamplesOn n A T u t ∧ SamplesOn n A T v s

/-- Samples as real numbers. -/
def inReals (l : List (List ℚ)) : List (List ℝ) := l.map fun u => u.map fun (x : ℚ) => (x : ℝ)

end QuOCS

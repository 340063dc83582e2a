/-
Model of the part of `src/quocslib/optimizationalgorithms/GRAPEAlgorithm.py` that connects the gradient with the controls
object.
-/
import Verif.Model.Controls
import Verif.Model.TimeEvolution

namespace QuOCS

section
variable {d : ℕ}

/-- `n_slices` (GRAPEAlgorithm.py:95): the number of bins of the first pulse, `IndexError` without pulses. -/
def grapeSlices {K : Type} (c : Controls K) : Py ℕ := getIdx c.pulses 0 >>= fun p => .ok p.binsNumber

/-- `get_gradient` (GRAPEAlgorithm.py:135-184) from the search vector: the controls are built (line 143), the user's
propagator function is called with them (line 145, `prop`), the time grid of the first pulse (line 151) and the storages of
the object give the gradient. Simplification: one control Hamiltonian given as a matrix, as for `grapeGradient`. -/
noncomputable def grapeGetGradient (M : MathFns ℝ) (prop : ControlsOut ℝ → Py (List (CMat d))) (cast : CMat d → CMat d)
    (transfer : Bool) (B : CMat d) (n : ℕ) (c : Controls ℝ) (rho corho : List (CMat d)) (x : List ℝ) :
    Py (List ℝ × Controls ℝ × List (CMat d) × List (CMat d)) :=
  c.getControls M x >>= fun r =>
  prop r.2 >>= fun U =>
  getIdx r.2.timegrids 0 >>= fun tg =>
  grapeGradient cast transfer tg B n U rho corho >>= fun g => .ok (g.1, r.1, g.2)

end
end QuOCS

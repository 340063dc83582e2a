/-
Specification of the examples with a ring of spins: the evolution of the ring and the coupling of each call.
-/
import Verif.Spec.IsingLindblad

namespace QuOCS

/-- The evolution of the driven ring of spins 1/2 under a pulse with `m` slices of length `dt`; later slices act from the left. -/
noncomputable def ringPropagator (n : ℕ) (J g : ℝ) (u : List ℝ) (dt : ℝ) (m : ℕ) : Matrix (Fin (2 ^ n)) (Fin (2 ^ n)) ℂ :=
  ordered (fun i => stepPropagator dt (drivenRing n J g (u.getD i 0))) m

/-- The coupling that varies by at most half of `width` to each side, for the uniform random number `r`. -/
noncomputable def noisyCoupling (g width r : ℝ) : ℝ := g + width * (1 / 2 - r)

end QuOCS

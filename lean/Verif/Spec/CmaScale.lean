/-
What the numerical library has to do for CMA-ES to follow a change of unit.
-/
import Verif.Model.CMAES

namespace QuOCS

section
variable {K F : Type} [Field K]

/-- In a unit `β` times as large, the square root and the eigenvalue decomposition of the library give what they give, in that unit: variances are
multiplied with the square of the factor, the eigenvectors are the same. -/
structure CmaLib.Scales (lib : CmaLib K F) (β : K) (n : ℕ) : Prop where
  sqrt : ∀ y, lib.sqrt (β ^ 2 * y) = β * lib.sqrt y
  eigh : ∀ C : Matrix (Fin n) (Fin n) K, lib.eigh (β ^ 2 • C) = (β ^ 2 • (lib.eigh C).1, (lib.eigh C).2)

end
end QuOCS

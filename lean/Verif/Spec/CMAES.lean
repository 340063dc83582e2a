/-
Vocabulary for the properties of the CMA-ES search.
-/
import Verif.Spec.Search
import Verif.Model.CMAES
import Mathlib.Analysis.SpecialFunctions.Log.Basic
import Mathlib.LinearAlgebra.Matrix.Symmetric
import Mathlib.LinearAlgebra.Matrix.Determinant.Basic

namespace QuOCS
variable {K V F : Type}

/-- `np.argsort` sorts: the reordered values are ascending. -/
def CmaLib.Sorts [LinearOrder F] (lib : CmaLib K F) : Prop :=
  ∀ (l : ℕ) (f : Fin l → F), Monotone (f ∘ lib.argsort f)

/-- The last `L` evaluations: points and values. -/
def lastEvals (L : ℕ) (evs : List (Ev K V F)) : List (V × F) := (evals evs).drop ((evals evs).length - L)

/-- The functions of the library do what their names say (exact real arithmetic). -/
structure CmaLib.Genuine (lib : CmaLib ℝ F) : Prop where
  log : lib.log = Real.log
  sqrt : lib.sqrt = Real.sqrt
  exp : lib.exp = Real.exp
  /-- `eigh` returns an orthogonal matrix of eigenvectors of a symmetric matrix -/
  eigh : ∀ {n : ℕ} (C : Matrix (Fin n) (Fin n) ℝ), C.IsSymm →
    (lib.eigh C).2 * (Matrix.diagonal (lib.eigh C).1 * (lib.eigh C).2.transpose) = C ∧
      (lib.eigh C).2.transpose * (lib.eigh C).2 = 1

/-- The centre of generation `g` (counted from 0): the start point in the first generation, later the weighted mean of
the best half of the generation before (`pts` are all points evaluated so far with their values). -/
def IsCentre {n : ℕ} (L : ℕ) (x0 : Vec ℝ n) [LE F] (pts : List (Vec ℝ n × F)) (g : ℕ) (centre : Vec ℝ n) : Prop :=
  (g = 0 ∧ centre = x0) ∨
  (0 < g ∧ ∃ sel : Fin (L / 2) → Fin L, Function.Injective sel ∧ ∃ pt : Fin L → Vec ℝ n × F,
    (∀ k : Fin L, pts[L * (g - 1) + (k : ℕ)]? = some (pt k)) ∧
    (∀ i j, i ≤ j → (pt (sel i)).2 ≤ (pt (sel j)).2) ∧
    (∀ k, k ∉ Set.range sel → ∀ i, (pt (sel i)).2 ≤ (pt k).2) ∧
    centre = ∑ i, cmaWeights Real.log (L / 2) i • (pt (sel i)).1)

/-- A point `x` evaluated after the points `pts`: the first one is the start point, every other one is a centre plus a
linear image of a standard normal random vector, and the linear map is invertible (the normal distribution has full
rank: no direction of the search space is lost). -/
def Drawn {n : ℕ} [LE F] (lib : CmaLib ℝ F) (L : ℕ) (x0 : Vec ℝ n) (pts : List (Vec ℝ n × F)) (x : Vec ℝ n) : Prop :=
  (pts = [] ∧ x = x0) ∨ (pts ≠ [] ∧ ∃ (centre : Vec ℝ n) (sigma : ℝ) (A : Matrix (Fin n) (Fin n) ℝ),
    IsCentre L x0 pts (pts.length / L) centre ∧ 0 < sigma ∧ A.det ≠ 0 ∧
      x = centre + sigma • A.mulVec (lib.randn pts.length))

end QuOCS

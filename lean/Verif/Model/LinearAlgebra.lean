/-
Model of `tools/linearalgebra.py`.

A matrix of shape `(m, n)` is a `Matrix (Fin m) (Fin n) K`; real and complex numbers are exact (a field `K`), the square
root is a parameter.
-/
import Mathlib.Data.Matrix.Mul
import Mathlib.LinearAlgebra.Matrix.Kronecker
import Mathlib.LinearAlgebra.Matrix.ConjTranspose
import Verif.Model.CMAES

namespace QuOCS
open Matrix

section
variable {K : Type} {n : ℕ} [Field K]

/-- `commutator` (linearalgebra.py:21-29). -/
def commutator (A B : Matrix (Fin n) (Fin n) K) : Matrix (Fin n) (Fin n) K := A * B - B * A

/-- Inner loop of `gram_schmidt` (linearalgebra.py:45-47): subtract from `v` its projections onto the columns `us`, one
after the other. -/
def gsProject (sqrt : K → K) (us : List (Vec K n)) (v : Vec K n) : Vec K n :=
  us.foldl (fun v u => v - ((u ⬝ᵥ v) / vecNorm sqrt u ^ 2) • u) v

/-- `gram_schmidt` (linearalgebra.py:32-49): `done` are the columns that are finished already, the other argument are
the columns still to be treated. -/
def gramSchmidt (sqrt : K → K) (done : List (Vec K n)) : List (Vec K n) → List (Vec K n)
  | [] => done
  | v :: vs =>
      let w := gsProject sqrt done v
      gramSchmidt sqrt (done ++ [(vecNorm sqrt w)⁻¹ • w]) vs

/-- Row `i` of `simplex_matrix` after the random numbers were added to the first row (linearalgebra.py:69-76). -/
def simplexRow (sqrt : K → K) (r : Vec K n) (i : Fin n) : Vec K n :=
  Pi.single i 1 + if (i : ℕ) = 0 then fun j => sqrt 3 * (r j - 1 / 2) * 2 else 0

/-- The columns of `simplex_matrix_orthonormal` (linearalgebra.py:78): the columns of the transposed matrix are the rows. -/
def simplexColumns (sqrt : K → K) (r : Vec K n) : List (Vec K n) :=
  gramSchmidt sqrt [] ((List.finRange n).map (simplexRow sqrt r))

/-- `simplex_creation` (linearalgebra.py:52-87) with the random numbers `r`; for no control parameter at all the first
row of the matrix does not exist. Line 80 multiplies column `j` by `sigma j`, line 82 puts a row of zeros in front, line
86 adds the mean value to every row. -/
def simplexCreation (sqrt : K → K) (mean sigma r : Vec K n) : Py (List (Vec K n)) :=
  if n = 0 then .error .indexError
  else .ok ((fun j => 0 + mean j) ::
    (List.finRange n).map fun i j => ((simplexColumns sqrt r).getD j 0) i * sigma j + mean j)

end

section
variable {K : Type} {n : ℕ} [CommRing K] [StarRing K]

/-- `to_sup_op` (linearalgebra.py:115-121): `kron(1, H) - kron(H^†, 1)`. -/
def toSupOp (H : Matrix (Fin n) (Fin n) K) : Matrix (Fin n × Fin n) (Fin n × Fin n) K :=
  kroneckerMap (· * ·) (1 : Matrix (Fin n) (Fin n) K) H - kroneckerMap (· * ·) H.conjTranspose (1 : Matrix (Fin n) (Fin n) K)

/-- `to_vec` (linearalgebra.py:124-128): `flatten` lists the matrix row by row. The position `n * i + j` of the flat
array is the pair `(i, j)`, as in `np.kron`. -/
def toVec (rho : Matrix (Fin n) (Fin n) K) : Fin n × Fin n → K := fun p => rho p.1 p.2

end
end QuOCS

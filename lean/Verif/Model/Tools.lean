/-
Model of `tools/fidelities.py`, `tools/operations.py`, `tools/pulsetools.py` (`resample_pulse`) and
`noiseprocesses/ornsteinuhlenbeckprocess.py`.

Numbers are exact. Eigenvalue decompositions, matrix square roots, the matrix exponential and random numbers are parameters.
-/
import Mathlib.Analysis.Complex.Norm
import Mathlib.Analysis.SpecialFunctions.Exp
import Mathlib.Analysis.Real.Sqrt
import Mathlib.LinearAlgebra.Matrix.NonsingularInverse
import Verif.Model.TimeEvolution

namespace QuOCS
open Matrix

section
variable {d : ℕ}

/-- `state_to_dm` (operations.py:22-23): `jnp.outer(state, jnp.conj(state))`. -/
def stateToDm (state : Fin d → ℂ) : CMat d := Matrix.of fun i j => state i * star (state j)

/-- `_sqrtm` (operations.py:26-31). `eigh` returns the eigenvalues and the matrix whose columns are the eigenvectors.
Simplification: the root of a negative eigenvalue is 0 (NaN in JAX); it only occurs for matrices that are not positive
semidefinite. -/
noncomputable def jaxSqrtm (eigh : CMat d → (Fin d → ℝ) × CMat d) (a : CMat d) : CMat d :=
  (eigh a).2 * Matrix.diagonal (fun i => ((Real.sqrt ((eigh a).1 i) : ℝ) : ℂ)) * (eigh a).2⁻¹

/-- `_displace` (operations.py:33-51): the argument `offset` is not used. -/
noncomputable def displace (expm : CMat d → CMat d) (a : CMat d) (alpha : ℂ) : CMat d :=
  expm (alpha • aᴴ - star alpha • a)

/-- `fidelity_AD` (fidelities.py:22-32); `eigvals` returns the list of eigenvalues. -/
noncomputable def fidelityAD (eigvals : CMat d → List ℂ) (sqrtmA b : CMat d) : ℝ :=
  (((eigvals (sqrtmA * b * sqrtmA)).map fun e => Real.sqrt (if e.re > 0 then e.re else 0)).sum) ^ 2

/-- `fidelity_not_diff_due_to_sqrtm` (fidelities.py:34-49). -/
noncomputable def fidelityNotDiff (sqrtm : CMat d → CMat d) (rho sigma : CMat d) : ℝ :=
  (sqrtm (sqrtm rho * sigma * sqrtm rho)).trace.re

end

/-- Parameters of an `OrnsteinUhlenbeck` object (ornsteinuhlenbeckprocess.py:9-13). -/
structure OUParams where
  tau : ℝ
  c : ℝ
  x0 : ℝ
  dt : ℝ

/-- `mu` (ornsteinuhlenbeckprocess.py:24). -/
noncomputable def OUParams.mu (p : OUParams) : ℝ := Real.exp (-(1 / p.tau) * p.dt)

/-- `sigma` (ornsteinuhlenbeckprocess.py:25). -/
noncomputable def OUParams.sigma (p : OUParams) : ℝ := p.c * p.tau / 2 * (1 - Real.exp (-2 / p.tau * p.dt))

/-- The loop of `get_noise_realization` (ornsteinuhlenbeckprocess.py:27-28): the values after `x`; `randn` are the random
numbers, the first one is used first. -/
noncomputable def ouLoop (p : OUParams) : ℕ → ℝ → List ℝ → List ℝ
  | 0, _, _ => []
  | n + 1, x, rs => (x * p.mu + Real.sqrt p.sigma * rs.headD 0) :: ouLoop p n (x * p.mu + Real.sqrt p.sigma * rs.headD 0) rs.tail

/-- The number of slices (ornsteinuhlenbeckprocess.py:21, 39): a step of zero raises `ZeroDivisionError`; a negative number is
an array of negative size (line 22, 50), which raises `ValueError`. -/
noncomputable def ouSlices (p : OUParams) (T : ℝ) : Py ℕ :=
  if p.dt = 0 then .error .zeroDivision
  else if ⌊T / p.dt⌋ < 0 then .error .valueError
  else .ok ⌊T / p.dt⌋.toNat

/-- `get_noise_realization` (ornsteinuhlenbeckprocess.py:15-29): `output[0]` of an empty array raises `IndexError`, then `1 / tau`
raises `ZeroDivisionError` if `tau` is zero. Simplification: the root of a negative number (for `c < 0`) is 0, NaN in NumPy. -/
noncomputable def ouRealization (p : OUParams) (T : ℝ) (randn : List ℝ) : Py (List ℝ) :=
  match ouSlices p T with
  | .error e => .error e
  | .ok 0 => .error .indexError
  | .ok (n + 1) => if p.tau = 0 then .error .zeroDivision else .ok (p.x0 :: ouLoop p n p.x0 randn)

/-- `get_ensemble_noise_realization` (ornsteinuhlenbeckprocess.py:31-53): one realization after the other; `randn` holds the
random numbers of each trajectory. -/
noncomputable def ouEnsemble (p : OUParams) (T : ℝ) (randn : List (List ℝ)) : Py (List (List ℝ)) :=
  match ouSlices p T with
  | .error e => .error e
  | .ok _ => randn.mapM (ouRealization p T)

/-- `scipy.interpolate.interp1d(x, y, kind="nearest", fill_value=(e0, e1), bounds_error=False)(t)` for an increasing list `x`:
the position is the number of midpoints of neighbouring samples that are smaller than `t`; values outside of the range of
`x` are replaced by `e0` and `e1`. -/
noncomputable def interpNearest (x y : List ℝ) (e0 e1 t : ℝ) : ℝ :=
  if t < x.headD 0 then e0
  else if x.getLastD 0 < t then e1
  else y.getD ((List.zipWith (fun a b => (a + b) / 2) x.tail x).countP fun m => m < t) 0

/-- One column of `resample_pulse` (pulsetools.py:37-47): `np.array([dt] * n).cumsum() - dt` is `[0, dt, .., (n - 1) dt]`. An empty
pulse raises `IndexError`. -/
noncomputable def resampleColumn (dt : ℝ) (pulse : List ℝ) (newTimes : List ℝ) : Py (List ℝ) :=
  match pulse with
  | [] => .error .indexError
  | e0 :: rest => .ok (newTimes.map (interpNearest ((List.range (rest.length + 1)).map fun k : ℕ => (k : ℝ) * dt) (e0 :: rest) e0
      ((e0 :: rest).getLastD 0)))

/-- `resample_pulse` (pulsetools.py:25-47); the two-dimensional arrays are lists of columns. -/
noncomputable def resamplePulse (dt : ℝ) (columns : List (List ℝ)) (newTimes : List ℝ) : Py (List (List ℝ)) :=
  columns.mapM fun c => resampleColumn dt c newTimes

end QuOCS

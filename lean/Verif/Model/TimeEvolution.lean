/-
Model of `timeevolution/piecewise_integrator.py`, `timeevolution/piecewise_integrator_AD.py` and of the gradient of the
GRAPE algorithm.

Matrices have exact complex entries. The matrix exponential of the library is a parameter `expm`.
-/
import Mathlib.Data.Complex.Basic
import Mathlib.LinearAlgebra.Matrix.ConjTranspose
import Mathlib.LinearAlgebra.Matrix.Trace
import Verif.Model.LinearAlgebra

namespace QuOCS
open Matrix

/-- Square complex matrices. -/
abbrev CMat (d : ℕ) := Matrix (Fin d) (Fin d) ℂ

section
variable {d : ℕ}

/-- `drive[k, i]` for a two-dimensional array, given as the list of its rows. -/
def driveAt (drive : List (List ℂ)) (k i : ℕ) : Py ℂ := getIdx drive k >>= fun row => getIdx row i

/-- The Hamiltonian of slice `i` (piecewise_integrator.py:35-37, 58-60): the controls are added one after the other, `k`
is the number of the first control in the list. -/
def sliceHamiltonian (drive : List (List ℂ)) (i : ℕ) : ℕ → CMat d → List (CMat d) → Py (CMat d)
  | _, H, [] => .ok H
  | k, H, Bk :: Bs => driveAt drive k i >>= fun c => sliceHamiltonian drive i (k + 1) (H + c • Bk) Bs

/-- The propagator of slice `i` (piecewise_integrator.py:35-38, 58-61). -/
def slicePropagator (expm : CMat d → CMat d) (drive : List (List ℂ)) (A : CMat d) (B : List (CMat d)) (dt : ℝ) (i : ℕ) :
    Py (CMat d) :=
  sliceHamiltonian drive i 0 A B >>= fun H => .ok (expm ((-Complex.I * dt) • H))

/-- `pw_evolution` (piecewise_integrator.py:20-39). -/
def pwEvolution (expm : CMat d → CMat d) (store : List (CMat d)) (drive : List (List ℂ)) (A : CMat d)
    (B : List (CMat d)) (n : ℕ) (dt : ℝ) : Py (List (CMat d)) :=
  (List.range n).foldlM (fun st i => slicePropagator expm drive A B dt i >>= fun U => setIdx st i U) store

/-- `pw_final_evolution` (piecewise_integrator.py:42-62). -/
def pwFinalEvolution (expm : CMat d → CMat d) (drive : List (List ℂ)) (A : CMat d) (B : List (CMat d)) (n : ℕ) (dt : ℝ)
    (U0 : CMat d) : Py (CMat d) :=
  (List.range n).foldlM (fun U i => slicePropagator expm drive A B dt i >>= fun V => .ok (V * U)) U0

/-- `pw_evolution_AD` (piecewise_integrator_AD.py:43-62): the value of `U_store.at[i].set(..)` (line 61), a changed copy of
the array, is not used. Simplification: indices outside of `drive` raise an exception (JAX may clamp them). -/
def pwEvolutionAD (expm : CMat d → CMat d) (store : List (CMat d)) (drive : List (List ℂ)) (A : CMat d)
    (B : List (CMat d)) (n : ℕ) (dt : ℝ) : Py (List (CMat d)) :=
  (List.range n).foldlM (fun st i => slicePropagator expm drive A B dt i >>= fun U => .ok (let _ := st.set i U; st)) store

/-- `jax.lax.fori_loop(lower, lower + n, body, val)` as documented by JAX. -/
def foriLoop {α : Type} (body : ℕ → α → Py α) : ℕ → ℕ → α → Py α
  | _, 0, val => .ok val
  | lower, n + 1, val => body lower val >>= fun v => foriLoop body (lower + 1) n v

/-- `pw_final_evolution_AD` (piecewise_integrator_AD.py:86-111). Simplification: as for `pwEvolutionAD`. -/
def pwFinalEvolutionAD (expm : CMat d → CMat d) (drive : List (List ℂ)) (A : CMat d) (B : List (CMat d)) (n : ℕ) (dt : ℝ)
    (U0 : CMat d) : Py (CMat d) :=
  foriLoop (fun i val => slicePropagator expm drive A B dt i >>= fun V => .ok (V * val)) 0 n U0

/-! ### GRAPE -/

/-- Number of the element `-1` of a list: the last one. -/
def lastIdx {α : Type} (xs : List α) : Py α :=
  match xs.getLast? with
  | some x => .ok x
  | none => .error .indexError

/-- `dt` (GRAPEAlgorithm.py:151-153). -/
noncomputable def grapeDt (timeGrid : List ℝ) : Py ℝ := lastIdx timeGrid >>= fun t => .ok (t / timeGrid.length)

/-- `rho_storage` / `corho_storage` before the first call (GRAPEAlgorithm.py:97-98): zeros with the initial state in front.
`cast` is the conversion to the element type of the target state (`np.zeros_like(target_state)`), which is the identity for
complex arrays and drops the imaginary parts for real ones. -/
def grapeRhoInit (cast : CMat d → CMat d) (n : ℕ) (initial : CMat d) : List (CMat d) :=
  cast initial :: List.replicate n 0

/-- (GRAPEAlgorithm.py:99-100): zeros with the target state at the end. -/
def grapeCorhoInit (cast : CMat d → CMat d) (n : ℕ) (target : CMat d) : List (CMat d) :=
  List.replicate n 0 ++ [cast target]

/-- Forward propagation (GRAPEAlgorithm.py:160-166). `transfer` says that the system type is `StateTransfer`. -/
def grapeForward (cast : CMat d → CMat d) (transfer : Bool) (U : List (CMat d)) (n : ℕ) (rho : List (CMat d)) :
    Py (List (CMat d)) :=
  (List.range n).foldlM (fun st t => getIdx U t >>= fun V => getIdx st t >>= fun r =>
    setIdx st (t + 1) (cast (if transfer then V * r * Vᴴ else V * r))) rho

/-- Backward propagation (GRAPEAlgorithm.py:167-172). -/
def grapeBackward (cast : CMat d → CMat d) (transfer : Bool) (U : List (CMat d)) (n : ℕ) (corho : List (CMat d)) :
    Py (List (CMat d)) :=
  (List.range n).reverse.foldlM (fun st t => getIdx U t >>= fun V => getIdx st (t + 1) >>= fun c =>
    setIdx st t (cast (if transfer then Vᴴ * c * V else c * Vᴴ))) corho

/-- The gradient entries (GRAPEAlgorithm.py:174-182). `K` is always 1 (line 156: the length of a list with one entry), so
the flattened array has one entry per slice. Simplification: one control Hamiltonian given as a matrix. -/
noncomputable def grapeEntries (transfer : Bool) (dt : ℝ) (B : CMat d) (n : ℕ) (rho corho : List (CMat d)) : Py (List ℝ) :=
  (List.range n).mapM fun t =>
    if transfer then getIdx corho t >>= fun c => getIdx rho t >>= fun r =>
      .ok (Matrix.trace ((Complex.I * dt) • cᴴ * commutator B r)).re
    else .ok 0

/-- `get_gradient` (GRAPEAlgorithm.py:135-184) after the propagators were computed; the two storages of the object are
returned with the gradient. -/
noncomputable def grapeGradient (cast : CMat d → CMat d) (transfer : Bool) (timeGrid : List ℝ) (B : CMat d) (n : ℕ) (U : List (CMat d))
    (rho corho : List (CMat d)) : Py (List ℝ × List (CMat d) × List (CMat d)) :=
  grapeDt timeGrid >>= fun dt =>
  grapeForward cast transfer U n rho >>= fun rho' =>
  grapeBackward cast transfer U n corho >>= fun corho' =>
  grapeEntries transfer dt B n rho' corho' >>= fun g => .ok (g, rho', corho')

end
end QuOCS

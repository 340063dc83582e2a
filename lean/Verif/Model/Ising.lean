/-
Model of `optimalcontrolproblems/IsingModelProblem.py`, `IsingModelADProblem.py` and `utils/jax_utils.py`.

Square two-dimensional arrays are a size and a function of two indices. Numbers are exact; `expm` and `sqrtm` of scipy are
parameters.
-/
import Mathlib.Analysis.Complex.Norm
import Verif.Model.TimeEvolution
import Verif.Model.Prog

namespace QuOCS
open Matrix

/-- A square array of NumPy. -/
structure Arr where
  size : ℕ
  at_ : ℕ → ℕ → ℂ

/-- `np.kron(a, b)` for square arrays: the entry with row `i`, column `j` is
`a[i // m, j // m] * b[i % m, j % m]`, where `m` is the size of `b`. -/
def Arr.kron (a b : Arr) : Arr :=
  ⟨a.size * b.size, fun i j => a.at_ (i / b.size) (j / b.size) * b.at_ (i % b.size) (j % b.size)⟩

/-- A two-by-two array with entries `a b / c d`. -/
def Arr.two (a b c d : ℂ) : Arr :=
  ⟨2, fun i j => if i = 0 then (if j = 0 then a else b) else (if j = 0 then c else d)⟩

/-- `np.eye(2)`, `sz`, `sx`, `rho0`, `rhoT` (IsingModelProblem.py:44-45, 90, 107, 118). -/
def Arr.eye : Arr := Arr.two 1 0 0 1
@[inherit_doc Arr.eye] def Arr.sz : Arr := Arr.two 1 0 0 (-1)
@[inherit_doc Arr.eye] def Arr.sx : Arr := Arr.two 0 1 1 0
@[inherit_doc Arr.eye] def Arr.rho0 : Arr := Arr.two 1 0 0 0
@[inherit_doc Arr.eye] def Arr.rhoT : Arr := Arr.two 0 0 0 1

/-- `tensor_together` (IsingModelProblem.py:23-31, IsingModelADProblem.py:24-32). -/
def tensorTogether (A : List Arr) : Py Arr :=
  getIdx A 0 >>= fun a => getIdx A 1 >>= fun b => .ok ((A.drop 2).foldl Arr.kron (a.kron b))

/-- `a + c * b` for arrays of the same size, otherwise `ValueError` (broadcasting of arrays of size one is not needed). -/
def Arr.addMul (a : Arr) (c : ℂ) (b : Arr) : Py Arr :=
  if a.size = b.size then .ok ⟨a.size, fun i j => a.at_ i j + c * b.at_ i j⟩ else .error .valueError

/-- `np.zeros((dim, dim))` -/
def Arr.zeros (n : ℕ) : Arr := ⟨n, fun _ _ => 0⟩

/-- `idx2` in the loop for neighbours (IsingModelProblem.py:51-56). -/
def nearIdx (n j : ℕ) : ℕ := if j + 1 = n then 0 else j + 1

/-- `idx2` in the loop for next-nearest neighbours (IsingModelProblem.py:66-74). Indices are not negative, so
`j == nqu - 2` is `j + 2 = n`. -/
def nextIdx (n j : ℕ) : ℕ := if j + 1 = n then 1 else if j + 2 = n then 0 else j + 2

/-- The list `rest` of a coupling term (IsingModelProblem.py:48-58): `sz` at two positions. -/
def couplingList (n j k : ℕ) : Py (List Arr) :=
  setIdx (List.replicate n Arr.eye) j Arr.sz >>= fun r => setIdx r k Arr.sz

/-- One loop of `get_static_hamiltonian` (IsingModelProblem.py:46-59 and 61-77). -/
def couplingLoop (n : ℕ) (c : ℂ) (idx : ℕ → ℕ) (H : Arr) : Py Arr :=
  (List.range n).foldlM (fun H j => couplingList n j (idx j) >>= fun r => tensorTogether r >>= fun t => H.addMul (-c) t) H

/-- `get_static_hamiltonian` (IsingModelProblem.py:34-78, IsingModelADProblem.py:35-79). -/
def staticHamiltonian (n : ℕ) (J g : ℝ) : Py Arr :=
  couplingLoop n J (nearIdx n) (Arr.zeros (2 ^ n)) >>= fun H => couplingLoop n g (nextIdx n) H

/-- `get_control_hamiltonian` (IsingModelProblem.py:81-98, IsingModelADProblem.py:82-99). -/
def controlHamiltonian (n : ℕ) : Py Arr :=
  (List.range n).foldlM (fun H j => setIdx (List.replicate n Arr.eye) j Arr.sx >>= fun r => tensorTogether r >>= fun t =>
    H.addMul 1 t) (Arr.zeros (2 ^ n))

/-- `get_initial_state` (IsingModelProblem.py:101-109). -/
def isingInitial (n : ℕ) : Py Arr := tensorTogether (List.replicate n Arr.rho0)

/-- `get_target_state` (IsingModelProblem.py:112-120). -/
def isingTarget (n : ℕ) : Py Arr := tensorTogether (List.replicate n Arr.rhoT)

/-- An array of size `d` as a matrix. -/
def Arr.mat (d : ℕ) (a : Arr) : CMat d := Matrix.of fun i j => a.at_ i j

section
variable {d : ℕ}

/-- `fidelity_funct` (IsingModelProblem.py:123-130). -/
noncomputable def fidelitySqrtm (sqrtm : CMat d → CMat d) (evolved aim : CMat d) : ℝ :=
  ‖(sqrtm (sqrtm evolved * aim * sqrtm evolved)).trace‖ ^ 2

/-- `fidelity_funct` (jax_utils.py:4-11). -/
noncomputable def fidelityHS (evolved aim : CMat d) : ℝ := ‖(evolvedᴴ * aim).trace‖

/-- Attributes of an `IsingModel` object (IsingModelProblem.py:138-165); the two Hamiltonians, the two states, the number
of slices and the sign `FoM_factor` are never changed by a method. -/
structure Ising (d : ℕ) where
  drift : CMat d
  control : CMat d
  rho0 : CMat d
  target : CMat d
  slices : ℕ
  factor : ℝ
  store : List (CMat d)
  computed : Bool
  fomList : List ℝ

/-- `__init__` (IsingModelProblem.py:138-165). -/
noncomputable def isingInit (n : ℕ) (J g : ℝ) (slices : ℕ) (maximize : Bool) : Py (Ising (2 ^ n)) :=
  staticHamiltonian n J g >>= fun H => controlHamiltonian n >>= fun B => isingInitial n >>= fun r => isingTarget n >>= fun t =>
  .ok { drift := H.mat _, control := B.mat _, rho0 := r.mat _, target := t.mat _, slices, factor := if maximize then -1 else 1
        store := List.replicate slices 0, computed := false, fomList := [] }

/-- The list `prop_store` after `pw_evolution` raised: it is changed in place, slice by slice, until the pulse is too short
(piecewise_integrator.py:33-38). -/
noncomputable def isingPartialStore (expm : CMat d → CMat d) (o : Ising d) (pulse : List ℝ) (dt : ℝ) : List (CMat d) :=
  match pwEvolution expm o.store [pulse.map Complex.ofReal] o.drift [o.control] (min o.slices pulse.length) dt with
  | .ok st => st
  | .error _ => o.store

/-- The call of `pw_evolution` and the two assignments after it (IsingModelProblem.py:195-196). -/
noncomputable def isingStore (expm : CMat d → CMat d) (pulse : List ℝ) (dt : ℝ) : Prog (Ising d) (List (CMat d)) := fun o =>
  match pwEvolution expm o.store [pulse.map Complex.ofReal] o.drift [o.control] o.slices dt with
  | .ok st => (.ok st, { o with store := st, computed := true })
  | .error e => (.error e, { o with store := isingPartialStore expm o pulse dt })

/-- `get_propagator` (IsingModelProblem.py:179-197). -/
noncomputable def isingPropagator (expm : CMat d → CMat d) (pulses timegrids : List (List ℝ)) : Prog (Ising d) (List (CMat d)) := do
  let pulse ← Prog.lift (getIdx pulses 0)
  let grid ← Prog.lift (getIdx timegrids 0)
  let dt ← Prog.lift (grapeDt grid)
  isingStore expm pulse dt

/-- `functools.reduce(lambda a, b: b @ a, prop_store)` (IsingModelProblem.py:212): `TypeError` for an empty list. -/
def reduceStore (st : List (CMat d)) : Py (CMat d) :=
  match st with
  | [] => .error .typeError
  | U :: Us => .ok (Us.foldl (fun a b => b * a) U)

/-- `get_FoM` (IsingModelProblem.py:199-219). -/
noncomputable def isingFoM (expm sqrtm : CMat d → CMat d) (pulses timegrids : List (List ℝ)) : Prog (Ising d) ℝ := do
  let o ← Prog.get
  let _ ← if o.computed then pure [] else isingPropagator expm pulses timegrids
  Prog.modify fun o => { o with computed := false }
  let o ← Prog.get
  let U ← Prog.lift (reduceStore o.store)
  let rho := U * o.rho0 * Uᴴ
  let fidelity := -1 * o.factor * fidelitySqrtm sqrtm rhoᵀ o.target
  Prog.modify fun o => { o with fomList := o.fomList ++ [fidelity] }
  pure fidelity

/-- `get_FoM` of the automatic-differentiation variant (IsingModelADProblem.py:159-187). -/
noncomputable def isingFoMAD (expm : CMat d → CMat d) (drift control rho0 target : CMat d) (slices : ℕ)
    (pulses timegrids : List (List ℝ)) : Py ℝ :=
  getIdx pulses 0 >>= fun pulse => getIdx timegrids 0 >>= fun grid => grapeDt grid >>= fun dt =>
  pwFinalEvolutionAD expm [pulse.map Complex.ofReal] drift [control] slices dt 1 >>= fun U =>
  .ok (fidelityHS (U * rho0 * Uᴴ) target)

end
end QuOCS

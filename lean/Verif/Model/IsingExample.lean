/-
Model of the examples `Examples/IsingModelProblem.py` and `Examples/IsingModelProblem_AD.py`: a ring of spins 1/2, in the first one
with a coupling that may vary at random from call to call.

Numbers are exact; `expm` and `sqrtm` of scipy and the random numbers of the seed are parameters.
-/
import Verif.Model.IsingLindblad

namespace QuOCS
open Matrix

/-- Settings of the example (Examples/IsingModelProblem.py:33-57): `noisy` is `g_seed != 0`. -/
structure ExIsingSettings where
  qubits : ℕ
  J : ℝ
  g : ℝ
  slices : ℕ
  noisy : Bool
  gVariation : ℝ
  stdev : ℝ

/-- Attributes of the object (Examples/IsingModelProblem.py:31-57). `drawn` is the position of the random number generator. -/
structure ExIsing (d : ℕ) where
  control : CMat d
  rho0 : CMat d
  target : CMat d
  store : List (CMat d)
  fomList : List ℝ
  drawn : ℕ

/-- `__init__` (Examples/IsingModelProblem.py:31-57). `H_drift` is used for its size only. -/
noncomputable def exIsingInit (s : ExIsingSettings) : Py (ExIsing (2 ^ s.qubits)) :=
  staticHamiltonianHalf s.qubits s.J s.g >>= fun _ => controlHamiltonianHalf s.qubits >>= fun B => isingInitial s.qubits >>= fun r =>
  isingTarget s.qubits >>= fun t =>
  .ok { control := B.mat _, rho0 := r.mat _, target := t.mat _, store := List.replicate s.slices 0, fomList := [], drawn := 0 }

/-- `get_drift_Hamiltonian` (Examples/IsingModelProblem.py:62-68): draws one number if the seed is set. -/
noncomputable def exIsingDrift (rnd : ℕ → ℝ) (s : ExIsingSettings) : Prog (ExIsing (2 ^ s.qubits)) (CMat (2 ^ s.qubits)) := fun o =>
  if s.noisy then
    ((staticHamiltonianHalf s.qubits s.J (s.g + s.gVariation * (1 / 2 - rnd o.drawn))).map (·.mat _), { o with drawn := o.drawn + 1 })
  else ((staticHamiltonianHalf s.qubits s.J s.g).map (·.mat _), o)

/-- The list `prop_store` after `pw_evolution` raised: it is changed in place, slice by slice, until the pulse is too short
(piecewise_integrator.py:33-38). -/
noncomputable def exIsingPartial {d : ℕ} (expm : CMat d → CMat d) (slices : ℕ) (drift : CMat d) (pulse : List ℝ) (dt : ℝ) (o : ExIsing d) :
    List (CMat d) :=
  match pwEvolution expm o.store [pulse.map Complex.ofReal] drift [o.control] (min slices pulse.length) dt with
  | .ok st => st
  | .error _ => o.store

/-- The call of `pw_evolution` (Examples/IsingModelProblem.py:94-96). -/
noncomputable def exIsingStore {d : ℕ} (expm : CMat d → CMat d) (slices : ℕ) (drift : CMat d) (pulse : List ℝ) (dt : ℝ) :
    Prog (ExIsing d) (List (CMat d)) := fun o =>
  match pwEvolution expm o.store [pulse.map Complex.ofReal] drift [o.control] slices dt with
  | .ok st => (.ok st, { o with store := st })
  | .error e => (.error e, { o with store := exIsingPartial expm slices drift pulse dt o })

/-- `get_propagator` (Examples/IsingModelProblem.py:76-97). -/
noncomputable def exIsingPropagator {s : ExIsingSettings} (expm : CMat (2 ^ s.qubits) → CMat (2 ^ s.qubits)) (rnd : ℕ → ℝ) (pulses timegrids : List (List ℝ)) :
    Prog (ExIsing (2 ^ s.qubits)) (List (CMat (2 ^ s.qubits))) := do
  let pulse ← Prog.lift (getIdx pulses 0)
  let grid ← Prog.lift (getIdx timegrids 0)
  let dt ← Prog.lift (grapeDt grid)
  let H ← exIsingDrift rnd s
  exIsingStore expm s.slices H pulse dt

/-- `get_FoM` (Examples/IsingModelProblem.py:99-118): the pair of `"FoM"` and `"std"`. -/
noncomputable def exIsingFoM (s : ExIsingSettings) (expm sqrtm : CMat (2 ^ s.qubits) → CMat (2 ^ s.qubits)) (rnd : ℕ → ℝ)
    (pulses timegrids : List (List ℝ)) : Prog (ExIsing (2 ^ s.qubits)) (ℝ × ℝ) := do
  let _ ← exIsingPropagator (s := s) expm rnd pulses timegrids
  let o ← Prog.get
  let U ← Prog.lift (reduceStore o.store)
  let fidelity := fidelitySqrtm sqrtm (U * o.rho0 * Uᴴ) o.target
  Prog.modify fun o => { o with fomList := o.fomList ++ [fidelity] }
  pure (-fidelity, s.stdev)

/-- `__init__` and `get_FoM` of the variant for automatic differentiation (Examples/IsingModelProblem_AD.py:31-67, 76-111). -/
noncomputable def exIsingFoMAD (s : ExIsingSettings) (expm : CMat (2 ^ s.qubits) → CMat (2 ^ s.qubits)) (pulses timegrids : List (List ℝ)) :
    Py ℝ :=
  staticHamiltonianHalf s.qubits s.J s.g >>= fun H => controlHamiltonianHalf s.qubits >>= fun B => isingInitial s.qubits >>= fun r =>
  isingTarget s.qubits >>= fun t =>
  getIdx pulses 0 >>= fun pulse => getIdx timegrids 0 >>= fun grid => grapeDt grid >>= fun dt =>
  pwFinalEvolutionAD expm [pulse.map Complex.ofReal] (H.mat _) [B.mat _] s.slices dt 1 >>= fun U =>
  .ok (rootOverlap (U * r.mat _ * Uᴴ) (t.mat _))

/-- A call of a method by the user or by an algorithm. -/
inductive ExIsingCall
  | drift
  | propagator (pulses timegrids : List (List ℝ))
  | fom (pulses timegrids : List (List ℝ))

/-- The object after a call, also after a raising one. -/
noncomputable def exIsingCall (s : ExIsingSettings) (expm sqrtm : CMat (2 ^ s.qubits) → CMat (2 ^ s.qubits)) (rnd : ℕ → ℝ)
    (o : ExIsing (2 ^ s.qubits)) : ExIsingCall → ExIsing (2 ^ s.qubits)
  | .drift => (exIsingDrift rnd s o).2
  | .propagator p t => (exIsingPropagator (s := s) expm rnd p t o).2
  | .fom p t => (exIsingFoM s expm sqrtm rnd p t o).2

/-- The object after a history of calls. -/
noncomputable def exIsingAfter (s : ExIsingSettings) (expm sqrtm : CMat (2 ^ s.qubits) → CMat (2 ^ s.qubits)) (rnd : ℕ → ℝ)
    (calls : List ExIsingCall) (o : ExIsing (2 ^ s.qubits)) : ExIsing (2 ^ s.qubits) := calls.foldl (exIsingCall s expm sqrtm rnd) o

end QuOCS

/-
Model of the example `Examples/IsingModelProblem_AD_Lindblad.py`: a ring of spins with collective dephasing.

Numbers are exact; the solver `odeint` of JAX is a parameter.
-/
import Mathlib.Analysis.Complex.Norm
import Mathlib.Algebra.Order.Floor.Ring
import Verif.Model.Ising

namespace QuOCS
open Matrix

/-- `sz`, `sx` (IsingModelProblem_AD_Lindblad.py:123-124), with the factor 1/2. -/
noncomputable def Arr.szHalf : Arr := Arr.two (1 / 2) 0 0 (-1 / 2)
@[inherit_doc Arr.szHalf] noncomputable def Arr.sxHalf : Arr := Arr.two 0 (1 / 2) (1 / 2) 0

/-- One pass of the loop of `get_dephasing_Lindbladian`: `sz` at position `j` (IsingModelProblem_AD_Lindblad.py:133-138). -/
noncomputable def dephaseTerm (n j : ℕ) : Py Arr :=
  setIdx (List.replicate n Arr.eye) j Arr.szHalf >>= fun r => tensorTogether r

/-- `get_dephasing_Lindbladian` (IsingModelProblem_AD_Lindblad.py:129-140). -/
noncomputable def dephasingOperator (n : ℕ) (gamma : ℝ) : Py Arr :=
  (List.range n).foldlM (fun L j => dephaseTerm n j >>= fun t => L.addMul ((Real.sqrt gamma : ℝ) : ℂ) t) (Arr.zeros (2 ^ n))

/-- A coupling term (IsingModelProblem_AD_Lindblad.py:156-168): `sz` at two positions. -/
noncomputable def couplingTermHalf (n j k : ℕ) : Py Arr :=
  setIdx (List.replicate n Arr.eye) j Arr.szHalf >>= fun r => setIdx r k Arr.szHalf >>= fun r => tensorTogether r

/-- One loop of `get_static_hamiltonian` (IsingModelProblem_AD_Lindblad.py:155-169 and 171-186). -/
noncomputable def couplingLoopHalf (n : ℕ) (c : ℂ) (idx : ℕ → ℕ) (H : Arr) : Py Arr :=
  (List.range n).foldlM (fun H j => couplingTermHalf n j (idx j) >>= fun t => H.addMul (-c) t) H

/-- `get_static_hamiltonian` (IsingModelProblem_AD_Lindblad.py:152-187). The choice of the neighbours is the one of the problem of the library. -/
noncomputable def staticHamiltonianHalf (n : ℕ) (J g : ℝ) : Py Arr :=
  couplingLoopHalf n J (nearIdx n) (Arr.zeros (2 ^ n)) >>= fun H => couplingLoopHalf n g (nextIdx n) H

/-- `get_control_hamiltonian` (IsingModelProblem_AD_Lindblad.py:190-199). -/
noncomputable def controlHamiltonianHalf (n : ℕ) : Py Arr :=
  (List.range n).foldlM (fun H j => (setIdx (List.replicate n Arr.eye) j Arr.sxHalf >>= fun r => tensorTogether r) >>= fun t =>
    H.addMul 1 t) (Arr.zeros (2 ^ n))

section
variable {d : ℕ}

/-- The right-hand side `LME` (IsingModelProblem_AD_Lindblad.py:58-63). -/
noncomputable def lmeRhs (H L rho : CMat d) : CMat d :=
  -Complex.I • (H * rho - rho * H) + L * rho * Lᴴ - (1 / 2 : ℂ) • (L * Lᴴ * rho) - (1 / 2 : ℂ) • (rho * L * Lᴴ)

/-- `ind` (IsingModelProblem_AD_Lindblad.py:97): the sample used at time `t`. -/
noncomputable def sampleIndex (T : ℝ) (bins : ℕ) (t : ℝ) : ℤ := ⌊t / T * ((bins : ℝ) - 1)⌋

/-- `pulse[ind]` (IsingModelProblem_AD_Lindblad.py:99). JAX counts negative indices from the end and replaces an index beyond the end by the last one;
negative ones do not occur for times of the grid and are read as 0 here. -/
noncomputable def pulseAt (pulse : List ℝ) (T : ℝ) (bins : ℕ) (t : ℝ) : ℝ :=
  pulse.getD (min (sampleIndex T bins t).toNat (pulse.length - 1)) 0

/-- `fom_funct` (IsingModelProblem_AD_Lindblad.py:212-221). -/
noncomputable def rootOverlap (evolved aim : CMat d) : ℝ := Real.sqrt ‖(evolvedᴴ * aim).trace‖

/-- Attributes of the object (IsingModelProblem_AD_Lindblad.py:30-46). -/
structure OpenIsing (d : ℕ) where
  drift : CMat d
  control : CMat d
  rho0 : CMat d
  target : CMat d
  jump : CMat d

/-- `odeint(rhs, rho_0, time_grid)`: one matrix per time of the grid. -/
abbrev OdeSolver (d : ℕ) := (CMat d → ℝ → CMat d) → CMat d → List ℝ → Py (List (CMat d))

/-- `evolve_rho`, `_solve_LME` (IsingModelProblem_AD_Lindblad.py:48-67, 81-103). -/
noncomputable def openEvolve (odeint : OdeSolver d) (o : OpenIsing d) (pulse grid : List ℝ) : Py (CMat d) :=
  lastIdx grid >>= fun T =>
  odeint (fun rho t => lmeRhs (o.drift + ((pulseAt pulse T grid.length t : ℝ) : ℂ) • o.control) o.jump rho) o.rho0 grid >>= fun rhos =>
  lastIdx rhos

/-- `get_FoM` (IsingModelProblem_AD_Lindblad.py:105-118). -/
noncomputable def openIsingFoM (odeint : OdeSolver d) (o : OpenIsing d) (pulses timegrids : List (List ℝ)) : Py ℝ :=
  getIdx pulses 0 >>= fun pulse => getIdx timegrids 0 >>= fun grid =>
  openEvolve odeint o pulse grid >>= fun rho => .ok (rootOverlap rho o.target)

end

/-- `__init__` (IsingModelProblem_AD_Lindblad.py:30-46). -/
noncomputable def openIsingInit (n : ℕ) (J g gamma : ℝ) : Py (OpenIsing (2 ^ n)) :=
  staticHamiltonianHalf n J g >>= fun H => controlHamiltonianHalf n >>= fun B => isingInitial n >>= fun r => isingTarget n >>= fun t =>
  dephasingOperator n gamma >>= fun L =>
  .ok { drift := H.mat _, control := B.mat _, rho0 := r.mat _, target := t.mat _, jump := L.mat _ }

end QuOCS

/-
Model of the figure-of-merit classes `optimalcontrolproblems/OneQubitProblem.py`, `OneQubitProblem_2fields.py` and
`RosenbrockProblem.py`.

Numbers are exact; the matrix exponential of scipy is a parameter `expm`; the random number drawn by `np.random.rand` in a
call is a parameter `rand`. State vectors have two entries (the strings of the configuration are evaluated already).
-/
import Mathlib.Analysis.SpecialFunctions.Sqrt
import Mathlib.Analysis.SpecialFunctions.Trigonometric.Basic
import Mathlib.Analysis.Complex.Norm
import Mathlib.LinearAlgebra.Matrix.Notation
import Verif.Model.TimeEvolution
import Verif.Model.Prog

namespace QuOCS
open Matrix

/-- State vectors of a qubit. -/
abbrev Ket := Fin 2 → ℂ

/-- `sigma_x`, `sigma_y`, `sigma_z` (OneQubitProblem.py:31-32, OneQubitProblem_2fields.py:31-33). -/
def sigmaX : CMat 2 := !![0, 1; 1, 0]
@[inherit_doc sigmaX] def sigmaY : CMat 2 := !![0, -Complex.I; Complex.I, 0]
@[inherit_doc sigmaX] def sigmaZ : CMat 2 := !![1, 0; 0, -1]

/-- `hamiltonian_d1_d2` (OneQubitProblem.py:23-35). -/
noncomputable def oneQubitHam (drive delta1 delta2 : ℝ) : CMat 2 :=
  ((delta1 : ℂ) / 2) • sigmaZ + (((drive + delta2 : ℝ) : ℂ) / 2) • sigmaX

/-- `norm(psi)` of scipy: the Euclidean norm (OneQubitProblem.py:145). -/
noncomputable def ketNorm (psi : Ket) : ℝ := Real.sqrt (∑ i, ‖psi i‖ ^ 2)

/-- `_get_fidelity` (OneQubitProblem.py:138-145, OneQubitProblem_2fields.py:108-115). -/
noncomputable def ketFidelity (psi1 psi2 : Ket) : ℝ := ‖star psi1 ⬝ᵥ psi2‖ ^ 2 / (ketNorm psi1 * ketNorm psi2)

/-- `_time_evolution` (OneQubitProblem.py:121-135). -/
noncomputable def oneQubitEvolution (expm : CMat 2 → CMat 2) (drive : List ℝ) (dt delta1 delta2 : ℝ) : CMat 2 :=
  drive.foldl (fun U a => expm ((-Complex.I * dt) • oneQubitHam a delta1 delta2) * U) 1

/-- Attributes of a `OneQubit` object (OneQubitProblem.py:42-71). -/
structure OneQubit where
  target : Ket
  psi0 : Ket
  delta1 : ℝ
  delta2 : ℝ
  isNoisy : Bool
  noiseFactor : ℝ
  includeDrift : Bool
  driftSlope : ℝ
  optFactor : ℝ
  fomList : List ℝ
  evalNumber : ℕ

/-- The dictionary returned by `get_FoM`. -/
structure FoMResult where
  fom : ℝ
  std : ℝ

/-- The last part of `get_FoM`: noise, drift and bookkeeping (OneQubitProblem.py:104-118). -/
noncomputable def oneQubitFinish (rand infidelity : ℝ) : Prog OneQubit FoMResult := fun o =>
  let std : ℝ := if o.isNoisy then o.noiseFactor * 0.6827 else 1e-4
  let inf1 := if o.isNoisy then infidelity + o.noiseFactor * 2 * (0.5 - rand) else infidelity
  let inf2 := if o.includeDrift then inf1 + o.driftSlope * o.evalNumber else inf1
  let fom := (-1) * o.optFactor * inf2
  (.ok ⟨fom, std⟩, { o with fomList := o.fomList ++ [fom], evalNumber := o.evalNumber + 1 })

/-- `get_FoM` (OneQubitProblem.py:81-118). -/
noncomputable def oneQubitFoM (expm : CMat 2 → CMat 2) (rand : ℝ) (pulses : List (List ℝ)) (parameters : List ℝ)
    (timegrids : List (List ℝ)) : Prog OneQubit FoMResult := do
  let drive ← Prog.lift (getIdx pulses 0)
  Prog.modify fun o => match parameters with
    | [] => o
    | p :: _ => { o with delta1 := p }
  let grid ← Prog.lift (getIdx timegrids 0)
  let t1 ← Prog.lift (getIdx grid 1)
  let t0 ← Prog.lift (getIdx grid 0)
  let o ← Prog.get
  let U := oneQubitEvolution expm drive (t1 - t0) o.delta1 o.delta2
  oneQubitFinish rand (1 - ketFidelity o.target (U *ᵥ o.psi0))

/-- `hamiltonian_d1_d2_2fields` (OneQubitProblem_2fields.py:22-36). -/
noncomputable def twoFieldsHam (amplitude phase delta1 delta2 : ℝ) : CMat 2 :=
  ((delta1 : ℂ) / 2) • sigmaZ +
    ((amplitude * (1 + delta2) : ℝ) : ℂ) • (((Real.cos phase : ℝ) : ℂ) • sigmaX + ((Real.sin phase : ℝ) : ℂ) • sigmaY)

/-- `_time_evolution` (OneQubitProblem_2fields.py:87-105): the loop runs over the amplitudes, the phase is read with the
same index. -/
noncomputable def twoFieldsEvolution (expm : CMat 2 → CMat 2) (amplitude phase : List ℝ) (dt delta1 delta2 : ℝ) :
    Py (CMat 2) :=
  (List.range amplitude.length).foldlM (fun U i => getIdx amplitude i >>= fun a => getIdx phase i >>= fun p =>
    .ok (expm ((-Complex.I * dt) • twoFieldsHam a p delta1 delta2) * U)) 1

/-- Attributes of a `OneQubit2Fields` object (OneQubitProblem_2fields.py:44-60); no method changes them. -/
structure TwoFields where
  target : Ket
  psi0 : Ket
  delta1 : ℝ
  delta2 : ℝ
  isNoisy : Bool
  noiseFactor : ℝ

/-- `get_FoM` (OneQubitProblem_2fields.py:62-84). -/
noncomputable def twoFieldsFoM (expm : CMat 2 → CMat 2) (rand : ℝ) (o : TwoFields) (pulses : List (List ℝ))
    (timegrids : List (List ℝ)) : Py FoMResult := do
  let amplitude ← getIdx pulses 0
  let phase ← getIdx pulses 1
  let grid ← getIdx timegrids 0
  let t1 ← getIdx grid 1
  let t0 ← getIdx grid 0
  let U ← twoFieldsEvolution expm amplitude phase (t1 - t0) o.delta1 o.delta2
  let infidelity := 1 - ketFidelity o.target (U *ᵥ o.psi0)
  let std : ℝ := if o.isNoisy then o.noiseFactor * 0.6827 else 0
  let inf1 := if o.isNoisy then infidelity + o.noiseFactor * 2 * (0.5 - rand) else infidelity
  pure ⟨|inf1|, std⟩

/-- `scipy.optimize.rosen`, as documented by scipy: `sum(100 (x[1:] - x[:-1]^2)^2 + (1 - x[:-1])^2)`. -/
def rosen {K : Type} [CommRing K] (x : List K) : K :=
  (List.zipWith (fun a b => 100 * (b - a ^ 2) ^ 2 + (1 - a) ^ 2) x x.tail).sum

/-- `get_FoM` (RosenbrockProblem.py:36-51). -/
noncomputable def rosenbrockFoM (isNoisy : Bool) (noiseFactor rand : ℝ) (parameters : List ℝ) : FoMResult :=
  ⟨if isNoisy then rosen parameters + noiseFactor * 2 * (0.5 - rand) else rosen parameters,
   if isNoisy then noiseFactor * 0.6827 else 0⟩

end QuOCS

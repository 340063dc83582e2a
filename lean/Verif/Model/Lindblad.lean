/-
Model of the open-system example `Examples/LindbladProblem.py`.

Numbers are exact; the matrix exponential of JAX is a parameter `expm`. Indices outside of an array raise an exception (JAX may clamp them).
-/
import Mathlib.Analysis.Complex.Norm
import Mathlib.LinearAlgebra.Matrix.Notation
import Verif.Model.TimeEvolution

namespace QuOCS
open Matrix

/-- `convert_rho_to_LFS` (LindbladProblem.py:84-91). -/
def toLFS (rho : CMat 2) : Fin 4 → ℂ := ![rho 0 0, rho 0 1, rho 1 0, rho 1 1]

/-- `convert_LFS_to_rho` (LindbladProblem.py:94-101). -/
def fromLFS (v : Fin 4 → ℂ) : CMat 2 := !![v 0, v 1; v 2, v 3]

/-- `L_const` (LindbladProblem.py:48-52). -/
noncomputable def lbConst (E gamma : ℝ) : CMat 4 :=
  !![0, 0, 0, (gamma : ℂ);
     0, -Complex.I * E + gamma / 2, 0, 0;
     0, 0, Complex.I * E - gamma / 2, 0;
     0, 0, 0, -(gamma : ℂ)]

/-- `L_drive` (LindbladProblem.py:54-58). -/
noncomputable def lbDrive : CMat 4 :=
  !![0, Complex.I, -Complex.I, 0;
     Complex.I, 0, 0, -Complex.I;
     -Complex.I, 0, 0, Complex.I;
     0, -Complex.I, Complex.I, 0]

/-- `rho_0` (LindbladProblem.py:42). -/
def lbInitial : CMat 2 := !![1, 0; 0, 0]

/-- `rho_target` (LindbladProblem.py:43). -/
noncomputable def lbTarget : CMat 2 := !![1 / 2, Complex.I / 2; -Complex.I / 2, 1 / 2]

/-- `pw_evolution_final` (LindbladProblem.py:105-125). -/
noncomputable def lbEvolution (expm : CMat 4 → CMat 4) (rho0 : Fin 4 → ℂ) (Lconst Ldrive : CMat 4) (drive timeGrid : List ℝ) : Py (Fin 4 → ℂ) :=
  grapeDt timeGrid >>= fun dt =>
  foriLoop (fun i val => getIdx drive i >>= fun u => .ok ((expm ((dt : ℂ) • (Lconst + (u : ℂ) • Ldrive))).mulVec val)) 0 timeGrid.length rho0

/-- `fidelity_funct_LFS` (LindbladProblem.py:138-145). -/
noncomputable def fidelityLFS (evolved aim : Fin 4 → ℂ) : ℝ := Real.sqrt ‖star evolved ⬝ᵥ aim‖

/-- `get_FoM` (LindbladProblem.py:68-81). -/
noncomputable def lindbladFoM (expm : CMat 4 → CMat 4) (E gamma : ℝ) (pulses timegrids : List (List ℝ)) : Py ℝ :=
  getIdx pulses 0 >>= fun drive => getIdx timegrids 0 >>= fun grid =>
  lbEvolution expm (toLFS lbInitial) (lbConst E gamma) lbDrive drive grid >>= fun rho => .ok (fidelityLFS rho (toLFS lbTarget))

end QuOCS

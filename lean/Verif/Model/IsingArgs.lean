/-
Model of the constructors of the Ising problems of the library with their dictionary of arguments:
src/quocslib/optimalcontrolproblems/IsingModelProblem.py and IsingModelADProblem.py.
-/
import Verif.Model.ProblemArgs
import Verif.Model.Ising

namespace QuOCS

/-- The attributes read from the dictionary: number of qubits, couplings, number of slices, and whether the figure of merit is maximized. -/
structure IsingArguments where
  qubits : ℕ
  J : ℝ
  g : ℝ
  slices : ℕ
  maximize : Bool

/-- IsingModelProblem.py:145-152. Simplification: numbers are read as numbers at once, and a negative number of qubits or slices is an exception (Python
makes an empty list for a negative number of slices). -/
def isingArgs : Prog PDict IsingArguments := do
  let q ← setdefault "n_qubits" (.num 5) >>= fun v => Prog.lift (countOf v)
  let J ← numSetting "J" 1
  let g ← numSetting "g" 2
  let n ← setdefault "n_slices" (.num 100) >>= fun v => Prog.lift (countOf v)
  let b ← flagSetting "is_maximization"
  pure { qubits := q, J := J, g := g, slices := n, maximize := b }

/-- IsingModelADProblem.py:136-139: there is no switch for the direction. Simplification: as above. -/
def isingArgsAD : Prog PDict IsingArguments := do
  let q ← setdefault "n_qubits" (.num 5) >>= fun v => Prog.lift (countOf v)
  let J ← numSetting "J" 1
  let g ← numSetting "g" 2
  let n ← setdefault "n_slices" (.num 100) >>= fun v => Prog.lift (countOf v)
  pure { qubits := q, J := J, g := g, slices := n, maximize := true }

/-- `IsingModel(args_dict)`: without a dictionary an empty one is used (IsingModelProblem.py:139-140); the number of qubits and the object
(IsingModelProblem.py:154-165). -/
noncomputable def isingFrom (args : Option PDict) : Py (Σ n : ℕ, Ising (2 ^ n)) :=
  (isingArgs (args.getD .nil)).1 >>= fun a => isingInit a.qubits a.J a.g a.slices a.maximize >>= fun o => .ok ⟨a.qubits, o⟩

/-- `IsingModel(args_dict)` and `get_FoM` for automatic differentiation (IsingModelADProblem.py:129-187). -/
noncomputable def isingFoMFromAD (expm : ∀ {d : ℕ}, CMat d → CMat d) (args : Option PDict) (pulses timegrids : List (List ℝ)) : Py ℝ :=
  (isingArgsAD (args.getD .nil)).1 >>= fun a => staticHamiltonian a.qubits a.J a.g >>= fun H => controlHamiltonian a.qubits >>= fun B =>
  isingInitial a.qubits >>= fun r => isingTarget a.qubits >>= fun t =>
  isingFoMAD expm (H.mat (2 ^ a.qubits)) (B.mat _) (r.mat _) (t.mat _) a.slices pulses timegrids

end QuOCS

/-
Vocabulary for the properties of the Nelder-Mead search.
-/
import Verif.Spec.Search
import Verif.Model.NelderMead

namespace QuOCS
variable {K F : Type} {n : ℕ} [Field K]

/-- `np.argsort` sorts: the reordered values are ascending. -/
def IsArgsort [LinearOrder F] (a : (Fin (n + 1) → F) → Equiv.Perm (Fin (n + 1))) : Prop :=
  ∀ f, Monotone (f ∘ a f)

/-- If row 0 is already a smallest one it stays in front (true for every stable sorting method; NumPy's default one is
stable for arrays with at most 16 entries only). -/
def KeepsLeader [LinearOrder F] (a : (Fin (n + 1) → F) → Equiv.Perm (Fin (n + 1))) : Prop :=
  ∀ f, (∀ i, f 0 ≤ f i) → a f 0 = 0

/-- The point was evaluated during the calls `evs`. -/
def Evaluated (evs : List (Ev K (Vec K n) F)) (x : Vec K n) : Prop := ∃ f, (x, f) ∈ evals evs

/-- Centroid of all vertices but the last one. -/
def centroid (w : Fin (n + 1) → Vec K n) : Vec K n := (1 / (n : K)) • ∑ i : Fin n, w i.castSucc

/-- The documented coefficients of reflection, expansion, contraction and shrinking: the usual ones 1, 2, 1/2, 1/2, and for
`is_adaptive` the ones of Gao and Han (Comput. Optim. Appl. 51, 2012) for dimension `n`. -/
def documentedCoef (adaptive : Bool) (n : ℕ) : NmCoef K where
  rho := 1
  chi := if adaptive then 1 + 2 / (n : K) else 2
  psi := if adaptive then 3 / 4 - 1 / (2 * (n : K)) else 1 / 2
  sigma := if adaptive then 1 - 1 / (n : K) else 1 / 2

/-- The points the Nelder-Mead method may evaluate after the calls `evs`, with start simplex `start`: the rows of the
start simplex in order; then reflection, expansion, outside and inside contraction of simplices whose vertices have all
been evaluated; shrinking towards the first vertex; an evaluated vertex again (only for drift compensation). -/
inductive NmTrial (co : NmCoef K) (start : Fin (n + 1) → Vec K n) (evs : List (Ev K (Vec K n) F)) : Vec K n → Prop
  | start (k : Fin (n + 1)) (hk : objectiveCalls evs = k) : NmTrial co start evs (start k)
  | reflect (w : Fin (n + 1) → Vec K n) (hw : ∀ i, Evaluated evs (w i)) :
      NmTrial co start evs (centroid w + co.rho • (centroid w - w (Fin.last n)))
  | expand (w : Fin (n + 1) → Vec K n) (hw : ∀ i, Evaluated evs (w i)) :
      NmTrial co start evs (centroid w + (co.rho * co.chi) • (centroid w - w (Fin.last n)))
  | outside (w : Fin (n + 1) → Vec K n) (hw : ∀ i, Evaluated evs (w i)) :
      NmTrial co start evs (centroid w + (co.psi * co.rho) • (centroid w - w (Fin.last n)))
  | inside (w : Fin (n + 1) → Vec K n) (hw : ∀ i, Evaluated evs (w i)) :
      NmTrial co start evs (centroid w - co.psi • (centroid w - w (Fin.last n)))
  | shrink (best v : Vec K n) (hb : Evaluated evs best) (hv : Evaluated evs v) :
      NmTrial co start evs (best + co.sigma • (v - best))
  | again (v : Vec K n) (hv : Evaluated evs v) : NmTrial co start evs v

end QuOCS

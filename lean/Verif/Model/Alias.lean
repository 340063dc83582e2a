/-
Model of the objects shared between QuOCS and the user's program during one evaluation: the arrays with the controls, which
are passed by reference, and the dictionary returned by `get_FoM`, which QuOCS modifies in place.
-/
import Verif.Model.Prog

namespace QuOCS

/-- A dictionary returned by the user: `"FoM"` and, if present, `"status_code"`. -/
structure FomObj (F : Type) where
  fom : F
  status : Option ℤ
  deriving DecidableEq, Repr

/-- The mutable objects of the process: dictionaries and control arrays. A reference is a position. -/
structure Heap (C F : Type) where
  dicts : List (FomObj F)
  arrays : List C
  deriving DecidableEq, Repr

/-- What one evaluation shows: the value used by the algorithm and returned to the search method, the controls written to the
results folder if the value is a record, and whether the run goes on. -/
structure EvalSeen (C F : Type) where
  value : F
  dumped : C
  running : Bool
  deriving DecidableEq, Repr

/-- The user's `get_FoM`: gets its own data, the objects and the reference of the controls, may change everything and returns the
reference of a dictionary. -/
abbrev UserFn (M C F : Type) := M → Heap C F → ℕ → M × Heap C F × ℕ

section
variable {M C F : Type}

/-- One evaluation: `send_controls` (AllInOneCommunication.py:141-146) keeps the reference of newly built arrays
(Controls.py:213-241); `get_data` (lines 153-168) calls the user's program, multiplies `FoM_dict["FoM"]` by the factor and adds
`"status_code"` in the same dictionary object; `send_FoM_response` and `update_controls` (lines 170-200) read the value and the
arrays through the references. A reference to no object is outside of the model (`none`). -/
def evalOnce [Neg F] (maximize : Bool) (user : UserFn M C F) (c : C) (m : M) (h : Heap C F) :
    Option (EvalSeen C F × M × Heap C F) :=
  let a := h.arrays.length
  let (m', h', r) := user m { h with arrays := h.arrays ++ [c] } a
  match h'.dicts[r]?, h'.arrays[a]? with
  | some d, some c' =>
    let d' : FomObj F := { fom := if maximize then - d.fom else d.fom, status := some (d.status.getD 0) }
    some (⟨d'.fom, c', d'.status == some 0⟩, m', { h' with dicts := h'.dicts.set r d' })
  | _, _ => none

/-- The evaluations of a list of controls one after the other. -/
def evalAll [Neg F] (maximize : Bool) (user : UserFn M C F) : List C → M → Heap C F →
    Option (List (EvalSeen C F) × M × Heap C F)
  | [], m, h => some ([], m, h)
  | c :: cs, m, h => do
    let (e, m', h') ← evalOnce maximize user c m h
    let (es, m'', h'') ← evalAll maximize user cs m' h'
    pure (e :: es, m'', h'')

end
end QuOCS

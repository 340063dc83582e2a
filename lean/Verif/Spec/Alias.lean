/-
What the user's programs of C74 do, independent of QuOCS.
-/
import Verif.Model.Alias

namespace QuOCS

section
variable {M C F : Type}

/-- The user's program computes `f`: whatever happened before, the dictionary it returns contains `f` of the controls, a status of
zero or none, and the control array is as it was. -/
def Computes (user : UserFn M C F) (f : C → F) : Prop :=
  ∀ m (h : Heap C F) a c, h.arrays[a]? = some c →
    ∃ d, (user m h a).2.1.dicts[(user m h a).2.2]? = some d ∧ d.fom = f c ∧ (d.status = none ∨ d.status = some 0) ∧
      (user m h a).2.1.arrays = h.arrays

/-- A program that makes a new dictionary in every call. -/
def freshUser (f : C → F) : UserFn Unit C F := fun m h a =>
  match h.arrays[a]? with
  | some c => (m, { h with dicts := h.dicts ++ [⟨f c, none⟩] }, h.dicts.length)
  | none => (m, h, 0)

/-- A program that remembers the dictionary of the controls it has seen and returns the same dictionary again (as with
`functools.lru_cache`). -/
def memoUser [DecidableEq C] (f : C → F) : UserFn (List (C × ℕ)) C F := fun m h a =>
  match h.arrays[a]? with
  | some c =>
    match m.lookup c with
    | some r => (m, h, r)
    | none => ((c, h.dicts.length) :: m, { h with dicts := h.dicts ++ [⟨f c, none⟩] }, h.dicts.length)
  | none => (m, h, 0)

/-- A program that computes `f` of the controls and works in place on the array it got (`pulse *= 2`, ...). -/
def inPlaceUser (f : C → F) (w : C → C) : UserFn Unit C F := fun m h a =>
  match h.arrays[a]? with
  | some c => (m, { dicts := h.dicts ++ [⟨f c, none⟩], arrays := h.arrays.set a (w c) }, h.dicts.length)
  | none => (m, h, 0)

end
end QuOCS

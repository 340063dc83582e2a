/-
Running a search method on a script of answers, for examples.
-/
import Mathlib.Algebra.Order.Ring.Rat
import Verif.Spec.Search

namespace QuOCS
variable {K V F α : Type}

/-- answer a call from the script: values for the objective, flags for the convergence flag and the callback; the
clock advances with the script -/
def scripted : (o : Op K V F) → List (F ⊕ Bool) → Option (o.Res × List (F ⊕ Bool))
  | .eval _ _, .inl f :: l => some (f, l)
  | .drift _ _ _, .inl f :: l => some (f, l)
  | .readConv, .inr b :: l => some (b, l)
  | .callback, .inr b :: l => some (b, l)
  | .setConv _, l => some ((), l)
  | .userStop, l => some ((), l)
  | .checkNM _ _ _, l => some ((), l)
  | .checkCMA _ _, l => some ((), l)
  | .now, l => some (100 - (l.length : ℚ), l)
  | .reason, l => some ("", l)
  | _, _ => none

/-- the calls and the result of a search on a script -/
def Strat.play : Strat K V F α → List (F ⊕ Bool) → Option (List (Ev K V F) × α)
  | .ret a, _ => some ([], a)
  | .op o k, l =>
    match scripted o l with
    | none => none
    | some (r, l) =>
      match (k r).play l with
      | none => none
      | some (evs, a) => some (⟨o, r⟩ :: evs, a)

theorem Strat.play_sound {m : Strat K V F α} {l : List (F ⊕ Bool)} {evs : List (Ev K V F)} {a : α}
    (h : m.play l = some (evs, a)) : Plays m evs (.ret a) := by
  induction m generalizing l evs with
  | ret b => simp only [Strat.play, Option.some.injEq, Prod.mk.injEq] at h; obtain ⟨rfl, rfl⟩ := h; exact .nil _
  | op o k ih =>
    unfold Strat.play at h
    rcases hs : scripted o l with _ | ⟨r, l'⟩
    · rw [hs] at h; cases h
    · rw [hs] at h
      dsimp only at h
      rcases hk : (k r).play l' with _ | ⟨evs', a'⟩
      · rw [hk] at h; cases h
      · rw [hk] at h
        simp only [Option.some.injEq, Prod.mk.injEq] at h
        obtain ⟨rfl, rfl⟩ := h
        exact .cons _ _ _ _ _ (ih r hk)

end QuOCS

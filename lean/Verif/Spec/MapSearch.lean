/-
Comparing two searches of which one works in other coordinates: the points are transformed by `T`, the values by `φ`.
-/
import Verif.Spec.Search

namespace QuOCS
variable {K V F : Type}

/-- The call in the other coordinates. -/
def Op.map (T : V → V) (φ : F → F) : Op K V F → Op K V F
  | .eval x it => .eval (T x) it
  | .drift x it v => .drift (T x) it (φ v)
  | .readConv => .readConv
  | .setConv b => .setConv b
  | .callback => .callback
  | .userStop => .userStop
  | .checkNM size fs calls => .checkNM size (fs.map φ) calls
  | .checkCMA fs calls => .checkCMA (fs.map φ) calls
  | .now => .now
  | .reason => .reason
  | .fail e => .fail e

/-- The answer in the other coordinates: figures of merit are transformed, everything else is the same. -/
def Op.mapRes (T : V → V) (φ : F → F) : (o : Op K V F) → o.Res → (o.map T φ).Res
  | .eval _ _, f => φ f
  | .drift _ _ _, f => φ f
  | .readConv, b => b
  | .setConv _, u => u
  | .callback, b => b
  | .userStop, u => u
  | .checkNM _ _ _, u => u
  | .checkCMA _ _, u => u
  | .now, t => t
  | .reason, r => r
  | .fail _, e => e

/-- A call with its answer in the other coordinates. -/
def Ev.map (T : V → V) (φ : F → F) (e : Ev K V F) : Ev K V F := ⟨e.1.map T φ, e.1.mapRes T φ e.2⟩

end QuOCS

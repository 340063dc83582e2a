/-
Model of the automatic-differentiation variant of `src/quocslib/Controls.py` (`is_AD = True`): all pulses and time grids are
delivered as the rows of two arrays of a common width.
-/
import Verif.Model.Ops

namespace QuOCS

section
variable {K : Type} [Field K] [LinearOrder K]

/-- `max_bin_numbers` (Controls.py:90-93). -/
def Controls.maxBins (c : Controls K) : ℕ := (c.pulses.map (·.binsNumber)).foldl max 0

/-- `a.at[index, :bins].set(u)` for a row of zeros of the given width (Controls.py:282-283, 315-316): the samples must be as
many as fit, or one that is repeated; otherwise `ValueError`. -/
def padRow (width bins : ℕ) (u : List K) : Py (List K) :=
  if u.length = min bins width then .ok (u ++ zeros (width - min bins width))
  else match u with
    | [v] => .ok (List.replicate (min bins width) v ++ zeros (width - min bins width))
    | _ => .error .valueError

/-- The body of the loop over the pulses (Controls.py:277-283, 310-316). -/
def adRow (M : MathFns K) (width : ℕ) (x : List K) (ts : List (String × TimeObj K)) (p : Pulse K) :
    Py (Pulse K × List K × List K) := do
  let v ← gather x p.ctrlList
  let t ← dictGet ts p.timeName
  let r ← p.getPulse M v t.getTime
  let u ← padRow width r.1.binsNumber r.2
  let g ← padRow width r.1.binsNumber r.1.timeGrid
  pure (r.1, u, g)

/-- `_get_controls_jax_obj` (Controls.py:290-322), and `_get_converted_jax_obj` (Controls.py:256-288), which differs in the
number type only. Simplified: the numbers of JAX (`complex64`) and its functions are those of the NumPy variant, and a search
vector of the wrong length raises as in NumPy (JAX clips the index). -/
def Controls.getControlsAD (M : MathFns K) (c : Controls K) (x : List K) : Py (Controls K × ControlsOut K) := do
  let ts ← setTimes x c.times
  let ps ← c.pulses.mapM (adRow M c.maxBins x ts)
  let prs ← c.params.mapM (fun p => do
    let v ← gather x p.ctrlList
    p.getParameter v)
  pure ({ pulses := ps.map (·.1), params := prs.map (·.1), times := ts },
        { pulses := ps.map (·.2.1), timegrids := ps.map (·.2.2), parameters := prs.map (·.2) })

/-- The methods of `Controls` used by `ADAlgorithm` (ADAlgorithm.py:94-101, 127, 138-142, 147-151, 186). -/
def adControlsOps (M : MathFns K) (rnd : ℕ → ℕ → List K) (simplex : ℕ → List K → List K → Py (List (List K))) :
    CtlOps (Controls K) (List K) (ControlsOut K) :=
  { controlsOps M rnd simplex with getControls := fun c x => c.getControlsAD M x }

end
end QuOCS

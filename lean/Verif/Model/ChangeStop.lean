/-
Model of the change-based stop with the entry `change_based_stop` as the user wrote it: entries can be missing or have other types.
(Model/Stopping.lean has the same functions for a number of evaluations and a change that are numbers.)

Simplifications: an integer and a float with the same value are the same number (as in Model/Settings.lean); an array in place of a
number or of the dictionary is treated as any other object of a wrong type (`TypeError`).
-/
import Verif.Model.Stopping
import Verif.Model.Settings

namespace QuOCS

/-- `v[k]`: `KeyError` if a dictionary does not have the key, `TypeError` for an object that is not a dictionary. -/
def subscript (v : PVal) (k : String) : Py PVal :=
  match v with
  | .dict d => match d.get? k with
    | some w => .ok w
    | none => .error .keyError
  | _ => .error .typeError

/-- The number that Python compares with: `True` is 1 and `False` is 0; `TypeError` for other objects. -/
def comparable : PVal → Py ℚ
  | .atom (.num q) => .ok q
  | .atom (.bool b) => .ok (if b then 1 else 0)
  | _ => .error .typeError

/-- The stopping-criteria object, and the messages that were logged. -/
structure CbsState where
  sc : Sc ℚ
  logged : List String

/-- `add_to_FoM_track` (StoppingCriteria.py:135-142) -/
def cbsAdd (v : PVal) (fom : ℚ) : Prog CbsState Unit := fun s =>
  match (subscript v "cbs_funct_evals").bind comparable with
  | .error e => (.error e, s)
  | .ok n => (.ok (), if n > 1 then { s with sc := { s.sc with track := s.sc.track ++ [fom] } } else s)

/-- `_check_cbs_stopping_crit` (StoppingCriteria.py:144-157). A number of evaluations that is not an integer cannot be used in the slice of
line 152: `TypeError`. -/
def cbsCriterion (v : PVal) : Prog CbsState Unit := fun s =>
  let s := { s with sc := { s.sc with reason := "Change-based stopping criterion reached." } }
  match subscript v "cbs_funct_evals", subscript v "cbs_change" with
  | .error e, _ => (.error e, s)
  | .ok _, .error e => (.error e, s)
  | .ok n, .ok w =>
    match comparable n with
    | .error e => (.error e, s)
    | .ok q =>
      if (s.sc.track.length : ℚ) ≥ q then
        if q.den = 1 then
          let last := s.sc.track.drop (s.sc.track.length - q.num.toNat)
          let change := pyAbs (lsSlope last * (q.num.toNat : ℚ))
          match comparable w with
          | .error e => (.error e, s)
          | .ok limit => (.ok (), if change < limit then { s with sc := { s.sc with isConverged := true } } else s)
        else (.error .typeError, s)
      else (.ok (), s)

/-- `check_advanced_stopping_criteria` (StoppingCriteria.py:159-169): exceptions are caught and logged; what was changed before stays
changed. -/
def cbsCheck (v : PVal) (s : CbsState) : CbsState :=
  match (subscript v "cbs_funct_evals").bind comparable with
  | .error _ => { s with logged := s.logged ++ ["Checking change-based stop failed! cbs_funct_evals not properly defined!"] }
  | .ok n =>
    if n > 1 then
      match cbsCriterion v s with
      | (.ok _, s) => s
      | (.error _, s) => { s with logged := s.logged ++ ["Checking change-based stop failed! cbs_funct_evals not properly defined!"] }
    else s

/-- The part of `_routine_call` that is about the stopping criteria, for the algorithms with a direct search
(OptimizationAlgorithm.py:211-240; the check itself does not raise, so its guard in lines 231-247 does nothing). -/
def cbsEvaluation (v : PVal) (s : CbsState) (fom : ℚ) : CbsState :=
  match cbsAdd v fom s with
  | (.ok _, s) => cbsCheck v s
  | (.error _, s) => cbsCheck v { s with logged := s.logged ++ ["FoM track for stopping criteria could not be updated!"] }

end QuOCS

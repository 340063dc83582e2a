import Verif.Model.Controls

/-!
# Dumping of the best controls (`utils/BestDump.py`) and of the controls for an external program
(`utils/FilesUpdateFom.py`)

Dictionaries are association lists with `dictSet` (Model/Controls.lean). The values (arrays, numbers, strings) are
elements of an arbitrary type `β`.
-/

namespace QuOCS

variable {β : Type}

/-- Python `k in d`. -/
def dictHas (d : List (String × β)) (k : String) : Bool := d.any (fun e => e.1 == k)

/-- Python `{**d, **e}`. -/
def dictMerge (d e : List (String × β)) : List (String × β) := e.foldl (fun acc x => dictSet acc x.1 x.2) d

/-- The name of the time grid of a pulse (BestDump.py:91). -/
def timeName (k : String) : String := "time_grid_for_" ++ k

/-- The key under which control number `i` (from 0) with the given name is stored (BestDump.py:88-90, 104-106):
a name already in use gets the running number appended. -/
def dumpKey (d : List (String × β)) (name : String) (i : ℕ) : String :=
  if dictHas d name then name ++ toString (i + 1) else name

/-- The loop over pulses and time grids (BestDump.py:87-94), from pulse number `i` on. The list is
`zip(pulses, timegrids)`. -/
def dumpPulses (names : List String) : ℕ → List (β × β) → List (String × β) → Py (List (String × β))
  | _, [], d => .ok d
  | i, (p, t) :: rest, d => do
    let name ← getIdx names i
    let key := dumpKey d name i
    dumpPulses names (i + 1) rest (dictSet (dictSet d key p) (timeName key) t)

/-- The loop over the parameters (BestDump.py:103-108). -/
def dumpParams (names : List String) : ℕ → List β → List (String × β) → Py (List (String × β))
  | _, [], d => .ok d
  | i, q :: rest, d => do
    let name ← getIdx names i
    let key := dumpKey d name i
    dumpParams names (i + 1) rest (dictSet d key q)

/-- The default names (BestDump.py:79, 101). -/
def defaultNames (stem : String) (n : ℕ) : List String := (List.range n).map (fun i => stem ++ toString (i + 1))

/-- `full_dict` of `dump_controls` (BestDump.py:73-111). `pulseNames`, `paramNames` are the entries `pulse_names`,
`parameter_names` of `kwargs` if present; `kwargs` is the whole keyword dictionary (these two included). -/
def dumpDict (pulses grids params : List β) (pulseNames paramNames : Option (List String))
    (kwargs : List (String × β)) : Py (List (String × β)) := do
  let d ← dumpPulses (pulseNames.getD (defaultNames "pulse_" pulses.length)) 0 (pulses.zip grids) []
  let d ← dumpParams (paramNames.getD (defaultNames "parameter_" params.length)) 0 params d
  .ok (dictMerge d kwargs)

/-- `dump_controls` (BestDump.py:56-118): the content of the best-controls file afterwards, given the content before.
Without a record nothing is written. `np.savez(path, **full_dict)` has a positional parameter called `file`, a key with
this name raises `TypeError`. Simplified: the bytes of the file are identified with the dictionary. -/
def dumpControlsFile (json : Bool) (isRecord : Bool) (pulses grids params : List β)
    (pulseNames paramNames : Option (List String)) (kwargs : List (String × β)) (old : Option (List (String × β))) :
    Py (Option (List (String × β))) :=
  if !isRecord then .ok old
  else do
    let d ← dumpDict pulses grids params pulseNames paramNames kwargs
    if !json && dictHas d "file" then .error .typeError else .ok (some d)

/-- What a file can hold on disk while it is being rewritten. -/
inductive FileState (α : Type*)
  | absent
  | partly
  | complete (content : α)
  deriving DecidableEq, Repr

/-- The states the best-controls file goes through during one successful dump: opening for writing truncates the file,
the content follows (`open(.., 'w')` + `write`, BestDump.py:147-148; `np.savez` opens the zip file for writing,
BestDump.py:118). -/
def dumpWriteSteps {α : Type*} (old : FileState α) (new : α) : List (FileState α) := [old, .partly, .complete new]

/-- The loop of `_put_controls_json` over pulses and time grids (FilesUpdateFom.py:155-158), numbers from 1. -/
def jsonPulses : ℕ → List (β × β) → List (String × β) → List (String × β)
  | _, [], d => d
  | i, (p, t) :: rest, d =>
    jsonPulses (i + 1) rest (dictSet (dictSet d ("pulse" ++ toString i) p) ("time_grid" ++ toString i) t)

/-- The loop over the parameters (FilesUpdateFom.py:161-163). -/
def jsonParams : ℕ → List β → List (String × β) → List (String × β)
  | _, [], d => d
  | i, q :: rest, d => jsonParams (i + 1) rest (dictSet d ("parameter" ++ toString i) q)

/-- The dictionary written by `_put_controls_json` (FilesUpdateFom.py:142-164). -/
def jsonControls (pulses grids params : List β) : List (String × β) :=
  jsonParams 1 params (jsonPulses 1 (pulses.zip grids) [])

/-- The lines written by `_put_controls_txt` (FilesUpdateFom.py:126-140): one line for each pulse and time grid, one line
per parameter; `fmt` is the formatting of one number with `%f`. -/
def txtControls (fmt : β → String) (pulses grids : List (List β)) (params : List β) : List (List String) :=
  (pulses.zip grids).flatMap (fun pt => [pt.1.map fmt, pt.2.map fmt]) ++ params.map (fun q => [fmt q])

end QuOCS

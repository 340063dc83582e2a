/-
The file with the best controls during an optimization: every report of the algorithm goes to `BestDump.dump_controls` together with the
controls and their names (AllInOneCommunication.py:164-200, BestDump.py:56-118).
-/
import Verif.Model.Dump
import Verif.Model.Settings
import Verif.Model.Algorithm

namespace QuOCS

/-- A value in the file: an array, a number, a list of names; `untracked` is a number that is not followed by the model. -/
inductive Stored where
  | row (l : List ℚ)
  | num (q : ℚ)
  | names (l : List PVal)
  | untracked

/-- The content of the file. -/
abbrev ResultsDict := List (String × Stored)

/-- A name as a key. `"time_grid_for_" + name` raises `TypeError` for another type (BestDump.py:91). Simplified: for the name of a
parameter the same is assumed here also with the format `json`, where a number would be accepted as a key. -/
def nameKey : PVal → Py String
  | .atom (.str s) => .ok s
  | _ => .error .typeError

/-- The further entries of the file: the names (OptimizationAlgorithm.py:305-316) and the report (dCRABAlgorithm.py:163-169,
DirectSearchAlgorithm.py:271-276, GRAPEAlgorithm.py:123-128, ADAlgorithm.py:213-218); `is_record` is a parameter of `dump_controls` and is not
stored. A report is sent on with status code zero only (AllInOneCommunication.py:174-179). Simplified: the number of the super-iteration (`super_it`,
dCRAB) is not tracked. Left out: the entry `sigma` of the reports made by re-evaluation and drift compensation (dCRABAlgorithm.py:296-299, 368-372), which
have no status code. -/
def reportEntries (kind : AlgKind) (core : CoreSettings) (fom : ℚ) (number : ℕ) : ResultsDict :=
  [("pulse_names", .names core.pulseNames), ("parameter_names", .names core.paramNames), ("time_names", .names core.timeNames),
   ("FoM", .num fom), ("iteration_number", .num number)] ++
   (if kind = .dcrab then [("super_it", .untracked)] else []) ++ [("status_code", .num 0)]

/-- One report (`update_controls`, AllInOneCommunication.py:196-200): the file afterwards, given the file before. Before the first controls are sent the
dictionary of the controls is empty (AllInOneCommunication.py:102). -/
def saveReport (kind : AlgKind) (format : PVal) (core : CoreSettings) (old : Option ResultsDict) (r : DumpCall (ControlsOut ℚ) ℚ) : Py (Option ResultsDict) := do
  let pn ← core.pulseNames.mapM nameKey
  let qn ← core.paramNames.mapM nameKey
  let c := r.ctl.getD ⟨[], [], []⟩
  dumpControlsFile (decide (strOpt (some format) = some "json")) r.isRecord (c.pulses.map .row) (c.timegrids.map .row) (c.parameters.map .num)
    (some pn) (some qn) (reportEntries kind core r.fom r.iteration) old

/-- The file with the best controls after the reports. In the model of a run saving succeeds; the program would stop with the exception of the first report that
cannot be saved. -/
def resultsFile (kind : AlgKind) (format : PVal) (core : CoreSettings) (reports : List (DumpCall (ControlsOut ℚ) ℚ)) : Py (Option ResultsDict) :=
  reports.foldlM (saveReport kind format core) none

/-- One report of a run with automatic differentiation. The report has no entry `super_it` (ADAlgorithm.py:213-218), as with GRAPE. The controls are complex
arrays of `jax` (Controls.py:293-326): `numpy.savez` converts them, but with the format `json` `NumpyEncoder` (BestDump.py:24-35) passes them on to
`json.JSONEncoder.default`, which raises `TypeError`. Simplified: exact numbers instead of complex numbers in single precision. -/
def saveReportAD (format : PVal) (core : CoreSettings) (old : Option ResultsDict) (r : DumpCall (ControlsOut ℚ) ℚ) : Py (Option ResultsDict) := do
  let file ← saveReport .grape format core old r
  let c := r.ctl.getD ⟨[], [], []⟩
  if strOpt (some format) = some "json" ∧ r.isRecord ∧ (c.pulses ≠ [] ∨ c.parameters ≠ []) then .error .typeError else .ok file

/-- The file with the best controls after the reports of a run with automatic differentiation. -/
def resultsFileAD (format : PVal) (core : CoreSettings) (reports : List (DumpCall (ControlsOut ℚ) ℚ)) : Py (Option ResultsDict) :=
  reports.foldlM (saveReportAD format core) none

end QuOCS

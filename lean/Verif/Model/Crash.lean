/-
What is left on disk when the process dies during a run.
-/
import Verif.Model.Algorithm
import Verif.Model.Dump

namespace QuOCS
variable {C F : Type}

/-- The moments at which the process can die, one after the other, as far as the best-controls file can tell: the number of
finished calls of `dump_controls`, and what is in the file. A call for a record writes the file (BestDump.py:70-71, 113-118),
another call returns at once. -/
def crashPoints (done : ℕ) (st : FileState (DumpCall C F)) : List (DumpCall C F) → List (ℕ × FileState (DumpCall C F))
  | [] => [(done, st)]
  | d :: ds =>
    if d.isRecord then
      (dumpWriteSteps st d).map (fun s => (done, s)) ++ crashPoints (done + 1) ((dumpWriteSteps st d).getLastD st) ds
    else (done, st) :: crashPoints (done + 1) st ds

end QuOCS

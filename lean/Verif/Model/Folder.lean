import Verif.Model.Prog
import Mathlib.Data.List.Infix

/-!
# The results folder of a run (`communication/AllInOneCommunication.py`, `tools/logger.py`)

A path is the list of its components, **last component first**; `x :: p` is the entry `x` in the folder `p`.
Simplified: no symbolic links, no permissions, component names contain no separators.
-/

namespace QuOCS

/-- A path, last component first. -/
abbrev Path := List String

/-- A file system: which paths are folders, and the content of the files. -/
structure FS where
  isDir : Path → Bool
  file : Path → Option String

/-- Something exists at the path. -/
def FS.has (fs : FS) (p : Path) : Bool := fs.isDir p || (fs.file p).isSome

/-- `os.mkdir`: atomic, `FileExistsError` if something exists at the path, `FileNotFoundError`/`NotADirectoryError` if the
parent is not a folder. -/
def FS.mkdir (p : Path) (fs : FS) : Py FS :=
  if fs.has p then .error .fileExists
  else if fs.isDir p.tail then .ok { fs with isDir := fun q => if q = p then true else fs.isDir q }
  else .error .osError

/-- `open(path, "w")` + `write` + `close`: creates or overwrites a file. -/
def FS.write (p : Path) (content : String) (fs : FS) : Py FS :=
  if fs.isDir p || !fs.isDir p.tail then .error .osError
  else .ok { fs with file := fun q => if q = p then some content else fs.file q }

/-- `logging.FileHandler(path)`: opens for appending; creates the file if there is none. -/
def FS.append (p : Path) (content : String) (fs : FS) : Py FS :=
  if fs.isDir p || !fs.isDir p.tail then .error .osError
  else .ok { fs with file := fun q => if q = p then some ((fs.file p).getD "" ++ content) else fs.file q }

/-- The running process: the file system, the number of file-system calls made so far and, for the properties only,
the file system before and after each of its own changes. -/
structure Proc where
  fs : FS
  tick : ℕ
  trace : List (FS × FS)

/-- Other processes act before the next file-system call: `env n` is what they do before call number `n`. -/
def others (env : ℕ → FS → FS) : Prog Proc Unit := Prog.modify (fun s => { s with fs := env s.tick s.fs, tick := s.tick + 1 })

/-- A reading call. -/
def look {α : Type} (env : ℕ → FS → FS) (f : FS → α) : Prog Proc α := do
  others env
  fun s => (.ok (f s.fs), s)

/-- A writing call. -/
def act (env : ℕ → FS → FS) (f : FS → Py FS) : Prog Proc Unit := do
  others env
  fun s => match f s.fs with
    | .error e => (.error e, s)
    | .ok fs' => (.ok (), { s with fs := fs', trace := s.trace ++ [(s.fs, fs')] })

/-- `try: m except FileExistsError: pass`. -/
def ignoreExists {S : Type} (m : Prog S Unit) : Prog S Unit := fun s =>
  match m s with
  | (.error .fileExists, s') => (.ok (), s')
  | r => r

/-- `os.makedirs(path)`: creates missing parents first (a `FileExistsError` for a parent is ignored), then the folder
itself, which must not exist. -/
def makedirs (env : ℕ → FS → FS) : Path → Prog Proc Unit
  | [] => act env (FS.mkdir [])
  | x :: p => do
    if ← look env (fun fs => fs.has p) then act env (FS.mkdir (x :: p))
    else
      ignoreExists (makedirs env p)
      act env (FS.mkdir (x :: p))

/-- What a run knows about its folder. -/
structure RunFolder where
  dateTime : String
  path : Path

/-- The name of the folder (AllInOneCommunication.py:64-68): `fmt`, `fmtMicro` are the two `strftime` formats of the
times read from the clock. -/
def folderName (fmt fmtMicro : ℚ → String) (now₁ now₂ : ℚ) (micro : Bool) (job : String) : String × String :=
  let dt := if micro then fmtMicro now₂ else fmt now₁
  (dt, dt ++ "_" ++ job)

/-- The common folder of all runs (AllInOneCommunication.py:73-75). -/
def ensureRoot (env : ℕ → FS → FS) (root : Path) : Prog Proc Unit :=
  look env (fun fs => fs.isDir root) >>= fun c => if c then pure () else makedirs env root

/-- The file handler of the logger (logger.py:51-57). -/
def openLog (env : ℕ → FS → FS) (logfile : Bool) (p : Path) : Prog Proc Unit :=
  if logfile then act env (FS.append p "") else pure ()

/-- The file-system part of `AllInOneCommunication.__init__` (AllInOneCommunication.py:73-93, logger.py:30-57), for the
date-time string `dt`. `version` is the line written to `quocs_version.txt`. -/
def startRun (env : ℕ → FS → FS) (cwd : Path) (dt job version : String) (logfile : Bool) : Prog Proc RunFolder := do
  let root := "QuOCS_Results" :: cwd
  let results := (dt ++ "_" ++ job) :: root
  ensureRoot env root
  if ← look env (fun fs => fs.isDir results) then Prog.raise .fileExists
  else
    makedirs env results
    act env (FS.write ("quocs_version.txt" :: results) version)
    openLog env logfile ((dt ++ "_logging.log") :: results)
    pure ⟨dt, results⟩

/-- A file written later by the run: `print_optimization_dictionary` (AllInOneCommunication.py:127-130), `dump_controls`,
`dump_dict`, `other_dumps` (BestDump.py:113-148) write to, and log messages are appended to a file in the results
folder. -/
inductive RunWrite
  | overwrite (name content : String)
  | append (name content : String)

/-- Execution of these writes. -/
def runWrites (env : ℕ → FS → FS) (r : RunFolder) : List RunWrite → Prog Proc Unit
  | [] => pure ()
  | .overwrite name content :: ws => do act env (FS.write (name :: r.path) content); runWrites env r ws
  | .append name content :: ws => do act env (FS.append (name :: r.path) content); runWrites env r ws

/-- The whole life of a run: constructor, then any writes. -/
def wholeRun (env : ℕ → FS → FS) (cwd : Path) (dt job version : String) (logfile : Bool) (ws : List RunWrite) :
    Prog Proc RunFolder := do
  let r ← startRun env cwd dt job version logfile
  runWrites env r ws
  pure r

end QuOCS

import Verif.Model.Algorithm
import Mathlib.Data.Rat.Floor

/-!
# Evaluation of the figure of merit by an external program (`utils/FilesUpdateFom.py`)

The external program is arbitrary: before every file operation of QuOCS it may write or delete `FoM.txt` any number of
times, depending on everything that has happened so far (`Ext`). Writing `FoM.txt` is modelled as one step; a program
that writes it in pieces is a program that writes several times.
-/

namespace QuOCS

/-- What happens to the exchanged files, in order. -/
inductive FileEv (C : Type)
  /-- QuOCS looked for `FoM.txt` -/
  | looked (found : Bool)
  /-- QuOCS removed `FoM.txt` -/
  | removed
  /-- QuOCS wrote the controls file -/
  | published (c : C)
  /-- the external program wrote this line to `FoM.txt` -/
  | wrote (line : String)
  /-- the external program deleted `FoM.txt` -/
  | deleted
  /-- QuOCS read this line from `FoM.txt` -/
  | read (line : String)
  deriving DecidableEq, Repr

/-- One action of the external program. -/
inductive ExtAct
  | write (line : String)
  | delete

/-- An external program: what it does next, given everything that happened so far. -/
abbrev Ext (C : Type) := List (FileEv C) → List ExtAct

/-- State of the exchange: content of `FoM.txt`, events so far, total time slept in seconds. -/
structure Exch (C : Type) where
  fom : Option String
  events : List (FileEv C)
  slept : ℚ

/-- Settings of `FilesUpdateFoM` (FilesUpdateFom.py:34-59): `max_time`, whether `file_extension` is `json` or `txt`
(otherwise only a message is printed, FilesUpdateFom.py:117-124), whether the controls file can be written (for json
errors are swallowed by `writejsonfile`, inputoutput.py:61-77); `parse` is `float(str(line).strip())`, `none` for
`ValueError`. -/
structure ExchCfg (F : Type) where
  maxTime : ℚ
  known : Bool
  writable : Bool
  parse : String → Option F

variable {C F : Type}

/-- One action of the external program. -/
def Exch.apply (s : Exch C) : ExtAct → Exch C
  | .write t => { s with fom := some t, events := s.events ++ [.wrote t] }
  | .delete => { s with fom := none, events := s.events ++ [.deleted] }

/-- The external program acts. -/
def external (ext : Ext C) : Prog (Exch C) Unit :=
  Prog.modify (fun s => (ext s.events).foldl Exch.apply s)

/-- `os.path.exists(FoM_path)`, after the external program had its turn. -/
def existsFoM (ext : Ext C) : Prog (Exch C) Bool := do
  external ext
  fun s => (.ok s.fom.isSome, { s with events := s.events ++ [.looked s.fom.isSome] })

/-- `time.sleep`. -/
def sleep (t : ℚ) : Prog (Exch C) Unit := Prog.modify (fun s => { s with slept := s.slept + t })

/-- `os.remove(FoM_path)`: `FileNotFoundError` if the file is gone. -/
def removeFoM (ext : Ext C) : Prog (Exch C) Unit := do
  external ext
  fun s => match s.fom with
    | none => (.error .osError, s)
    | some _ => (.ok (), { s with fom := none, events := s.events ++ [.removed] })

/-- Removal of the previous file (FilesUpdateFom.py:71-73). -/
def removeOld (ext : Ext C) : Prog (Exch C) Unit :=
  existsFoM ext >>= fun found => if found then removeFoM ext else pure ()

/-- `put_controls_into_user_path` (FilesUpdateFom.py:108-124). -/
def putControls (cfg : ExchCfg F) (ext : Ext C) (c : C) : Prog (Exch C) Unit := do
  external ext
  fun s => (.ok (), if cfg.known && cfg.writable then { s with events := s.events ++ [.published c] } else s)

/-- The waiting loop (FilesUpdateFom.py:92-96): `true` if the file appeared, `false` if the time is over. -/
def waitLoop (cfg : ExchCfg F) (ext : Ext C) : ℕ → ℕ → Prog (Exch C) Bool
  | 0, _ => Prog.raise .outOfFuel
  | fuel + 1, counter =>
    existsFoM ext >>= fun found =>
      if found then pure true
      else do
        sleep (1 / 2)
        if cfg.maxTime ≤ ((counter + 1 : ℕ) : ℚ) then pure false else waitLoop cfg ext fuel (counter + 1)

/-- Opening and reading (FilesUpdateFom.py:97-106); every exception leads to status code -3. -/
def readFoM (cfg : ExchCfg F) (ext : Ext C) : Prog (Exch C) (Answer F) := do
  sleep (1 / 100)
  external ext
  fun s => match s.fom with
    | none => (.ok ⟨none, none, some (-3)⟩, s)
    | some t => match cfg.parse t with
      | none => (.ok ⟨none, none, some (-3)⟩, { s with events := s.events ++ [.read t] })
      | some v => (.ok ⟨some v, none, none⟩, { s with events := s.events ++ [.read t] })

/-- `read_FoM_values` (FilesUpdateFom.py:82-106). -/
def readValues (cfg : ExchCfg F) (ext : Ext C) (fuel : ℕ) : Prog (Exch C) (Answer F) :=
  waitLoop cfg ext fuel 0 >>= fun found => if found then readFoM cfg ext else pure ⟨none, none, some (-2)⟩

/-- `get_FoM` (FilesUpdateFom.py:61-80). -/
def exchange (cfg : ExchCfg F) (ext : Ext C) (fuel : ℕ) (c : C) : Prog (Exch C) (Answer F) := do
  removeOld ext
  putControls cfg ext c
  readValues cfg ext fuel

/-- Several evaluations, as long as each one yields a value. -/
def exchanges (cfg : ExchCfg F) (ext : Ext C) (fuel : ℕ) : List C → Prog (Exch C) (List F)
  | [] => pure []
  | c :: cs =>
    exchange cfg ext fuel c >>= fun a =>
      match a.fom with
      | none => Prog.raise .typeError
      | some v => do
        let vs ← exchanges cfg ext fuel cs
        pure (v :: vs)

end QuOCS

import Verif.Model.FileExchange

/-!
# Vocabulary for the exchange of files
-/

namespace QuOCS.Spec

variable {C : Type}

/-- number of times the external program wrote `FoM.txt` -/
def numWritten (es : List (FileEv C)) : ℕ := (es.filter (fun e => match e with | .wrote _ => true | _ => false)).length

/-- number of times QuOCS wrote the controls file -/
def numPublished (es : List (FileEv C)) : ℕ :=
  (es.filter (fun e => match e with | .published _ => true | _ => false)).length

/-- The external program answers every controls file at most once, and never without having been asked: whenever it
writes, it has written less often than controls were published. -/
def AnswersOnce (es : List (FileEv C)) : Prop :=
  ∀ before t later, es = before ++ .wrote t :: later → numWritten before < numPublished before

/-- The external program never writes. -/
def Silent (ext : Ext C) : Prop := ∀ es t, ExtAct.write t ∉ ext es

end QuOCS.Spec

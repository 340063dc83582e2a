/-
Specification of the JSON files.
-/
import Verif.Model.Json

namespace QuOCS

mutual
/-- The documented content of the file: arrays become lists, classes and functions become `None`. -/
def PVal.documented : PVal → PVal
  | .atom a => .atom a
  | .list l => .list l.documented
  | .dict l => .dict l.documented
  | .ndarray v => v.documented
  | .cls _ => .atom .null
  | .fn _ => .atom .null
  | .other n => .other n
@[inherit_doc PVal.documented] def PList.documented : PList → PList
  | .nil => .nil
  | .cons v l => .cons v.documented l.documented
@[inherit_doc PVal.documented] def PDict.documented : PDict → PDict
  | .nil => .nil
  | .cons k v l => .cons k v.documented l.documented
end

mutual
/-- No function and no unsupported object occurs in the value. -/
def PVal.Plain : PVal → Prop
  | .atom _ => True
  | .list l => l.Plain
  | .dict l => l.Plain
  | .ndarray v => v.Plain
  | .cls _ => True
  | .fn _ => False
  | .other _ => False
@[inherit_doc PVal.Plain] def PList.Plain : PList → Prop
  | .nil => True
  | .cons v l => v.Plain ∧ l.Plain
@[inherit_doc PVal.Plain] def PDict.Plain : PDict → Prop
  | .nil => True
  | .cons _ v l => v.Plain ∧ l.Plain
end

/-- The keys of a dictionary. -/
def PDict.keys : PDict → List String
  | .nil => []
  | .cons k _ l => k :: l.keys

mutual
/-- The keys of each dictionary are different (as in every Python dictionary). -/
def PVal.Proper : PVal → Prop
  | .list l => l.Proper
  | .dict l => l.keys.Nodup ∧ l.Proper
  | .ndarray v => v.Proper
  | .atom _ | .cls _ | .fn _ | .other _ => True
@[inherit_doc PVal.Proper] def PList.Proper : PList → Prop
  | .nil => True
  | .cons v l => v.Proper ∧ l.Proper
@[inherit_doc PVal.Proper] def PDict.Proper : PDict → Prop
  | .nil => True
  | .cons _ v l => v.Proper ∧ l.Proper
end

end QuOCS

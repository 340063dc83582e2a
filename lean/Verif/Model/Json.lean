/-
Model of `utils/inputoutput.py`: JSON files.

The text of a file is modelled as its sequence of tokens; how numbers and strings are written as characters is not modelled.
-/
import Verif.Model.Numpy

namespace QuOCS

/-- Numbers, strings and constants in a file. -/
inductive JAtom where
  | null
  | bool (b : Bool)
  | num (q : ℚ)
  | str (s : String)
  deriving DecidableEq, Repr

/-- Tokens of a JSON text. -/
inductive JTok where
  | lbrace | rbrace | lbrack | rbrack | comma | colon
  | atom (a : JAtom)
  deriving DecidableEq, Repr

mutual
/-- Python values that occur in dictionaries passed to `writejsonfile`. `ndarray v` is an array with `tolist()` equal to `v`,
`cls` a class, `fn` a function, `other` another object that is not supported by `json`. Simplification: keys of
dictionaries are strings. -/
inductive PVal where
  | atom (a : JAtom)
  | list (l : PList)
  | dict (l : PDict)
  | ndarray (v : PVal)
  | cls (name : String)
  | fn (name : String)
  | other (name : String)
/-- The items of a list. -/
inductive PList where
  | nil
  | cons (v : PVal) (l : PList)
/-- The items of a dictionary, in the order of insertion. -/
inductive PDict where
  | nil
  | cons (k : String) (v : PVal) (l : PDict)
end

/-- What was written before the encoder finished or failed (`false`: `TypeError`). -/
abbrev Written := List JTok × Bool

/-- Writing one thing after the other: nothing is written after a failure. -/
def Written.andThen (a b : Written) : Written := if a.2 then (a.1 ++ b.1, b.2) else a

/-- Writing tokens. -/
def Written.toks (l : List JTok) : Written := (l, true)

mutual
/-- The chunks written by `json.dump(v, fp, indent=4, cls=ObjectEncoder)` (inputoutput.py:72), with `ObjectEncoder.default`
(inputoutput.py:48-58): arrays as lists and classes as null. The test `obj is callable` (line 54) compares the object with the
built-in function `callable` and is never true for an object of the user, so functions raise `TypeError` (line 58). -/
def encVal : PVal → Written
  | .atom a => .toks [.atom a]
  | .list l => (Written.toks [.lbrack]).andThen ((encList true l).andThen (.toks [.rbrack]))
  | .dict l => (Written.toks [.lbrace]).andThen ((encDict true l).andThen (.toks [.rbrace]))
  | .ndarray v => encVal v
  | .cls _ => .toks [.atom .null]
  | .fn _ => ([], false)
  | .other _ => ([], false)
@[inherit_doc encVal] def encList (first : Bool) : PList → Written
  | .nil => .toks []
  | .cons v l => (Written.toks (if first then [] else [.comma])).andThen ((encVal v).andThen (encList false l))
@[inherit_doc encVal] def encDict (first : Bool) : PDict → Written
  | .nil => .toks []
  | .cons k v l =>
    (Written.toks ((if first then [] else [.comma]) ++ [.atom (.str k), .colon])).andThen ((encVal v).andThen (encDict false l))
end

/-- `d[k] = v` -/
def PDict.insert (k : String) (v : PVal) : PDict → PDict
  | .nil => .cons k v .nil
  | .cons k' v' l => if k = k' then .cons k v l else .cons k' v' (l.insert k v)

mutual
/-- `json.load` (inputoutput.py:32) on tokens; the number bounds the depth and length of what is read. -/
def parseVal : ℕ → List JTok → Option (PVal × List JTok)
  | 0, _ => none
  | _ + 1, .atom a :: r => some (.atom a, r)
  | _ + 1, .lbrack :: .rbrack :: r => some (.list .nil, r)
  | n + 1, .lbrack :: r => (parseItems n r).map fun p => (.list p.1, p.2)
  | _ + 1, .lbrace :: .rbrace :: r => some (.dict .nil, r)
  | n + 1, .lbrace :: r => (parsePairs n .nil r).map fun p => (.dict p.1, p.2)
  | _ + 1, _ => none
@[inherit_doc parseVal] def parseItems : ℕ → List JTok → Option (PList × List JTok)
  | 0, _ => none
  | n + 1, r =>
    match parseVal n r with
    | some (v, .comma :: r') => (parseItems n r').map fun p => (.cons v p.1, p.2)
    | some (v, .rbrack :: r') => some (.cons v .nil, r')
    | _ => none
@[inherit_doc parseVal] def parsePairs : ℕ → PDict → List JTok → Option (PDict × List JTok)
  | 0, _, _ => none
  | n + 1, acc, .atom (.str k) :: .colon :: r =>
    match parseVal n r with
    | some (v, .comma :: r') => parsePairs n (acc.insert k v) r'
    | some (v, .rbrace :: r') => some (acc.insert k v, r')
    | _ => none
  | _ + 1, _, _ => none
end

/-- `json.load` of a complete file: text after the value is an error. -/
def jsonLoad (t : List JTok) : Option PVal :=
  match parseVal (t.length + 1) t with
  | some (v, []) => some v
  | _ => none

/-- `readjson` (inputoutput.py:22-41): `None` if the file does not exist or is not valid. -/
def readJson (file : Option (List JTok)) : PVal :=
  match file with
  | none => .atom .null
  | some t => (jsonLoad t).getD (.atom .null)

/-- `writejsonfile` (inputoutput.py:61-77): the error code and the file afterwards. `canOpen` tells whether the file can be opened for
writing; opening it removes the old content. -/
def writeJson (canOpen : Bool) (v : PVal) (file : Option (List JTok)) : ℕ × Option (List JTok) :=
  if canOpen then (if (encVal v).2 then 0 else 1, some (encVal v).1) else (1, file)

end QuOCS

/-
C73: JSON files.
-/
import Verif.Spec.Json

set_option linter.unusedSectionVars false
set_option linter.unusedVariables false

namespace QuOCS
namespace Json

theorem andThen_ok {a b : Written} (h : a.2 = true) : a.andThen b = (a.1 ++ b.1, b.2) := by rw [Written.andThen, if_pos h]

mutual
/-- plain values are written completely -/
theorem plain_ok : ∀ v : PVal, (encVal v).2 = true ↔ v.Plain
  | .atom _ => by simp [encVal, PVal.Plain, Written.toks]
  | .list l => by
    have := list_ok l true
    by_cases h : (encList true l).2 = true
    · simp [encVal, PVal.Plain, Written.toks, Written.andThen, h, this.1 h]
    · simp [encVal, PVal.Plain, Written.toks, Written.andThen, h]
      exact fun hp => h (this.2 hp)
  | .dict l => by
    have := dict_ok l true
    by_cases h : (encDict true l).2 = true
    · simp [encVal, PVal.Plain, Written.toks, Written.andThen, h, this.1 h]
    · simp [encVal, PVal.Plain, Written.toks, Written.andThen, h]
      exact fun hp => h (this.2 hp)
  | .ndarray v => by rw [encVal, PVal.Plain]; exact plain_ok v
  | .cls _ => by simp [encVal, PVal.Plain, Written.toks]
  | .fn _ => by simp [encVal, PVal.Plain]
  | .other _ => by simp [encVal, PVal.Plain]
theorem list_ok : ∀ (l : PList) (b : Bool), (encList b l).2 = true ↔ l.Plain
  | .nil, b => by simp [encList, PList.Plain, Written.toks]
  | .cons v l, b => by
    have h1 := plain_ok v
    have h2 := list_ok l false
    rw [PList.Plain, ← h1, ← h2, encList]
    by_cases h : (encVal v).2 = true <;> simp [Written.toks, Written.andThen, h]
theorem dict_ok : ∀ (l : PDict) (b : Bool), (encDict b l).2 = true ↔ l.Plain
  | .nil, b => by simp [encDict, PDict.Plain, Written.toks]
  | .cons k v l, b => by
    have h1 := plain_ok v
    have h2 := dict_ok l false
    rw [PDict.Plain, ← h1, ← h2, encDict]
    by_cases h : (encVal v).2 = true <;> simp [Written.toks, Written.andThen, h]
end

/-- the items of one dictionary after those of another -/
def append : PDict → PDict → PDict
  | .nil, l => l
  | .cons k v d, l => .cons k v (append d l)

theorem insert_append {k : String} {v : PVal} : ∀ {d l : PDict}, k ∉ d.keys → append (d.insert k v) l = append d (.cons k v l)
  | .nil, l, _ => rfl
  | .cons k' v' d, l, h => by
    rw [PDict.keys, List.mem_cons, not_or] at h
    rw [PDict.insert, if_neg h.1, append, append, insert_append h.2]

theorem insert_keys {k : String} {v : PVal} : ∀ {d : PDict} {j : String}, j ∈ (d.insert k v).keys → j = k ∨ j ∈ d.keys
  | .nil, j, h => by
    simp only [PDict.insert, PDict.keys, List.mem_cons, List.not_mem_nil, or_false] at h
    exact .inl h
  | .cons k' v' d, j, h => by
    unfold PDict.insert at h
    split at h
    · next e =>
      rw [PDict.keys, List.mem_cons] at h
      rcases h with h | h
      · exact .inl h
      · exact .inr (by rw [PDict.keys]; exact List.mem_cons_of_mem _ h)
    · rw [PDict.keys, List.mem_cons] at h
      rcases h with h | h
      · exact .inr (by rw [PDict.keys, h]; exact List.mem_cons_self)
      · rcases insert_keys h with h | h
        · exact .inl h
        · exact .inr (by rw [PDict.keys]; exact List.mem_cons_of_mem _ h)

theorem append_nil : ∀ d : PDict, append d .nil = d
  | .nil => rfl
  | .cons k v d => by rw [append, append_nil d]

theorem encList_cons {v : PVal} {l : PList} (hv : v.Plain) :
    (encList true (.cons v l)).1 = (encVal v).1 ++ (encList false l).1 ∧ (encList false (.cons v l)).1 = .comma :: ((encVal v).1 ++ (encList false l).1) := by
  have := (plain_ok v).2 hv
  simp [encList, Written.toks, Written.andThen, this]

theorem encDict_cons {k : String} {v : PVal} {l : PDict} (hv : v.Plain) :
    (encDict true (.cons k v l)).1 = .atom (.str k) :: .colon :: ((encVal v).1 ++ (encDict false l).1) ∧
    (encDict false (.cons k v l)).1 = .comma :: .atom (.str k) :: .colon :: ((encVal v).1 ++ (encDict false l).1) := by
  have := (plain_ok v).2 hv
  simp [encDict, Written.toks, Written.andThen, this]

theorem encVal_list {l : PList} (hl : l.Plain) : (encVal (.list l)).1 = .lbrack :: ((encList true l).1 ++ [.rbrack]) := by
  have := (list_ok l true).2 hl
  simp [encVal, Written.toks, Written.andThen, this]

theorem encVal_dict {l : PDict} (hl : l.Plain) : (encVal (.dict l)).1 = .lbrace :: ((encDict true l).1 ++ [.rbrace]) := by
  have := (dict_ok l true).2 hl
  simp [encVal, Written.toks, Written.andThen, this]

/-- the text of a value does not start with a closing bracket -/
theorem head_ne : ∀ {v : PVal}, v.Plain → ∃ t r, (encVal v).1 = t :: r ∧ t ≠ .rbrack ∧ t ≠ .rbrace
  | .atom a, _ => ⟨_, _, rfl, by simp, by simp⟩
  | .list l, h => ⟨_, _, encVal_list h, by simp, by simp⟩
  | .dict l, h => ⟨_, _, encVal_dict h, by simp, by simp⟩
  | .ndarray v, h => by
    obtain ⟨t, r, h1, h2⟩ := head_ne (v := v) h
    exact ⟨t, r, by rw [encVal, h1], h2⟩
  | .cls _, _ => ⟨_, _, rfl, by simp, by simp⟩

mutual
/-- reading what was written gives the documented value -/
theorem val_round : ∀ (v : PVal), v.Plain → v.Proper → ∀ (n : ℕ) (rest : List JTok), (encVal v).1.length < n →
    parseVal n ((encVal v).1 ++ rest) = some (v.documented, rest)
  | .atom a, _, _, n + 1, rest, h => by simp [encVal, Written.toks, parseVal, PVal.documented]
  | .list .nil, _, _, n + 1, rest, h => by
    simp [encVal, encList, Written.toks, Written.andThen, parseVal, PVal.documented, PList.documented]
  | .list (.cons v l), hp, hw, n + 1, rest, h => by
    rw [encVal_list hp] at h ⊢
    obtain ⟨t, r, h1, h2, -⟩ := head_ne hp.1
    have key := list_round (.cons v l) (by simp) hp hw n rest (by simp at h ⊢; omega)
    have e : (encList true (.cons v l)).1 ++ .rbrack :: rest = t :: (r ++ (encList false l).1 ++ .rbrack :: rest) := by
      rw [(encList_cons hp.1).1, h1]; simp
    rw [e] at key
    have e2 : JTok.lbrack :: ((encList true (.cons v l)).1 ++ [.rbrack]) ++ rest = .lbrack :: t :: (r ++ (encList false l).1 ++ .rbrack :: rest) := by
      rw [(encList_cons hp.1).1, h1]; simp
    rw [e2, parseVal, key]
    · rfl
    · intro r' h'
      exact h2 (by simpa using (List.cons.inj h').1)
  | .dict .nil, _, _, n + 1, rest, h => by
    simp [encVal, encDict, Written.toks, Written.andThen, parseVal, PVal.documented, PDict.documented]
  | .dict (.cons k v l), hp, hw, n + 1, rest, h => by
    rw [encVal_dict hp] at h ⊢
    have key := dict_round (.cons k v l) (by simp) hp hw.2 hw.1 n .nil (by simp [PDict.keys]) rest (by simp at h ⊢; omega)
    rw [(encDict_cons hp.1).1] at key ⊢
    simp only [List.cons_append, List.append_assoc, List.nil_append] at key ⊢
    rw [parseVal, key]
    · rfl
    · intro r' h'
      simp at h'
  | .ndarray v, hp, hw, n, rest, h => by
    rw [encVal] at h ⊢
    rw [PVal.documented]
    exact val_round v hp hw n rest h
  | .cls _, _, _, n + 1, rest, h => by simp [encVal, Written.toks, parseVal, PVal.documented]
theorem list_round : ∀ (l : PList), l ≠ .nil → l.Plain → l.Proper → ∀ (n : ℕ) (rest : List JTok), (encList true l).1.length + 1 < n →
    parseItems n ((encList true l).1 ++ .rbrack :: rest) = some (l.documented, rest)
  | .cons v .nil, _, hp, hw, n + 1, rest, h => by
    rw [(encList_cons hp.1).1] at h ⊢
    have key := val_round v hp.1 hw.1 n (.rbrack :: rest) (by simp at h; omega)
    simp [encList, Written.toks, parseItems, key, PList.documented]
  | .cons v (.cons w l), _, hp, hw, n + 1, rest, h => by
    rw [(encList_cons hp.1).1, (encList_cons hp.2.1).2] at h ⊢
    have key := val_round v hp.1 hw.1 n (.comma :: ((encList true (.cons w l)).1 ++ .rbrack :: rest)) (by simp at h; omega)
    have key2 := list_round (.cons w l) (by simp) hp.2 hw.2 n rest (by rw [(encList_cons hp.2.1).1]; simp at h ⊢; omega)
    rw [(encList_cons hp.2.1).1] at key key2
    simp only [List.cons_append, List.append_assoc] at key key2 ⊢
    rw [parseItems, key]
    simp only [key2]
    rfl
theorem dict_round : ∀ (l : PDict), l ≠ .nil → l.Plain → l.Proper → l.keys.Nodup → ∀ (n : ℕ) (acc : PDict), (∀ k ∈ l.keys, k ∉ acc.keys) →
    ∀ (rest : List JTok), (encDict true l).1.length + 1 < n →
    parsePairs n acc ((encDict true l).1 ++ .rbrace :: rest) = some (append acc l.documented, rest)
  | .cons k v .nil, _, hp, hw, hn, n + 1, acc, ha, rest, h => by
    rw [(encDict_cons hp.1).1] at h ⊢
    have key := val_round v hp.1 hw.1 n (.rbrace :: rest) (by simp at h; omega)
    have := insert_append (k := k) (v := v.documented) (d := acc) (l := .nil) (ha k (by simp [PDict.keys]))
    rw [append_nil] at this
    simp [encDict, Written.toks, parsePairs, key, PDict.documented, this]
  | .cons k v (.cons j w l), _, hp, hw, hn, n + 1, acc, ha, rest, h => by
    rw [(encDict_cons hp.1).1, (encDict_cons hp.2.1).2] at h ⊢
    have key := val_round v hp.1 hw.1 n (.comma :: ((encDict true (.cons j w l)).1 ++ .rbrace :: rest)) (by simp at h; omega)
    have hk : k ∉ (PDict.cons j w l).keys := (List.nodup_cons.1 hn).1
    have key2 := dict_round (.cons j w l) (by simp) hp.2 hw.2 (List.nodup_cons.1 hn).2 n (acc.insert k v.documented) (fun i hi hi' => by
      rcases insert_keys hi' with rfl | h'
      · exact hk hi
      · exact ha i (by rw [PDict.keys]; exact List.mem_cons_of_mem _ hi) h') rest (by rw [(encDict_cons hp.2.1).1]; simp at h ⊢; omega)
    rw [(encDict_cons hp.2.1).1] at key key2
    simp only [List.cons_append, List.append_assoc] at key key2 ⊢
    rw [parsePairs, key]
    simp only [key2]
    rw [insert_append (ha k (by simp [PDict.keys]))]
    rfl
end

/-- more text behind a value does not change how the value is read -/
theorem parse_extend : ∀ n : ℕ,
    (∀ t x r, parseVal n t = some (x, r) → ∀ m, n ≤ m → ∀ s, parseVal m (t ++ s) = some (x, r ++ s)) ∧
    (∀ t x r, parseItems n t = some (x, r) → ∀ m, n ≤ m → ∀ s, parseItems m (t ++ s) = some (x, r ++ s)) ∧
    (∀ a t x r, parsePairs n a t = some (x, r) → ∀ m, n ≤ m → ∀ s, parsePairs m a (t ++ s) = some (x, r ++ s))
  | 0 => ⟨fun t x r h => by simp [parseVal] at h, fun t x r h => by simp [parseItems] at h, fun a t x r h => by simp [parsePairs] at h⟩
  | n + 1 => by
    obtain ⟨h1, h2, h3⟩ := parse_extend n
    refine ⟨fun t x r h m hm s => ?_, fun t x r h m hm s => ?_, fun a t x r h m hm s => ?_⟩
    · obtain ⟨m, rfl⟩ := Nat.exists_eq_add_of_le' hm
      rw [show m + (n + 1) = (m + n) + 1 by omega]
      unfold parseVal at h
      split at h
      · next h' => cases h'
      · cases h; rfl
      · cases h; rfl
      · next n' r' hne e =>
        cases e
        cases hp : parseItems n r' with
        | none => rw [hp] at h; cases h
        | some p =>
          rw [hp] at h
          cases h
          have := h2 _ _ _ hp (m + n) (by omega) s
          have hr : r' ≠ [] := by
            rintro rfl
            cases n with
            | zero => simp [parseItems] at hp
            | succ n'' => cases n'' <;> simp [parseItems, parseVal] at hp
          obtain ⟨t0, r0, rfl⟩ := List.exists_cons_of_ne_nil hr
          rw [List.cons_append, parseVal, this]
          · rfl
          · intro r'' h''
            exact hne r0 (by rw [(List.cons.inj h'').1])
      · cases h; rfl
      · next n' r' hne e =>
        cases e
        cases hp : parsePairs n .nil r' with
        | none => rw [hp] at h; cases h
        | some p =>
          rw [hp] at h
          cases h
          have := h3 _ _ _ _ hp (m + n) (by omega) s
          have hr : r' ≠ [] := by
            rintro rfl
            cases n <;> simp [parsePairs] at hp
          obtain ⟨t0, r0, rfl⟩ := List.exists_cons_of_ne_nil hr
          rw [List.cons_append, parseVal, this]
          · rfl
          · intro r'' h''
            exact hne r0 (by rw [(List.cons.inj h'').1])
      · cases h
    · obtain ⟨m, rfl⟩ := Nat.exists_eq_add_of_le' hm
      rw [show m + (n + 1) = (m + n) + 1 by omega]
      unfold parseItems at h ⊢
      split at h
      · next v r' hv =>
        rw [h1 _ _ _ hv (m + n) (by omega) s, List.cons_append]
        cases hp : parseItems n r' with
        | none => rw [hp] at h; cases h
        | some p =>
          rw [hp] at h
          cases h
          simp only [h2 _ _ _ hp (m + n) (by omega) s]
          rfl
      · next v r' hv =>
        rw [h1 _ _ _ hv (m + n) (by omega) s, List.cons_append]
        cases h
        rfl
      · cases h
    · obtain ⟨m, rfl⟩ := Nat.exists_eq_add_of_le' hm
      rw [show m + (n + 1) = (m + n) + 1 by omega]
      unfold parsePairs at h
      split at h
      · next h' => cases h'
      · next n' k r' e =>
        cases e
        rw [List.cons_append, List.cons_append, parsePairs]
        split at h
        · next v r'' hv =>
          rw [h1 _ _ _ hv (m + n) (by omega) s, List.cons_append]
          exact h3 _ _ _ _ h (m + n) (by omega) s
        · next v r'' hv =>
          rw [h1 _ _ _ hv (m + n) (by omega) s, List.cons_append]
          cases h
          rfl
        · cases h
      · cases h

mutual
/-- the value with all unsupported objects replaced by `None` -/
def fill : PVal → PVal
  | .atom a => .atom a
  | .list l => .list (fillList l)
  | .dict l => .dict (fillDict l)
  | .ndarray v => .ndarray (fill v)
  | .cls n => .cls n
  | .fn _ => .atom .null
  | .other _ => .atom .null
@[inherit_doc fill] def fillList : PList → PList
  | .nil => .nil
  | .cons v l => .cons (fill v) (fillList l)
@[inherit_doc fill] def fillDict : PDict → PDict
  | .nil => .nil
  | .cons k v l => .cons k (fill v) (fillDict l)
end

theorem fillDict_keys : ∀ l : PDict, (fillDict l).keys = l.keys
  | .nil => rfl
  | .cons k v l => by rw [fillDict, PDict.keys, PDict.keys, fillDict_keys l]

mutual
theorem fill_plain : ∀ v : PVal, (fill v).Plain
  | .atom _ | .cls _ | .fn _ | .other _ => trivial
  | .list l => fillList_plain l
  | .dict l => fillDict_plain l
  | .ndarray v => fill_plain v
theorem fillList_plain : ∀ l : PList, (fillList l).Plain
  | .nil => trivial
  | .cons v l => ⟨fill_plain v, fillList_plain l⟩
theorem fillDict_plain : ∀ l : PDict, (fillDict l).Plain
  | .nil => trivial
  | .cons k v l => ⟨fill_plain v, fillDict_plain l⟩
end

mutual
theorem fill_proper : ∀ v : PVal, v.Proper → (fill v).Proper
  | .atom _, _ | .cls _, _ | .fn _, _ | .other _, _ => trivial
  | .list l, h => fillList_proper l h
  | .dict l, h => ⟨by rw [fillDict_keys]; exact h.1, fillDict_proper l h.2⟩
  | .ndarray v, h => fill_proper v h
theorem fillList_proper : ∀ l : PList, l.Proper → (fillList l).Proper
  | .nil, _ => trivial
  | .cons v l, h => ⟨fill_proper v h.1, fillList_proper l h.2⟩
theorem fillDict_proper : ∀ l : PDict, l.Proper → (fillDict l).Proper
  | .nil, _ => trivial
  | .cons k v l, h => ⟨fill_proper v h.1, fillDict_proper l h.2⟩
end

/-- a complete text `b` continues what was written in `a` -/
def Completes (a b : Written) : Prop := b.2 = true ∧ ∃ s, b.1 = a.1 ++ s ∧ (a.2 = true ↔ s = [])

theorem completes_toks (l : List JTok) : Completes (.toks l) (.toks l) := ⟨rfl, [], by simp [Written.toks], by simp [Written.toks]⟩

theorem completes_andThen {a b a' b' : Written} (ha : Completes a a') (hb : Completes b b') : Completes (a.andThen b) (a'.andThen b') := by
  obtain ⟨h1, s, h2, h3⟩ := ha
  obtain ⟨k1, t, k2, k3⟩ := hb
  rw [andThen_ok h1]
  refine ⟨k1, ?_⟩
  by_cases h : a.2 = true
  · rw [andThen_ok h]
    rw [h3.1 h, List.append_nil] at h2
    exact ⟨t, by simp [h2, k2], k3⟩
  · rw [Written.andThen, if_neg h]
    refine ⟨s ++ b'.1, by simp [h2], ⟨fun h' => absurd h' h, fun h' => absurd (h3.2 (List.append_eq_nil_iff.1 h').1) h⟩⟩

mutual
theorem fill_completes : ∀ v : PVal, Completes (encVal v) (encVal (fill v))
  | .atom _ => completes_toks _
  | .list l => by
    rw [fill, encVal, encVal]
    exact completes_andThen (completes_toks _) (completes_andThen (fillList_completes l true) (completes_toks _))
  | .dict l => by
    rw [fill, encVal, encVal]
    exact completes_andThen (completes_toks _) (completes_andThen (fillDict_completes l true) (completes_toks _))
  | .ndarray v => by rw [fill, encVal, encVal]; exact fill_completes v
  | .cls _ => completes_toks _
  | .fn _ => ⟨rfl, [.atom .null], rfl, by simp [encVal]⟩
  | .other _ => ⟨rfl, [.atom .null], rfl, by simp [encVal]⟩
theorem fillList_completes : ∀ (l : PList) (b : Bool), Completes (encList b l) (encList b (fillList l))
  | .nil, _ => completes_toks _
  | .cons v l, b => by
    rw [fillList, encList, encList]
    exact completes_andThen (completes_toks _) (completes_andThen (fill_completes v) (fillList_completes l false))
theorem fillDict_completes : ∀ (l : PDict) (b : Bool), Completes (encDict b l) (encDict b (fillDict l))
  | .nil, _ => completes_toks _
  | .cons k v l, b => by
    rw [fillDict, encDict, encDict]
    exact completes_andThen (completes_toks _) (completes_andThen (fill_completes v) (fillDict_completes l false))
end

/-- what was written before a failure is not a readable file -/
theorem failed_unreadable {v : PVal} (hw : v.Proper) (h : (encVal v).2 = false) : jsonLoad (encVal v).1 = none := by
  obtain ⟨h1, s, h2, h3⟩ := fill_completes v
  have hs : s ≠ [] := fun e => by rw [h3.2 e] at h; cases h
  unfold jsonLoad
  split
  · next x hx =>
    exfalso
    have e1 := (parse_extend _).1 _ _ _ hx ((encVal (fill v)).1.length + 1) (by rw [h2, List.length_append]; omega) s
    rw [← h2] at e1
    have e2 := val_round (fill v) (fill_plain v) (fill_proper v hw) ((encVal (fill v)).1.length + 1) [] (by omega)
    rw [List.append_nil] at e2
    rw [e2] at e1
    exact hs (by simpa using (Prod.mk.inj (Option.some.inj e1)).2.symm)
  · rfl

end Json

/-! ### C73 -/

/-- A dictionary without functions and unsupported objects is written with error code 0, and reading the file gives the
documented content (arrays as lists, classes as `None`), whatever the file contained before. -/
theorem C73_round_trip_partial {v : PVal} (hp : v.Plain) (hw : v.Proper) (old : Option (List JTok)) :
    (writeJson true v old).1 = 0 ∧ readJson (writeJson true v old).2 = v.documented := by
  have h1 := (Json.plain_ok v).2 hp
  have h2 := Json.val_round v hp hw ((encVal v).1.length + 1) [] (by omega)
  rw [List.append_nil] at h2
  simp [writeJson, readJson, jsonLoad, h1, h2]

/-- The error code is 0 exactly if the file was opened and everything could be written. -/
theorem C73_error_code (canOpen : Bool) (v : PVal) (old : Option (List JTok)) :
    (writeJson canOpen v old).1 = 0 ↔ canOpen = true ∧ v.Plain := by
  rw [← Json.plain_ok]
  unfold writeJson
  cases canOpen <;> by_cases h : (encVal v).2 = true <;> simp [h]

/-- **C73 is violated by a failed write** (inputoutput.py:71-75: the file is opened for writing before the encoder fails): whatever
readable content the file had, afterwards reading it gives `None`. -/
theorem C73_failed_write_loses_file {v : PVal} (hp : ¬ v.Plain) (hw : v.Proper) (old : Option (List JTok)) :
    (writeJson true v old).1 = 1 ∧ readJson (writeJson true v old).2 = .atom .null := by
  have h1 : (encVal v).2 = false := by
    rw [← Bool.not_eq_true, Json.plain_ok]; exact hp
  simp [writeJson, readJson, h1, Json.failed_unreadable hw h1]

/-- If the file cannot be opened it keeps its content. -/
theorem C73_not_opened (v : PVal) (old : Option (List JTok)) : writeJson false v old = (1, old) := rfl

/-- **C73 is violated by functions** (inputoutput.py:54: `obj is callable` is never true): a dictionary with a function, which is
documented to be written as `None`, is not written. -/
theorem C73_function_not_written (k f : String) (old : Option (List JTok)) :
    (writeJson true (.dict (.cons k (.fn f) .nil)) old).1 = 1 ∧
      readJson (writeJson true (.dict (.cons k (.fn f) .nil)) old).2 = .atom .null ∧
      (PVal.dict (.cons k (.fn f) .nil)).documented = .dict (.cons k (.atom .null) .nil) := by
  obtain ⟨h1, h2⟩ := C73_failed_write_loses_file (v := .dict (.cons k (.fn f) .nil)) (fun h => h.1)
    ⟨by simp [PDict.keys], trivial, trivial⟩ old
  exact ⟨h1, h2, rfl⟩

/-- a settings dictionary with an array and a class -/
example : (PVal.dict (.cons "algorithm_settings" (.dict (.cons "dsm" (.cls "NelderMead") .nil))
      (.cons "grid" (.ndarray (.list (.cons (.atom (.num 1)) (.cons (.atom (.num 2)) .nil)))) .nil))).Plain ∧
    (PVal.dict (.cons "algorithm_settings" (.dict (.cons "dsm" (.cls "NelderMead") .nil))
      (.cons "grid" (.ndarray (.list (.cons (.atom (.num 1)) (.cons (.atom (.num 2)) .nil)))) .nil))).Proper := by
  simp [PVal.Plain, PList.Plain, PDict.Plain, PVal.Proper, PList.Proper, PDict.Proper, PDict.keys]

end QuOCS

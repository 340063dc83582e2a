import Verif.Model.Settings

/-!
# Programs that only fill a dictionary with defaults

`Agree T d₀ d`: the dictionary `d` is `d₀` with some of the defaults of the table `T` filled in. `Lawful T d₀ m`: the program `m` gives
the same result for `d₀` and for every such `d`, and leaves such a dictionary behind.
-/

set_option linter.unusedSectionVars false
set_option linter.unusedVariables false

namespace QuOCS

/-- What may happen to an entry of a dictionary: nothing; a default is filled in; a default is filled in that nothing depends on; the
entry is a dictionary whose own entries are filled in (in the second case it may be missing); the entry is a list of dictionaries whose
own entries are filled in. -/
inductive Def
  | never | val (v : PVal) | unused | sub | subDefault | items

/-- A table: for the path to an entry and the dictionary that contains the entry. -/
abbrev Tab := List String → PDict → Def

/-- The table for the entries below `k`. -/
abbrev Tab.below (T : Tab) (k : String) : Tab := fun p => T (k :: p)

mutual
/-- `d` is `d₀` with some defaults filled in. -/
inductive Agree : Tab → PDict → PDict → Prop
  | mk {T : Tab} {d₀ d : PDict} (h : ∀ k, AgreeAt (T [k] d₀) (T.below k) (d₀.get? k) (d.get? k)) : Agree T d₀ d
/-- The same for one entry. -/
inductive AgreeAt : Def → Tab → Option PVal → Option PVal → Prop
  | same {D : Def} {T : Tab} (v : Option PVal) : AgreeAt D T v v
  | val {T : Tab} (v : PVal) : AgreeAt (.val v) T none (some v)
  | unused {T : Tab} (v : PVal) : AgreeAt .unused T none (some v)
  | sub {T : Tab} {s₀ s : PDict} : Agree T s₀ s → AgreeAt .sub T (some (.dict s₀)) (some (.dict s))
  | subSome {T : Tab} {s₀ s : PDict} : Agree T s₀ s → AgreeAt .subDefault T (some (.dict s₀)) (some (.dict s))
  | subNone {T : Tab} {s : PDict} : Agree T .nil s → AgreeAt .subDefault T none (some (.dict s))
  | items {T : Tab} {l₀ l : PList} : AgreeItems T l₀ l → AgreeAt .items T (some (.list l₀)) (some (.list l))
/-- The same for the items of a list. -/
inductive AgreeItems : Tab → PList → PList → Prop
  | nil {T : Tab} : AgreeItems T .nil .nil
  | same {T : Tab} {v : PVal} {l₀ l : PList} : AgreeItems T l₀ l → AgreeItems T (.cons v l₀) (.cons v l)
  | dict {T : Tab} {s₀ s : PDict} {l₀ l : PList} : Agree T s₀ s → AgreeItems T l₀ l →
      AgreeItems T (.cons (.dict s₀) l₀) (.cons (.dict s) l)
end

theorem Agree.at {T : Tab} {d₀ d : PDict} (h : Agree T d₀ d) (k : String) :
    AgreeAt (T [k] d₀) (T.below k) (d₀.get? k) (d.get? k) := by
  cases h with | mk h => exact h k

theorem Agree.refl (T : Tab) (d : PDict) : Agree T d d := .mk fun _ => .same _

theorem AgreeItems.refl (T : Tab) : ∀ l : PList, AgreeItems T l l
  | .nil => .nil
  | .cons _ l => .same (AgreeItems.refl T l)

theorem get?_insert (k : String) (v : PVal) : ∀ (d : PDict) (j : String), (d.insert k v).get? j = if j = k then some v else d.get? j
  | .nil, j => by simp [PDict.insert, PDict.get?]
  | .cons k' v' l, j => by
    unfold PDict.insert
    by_cases hk : k = k'
    · subst hk
      by_cases hj : j = k <;> simp [PDict.get?, hj]
    · by_cases hj : j = k'
      · subst hj
        simp [PDict.get?, hk, Ne.symm hk]
      · by_cases hjk : j = k <;> simp [PDict.get?, hk, hj, get?_insert k v l, hjk]

theorem Agree.insert {T : Tab} {d₀ d : PDict} {k : String} {v : PVal} (h : Agree T d₀ d)
    (hk : AgreeAt (T [k] d₀) (T.below k) (d₀.get? k) (some v)) : Agree T d₀ (d.insert k v) := by
  refine .mk fun j => ?_
  rw [get?_insert]
  by_cases hj : j = k
  · subst hj; rw [if_pos rfl]; exact hk
  · rw [if_neg hj]; exact h.at j

/-- The program does not notice defaults that are filled in already, and fills in only defaults. -/
def Lawful {α : Type} (T : Tab) (d₀ : PDict) (m : Prog PDict α) : Prop :=
  ∀ d, Agree T d₀ d → (m d).1 = (m d₀).1 ∧ Agree T d₀ (m d).2

section
variable {α β : Type} {T : Tab} {d₀ : PDict}

theorem Lawful.pure (a : α) : Lawful T d₀ (pure a : Prog PDict α) := fun d h => ⟨rfl, h⟩
theorem Lawful.raise (e : PyErr) : Lawful T d₀ (Prog.raise e : Prog PDict α) := fun d h => ⟨rfl, h⟩
theorem Lawful.lift (x : Py α) : Lawful T d₀ (Prog.lift x : Prog PDict α) := fun d h => ⟨rfl, h⟩

theorem prog_bind (m : Prog PDict α) (f : α → Prog PDict β) (d : PDict) :
    (m >>= f) d = match m d with
      | (.ok a, d') => f a d'
      | (.error e, d') => (.error e, d') := by
  show Prog.bind m f d = _
  unfold Prog.bind
  rcases m d with ⟨_ | _, _⟩ <;> rfl

theorem Lawful.bind {m : Prog PDict α} {f : α → Prog PDict β} (hm : Lawful T d₀ m)
    (hf : ∀ a, (m d₀).1 = .ok a → Lawful T d₀ (f a)) : Lawful T d₀ (m >>= f) := by
  intro d h
  obtain ⟨h1, h2⟩ := hm d h
  have h0 := (hm d₀ (Agree.refl T d₀)).2
  rw [prog_bind, prog_bind]
  rcases hd : m d with ⟨r, d'⟩
  rcases hd0 : m d₀ with ⟨r0, d0'⟩
  rw [hd, hd0] at h1
  rw [hd] at h2
  rw [hd0] at h0
  simp only at h1 h2 h0
  subst h1
  cases r with
  | error e => exact ⟨rfl, h2⟩
  | ok a =>
    have hl := hf a (by rw [hd0])
    exact ⟨(hl d' h2).1.trans (hl d0' h0).1.symm, (hl d' h2).2⟩

/-- The result of a lawful program followed by another one: the second one may be run with the unchanged dictionary. -/
theorem Lawful.result {m : Prog PDict α} {f : α → Prog PDict β} (hm : Lawful T d₀ m)
    (hf : ∀ a, (m d₀).1 = .ok a → Lawful T d₀ (f a)) :
    ((m >>= f) d₀).1 = (m d₀).1.bind fun a => (f a d₀).1 := by
  have h0 := (hm d₀ (Agree.refl T d₀)).2
  rw [prog_bind]
  rcases hd0 : m d₀ with ⟨r0, d0'⟩
  rw [hd0] at h0
  cases r0 with
  | error e => rfl
  | ok a => exact (hf a (by rw [hd0]) d0' h0).1

theorem Lawful.ite {c : Prop} [Decidable c] {m n : Prog PDict α} (hm : c → Lawful T d₀ m) (hn : ¬ c → Lawful T d₀ n) :
    Lawful T d₀ (if c then m else n) := by
  by_cases h : c
  · rw [if_pos h]; exact hm h
  · rw [if_neg h]; exact hn h

theorem Lawful.setdefault {k : String} {v : PVal} (ht : T [k] d₀ = .val v) : Lawful T d₀ (setdefault k v) := by
  intro d h
  have hk := h.at k
  rw [ht] at hk
  unfold QuOCS.setdefault
  rcases h0 : d₀.get? k with _ | w
  · rw [h0] at hk
    rcases hd : d.get? k with _ | w
    · exact ⟨rfl, h.insert (by rw [ht, h0]; exact .val v)⟩
    · rw [hd] at hk
      cases hk
      exact ⟨rfl, h⟩
  · rw [h0] at hk
    generalize d.get? k = x at hk ⊢
    cases hk
    exact ⟨rfl, h⟩

theorem setdefault_result (k : String) (v : PVal) (d : PDict) : (setdefault k v d).1 = .ok ((d.get? k).getD v) := by
  unfold setdefault
  rcases d.get? k with _ | w <;> rfl

theorem Lawful.fillDefault {k : String} {v : PVal} (ht : T [k] d₀ = .unused) : Lawful T d₀ (fillDefault k v) := by
  intro d h
  refine ⟨rfl, ?_⟩
  unfold QuOCS.fillDefault QuOCS.setdefault
  rcases hd : d.get? k with _ | w
  · have hk := h.at k
    rw [hd, ht] at hk
    refine h.insert ?_
    rw [ht]
    generalize d₀.get? k = x at hk ⊢
    cases hk
    exact .unused v
  · exact h

theorem Agree.never {d : PDict} {k : String} (h : Agree T d₀ d) (ht : T [k] d₀ = .never) : d.get? k = d₀.get? k := by
  have hk := h.at k
  rw [ht] at hk
  generalize d₀.get? k = x at hk ⊢
  generalize d.get? k = y at hk ⊢
  cases hk
  rfl

theorem Lawful.item {k : String} (ht : T [k] d₀ = .never) : Lawful T d₀ (item k) := by
  intro d h
  unfold QuOCS.item
  rw [h.never ht]
  rcases d₀.get? k with _ | w <;> exact ⟨rfl, h⟩

theorem Lawful.getOpt {k : String} (ht : T [k] d₀ = .never) : Lawful T d₀ (getOpt k) := by
  intro d h
  unfold QuOCS.getOpt
  rw [h.never ht]
  exact ⟨rfl, h⟩

theorem Lawful.isNone {k : String} (ht : T [k] d₀ = .sub) : Lawful T d₀ (isNone k) := by
  intro d h
  refine ⟨?_, h⟩
  have hk := h.at k
  rw [ht] at hk
  unfold QuOCS.isNone
  generalize d₀.get? k = x at hk ⊢
  generalize d.get? k = y at hk ⊢
  cases hk <;> rfl

theorem Lawful.inDict {k : String} {m : Prog PDict α} (ht : T [k] d₀ = .sub)
    (hm : ∀ s₀, d₀.get? k = some (.dict s₀) → Lawful (T.below k) s₀ m) : Lawful T d₀ (inDict k m) := by
  intro d h
  have hk := h.at k
  rw [ht] at hk
  unfold QuOCS.inDict
  rcases h0 : d₀.get? k with _ | w
  · rw [h0] at hk
    generalize d.get? k = y at hk ⊢
    cases hk
    exact ⟨rfl, h⟩
  · rw [h0] at hk
    have key : ∀ s₀ s, w = .dict s₀ → Agree (T.below k) s₀ s → (m s).1 = (m s₀).1 ∧ Agree T d₀ (d.insert k (.dict (m s).2)) := by
      intro s₀ s hw ha
      subst hw
      refine ⟨(hm s₀ h0 s ha).1, h.insert ?_⟩
      rw [ht, h0]
      exact .sub (hm s₀ h0 s ha).2
    generalize d.get? k = y at hk ⊢
    cases hk with
    | same =>
      cases w with
      | dict s => exact key s s rfl (Agree.refl _ _)
      | _ => exact ⟨rfl, h⟩
    | sub ha => exact key _ _ rfl ha

theorem Lawful.inDictDefault {k : String} {m : Prog PDict α} (ht : T [k] d₀ = .subDefault)
    (hm : ∀ s₀, (d₀.get? k).getD (.dict .nil) = .dict s₀ → Lawful (T.below k) s₀ m) : Lawful T d₀ (inDictDefault k m) := by
  intro d h
  have hk := h.at k
  rw [ht] at hk
  unfold QuOCS.inDictDefault
  rcases h0 : d₀.get? k with _ | w
  · rw [h0] at hk
    have key : ∀ s, Agree (T.below k) .nil s → (m s).1 = (m .nil).1 ∧ Agree T d₀ (d.insert k (.dict (m s).2)) := by
      intro s ha
      have := hm .nil (by rw [h0]; rfl) s ha
      refine ⟨this.1, h.insert ?_⟩
      rw [ht, h0]
      exact .subNone this.2
    generalize d.get? k = y at hk ⊢
    cases hk with
    | same => exact key _ (Agree.refl _ _)
    | subNone ha => exact key _ ha
  · rw [h0] at hk
    have key : ∀ s₀ s, w = .dict s₀ → Agree (T.below k) s₀ s → (m s).1 = (m s₀).1 ∧ Agree T d₀ (d.insert k (.dict (m s).2)) := by
      intro s₀ s hw ha
      subst hw
      have := hm s₀ (by rw [h0]; rfl) s ha
      refine ⟨this.1, h.insert ?_⟩
      rw [ht, h0]
      exact .subSome this.2
    generalize d.get? k = y at hk ⊢
    cases hk with
    | same =>
      cases w with
      | dict s => exact key s s rfl (Agree.refl _ _)
      | _ => exact ⟨rfl, h⟩
    | subSome ha => exact key _ _ rfl ha

theorem forItems_lawful {m : Prog PDict α} (hm : ∀ s₀, Lawful T s₀ m) :
    ∀ l₀ l, AgreeItems T l₀ l → (forItems m l).1 = (forItems m l₀).1 ∧ AgreeItems T l₀ (forItems m l).2
  | .nil, _, h => by cases h; exact ⟨rfl, .nil⟩
  | .cons (.dict s₀) l₀, _, h => by
    have key : ∀ s l, Agree T s₀ s → AgreeItems T l₀ l → (forItems m (.cons (.dict s) l)).1 = (forItems m (.cons (.dict s₀) l₀)).1 ∧
        AgreeItems T (.cons (.dict s₀) l₀) (forItems m (.cons (.dict s) l)).2 := by
      intro s l hs hl
      obtain ⟨h1, h2⟩ := hm s₀ s hs
      obtain ⟨h3, h4⟩ := forItems_lawful hm l₀ l hl
      unfold forItems
      rw [← h1]
      rcases (m s).1 with e | a
      · exact ⟨rfl, .dict h2 hl⟩
      · exact ⟨by simp only [h3], .dict h2 h4⟩
    cases h with
    | same h => exact key _ _ (Agree.refl _ _) h
    | dict hs hl => exact key _ _ hs hl
  | .cons (.atom _) l₀, _, h => by cases h with | same h => exact ⟨by simp only [forItems], by simp only [forItems]; exact .same h⟩
  | .cons (.list _) l₀, _, h => by cases h with | same h => exact ⟨by simp only [forItems], by simp only [forItems]; exact .same h⟩
  | .cons (.ndarray _) l₀, _, h => by cases h with | same h => exact ⟨by simp only [forItems], by simp only [forItems]; exact .same h⟩
  | .cons (.cls _) l₀, _, h => by cases h with | same h => exact ⟨by simp only [forItems], by simp only [forItems]; exact .same h⟩
  | .cons (.fn _) l₀, _, h => by cases h with | same h => exact ⟨by simp only [forItems], by simp only [forItems]; exact .same h⟩
  | .cons (.other _) l₀, _, h => by cases h with | same h => exact ⟨by simp only [forItems], by simp only [forItems]; exact .same h⟩

theorem Lawful.inItems {k : String} {m : Prog PDict α} (ht : T [k] d₀ = .items) (hm : ∀ s₀, Lawful (T.below k) s₀ m) :
    Lawful T d₀ (inItems k m) := by
  intro d h
  have hk := h.at k
  rw [ht] at hk
  unfold QuOCS.inItems
  rcases h0 : d₀.get? k with _ | w
  · rw [h0] at hk
    generalize d.get? k = y at hk ⊢
    cases hk
    exact ⟨rfl, h⟩
  · rw [h0] at hk
    have key : ∀ l₀ l, w = .list l₀ → AgreeItems (T.below k) l₀ l →
        (forItems m l).1 = (forItems m l₀).1 ∧ Agree T d₀ (d.insert k (.list (forItems m l).2)) := by
      intro l₀ l hw ha
      subst hw
      have := forItems_lawful hm l₀ l ha
      refine ⟨this.1, h.insert ?_⟩
      rw [ht, h0]
      exact .items this.2
    generalize d.get? k = y at hk ⊢
    cases hk with
    | same =>
      cases w with
      | list l => exact key l l rfl (AgreeItems.refl _ _)
      | _ => exact ⟨rfl, h⟩
    | items ha => exact key _ _ rfl ha

theorem mem_keyList {k : String} : ∀ {d : PDict}, k ∈ d.keyList ↔ d.get? k ≠ none
  | .nil => by simp [PDict.keyList, PDict.get?]
  | .cons k' v l => by
    by_cases h : k = k'
    · simp [PDict.keyList, PDict.get?, h]
    · simp [PDict.keyList, PDict.get?, h, mem_keyList (d := l)]

theorem Lawful.onlyKeys {allowed : List String} (ht : ∀ k, T [k] d₀ = .never ∨ k ∈ allowed) : Lawful T d₀ (onlyKeys allowed) := by
  intro d h
  refine ⟨?_, h⟩
  unfold QuOCS.onlyKeys
  have : (d.keyList.all (· ∈ allowed)) = (d₀.keyList.all (· ∈ allowed)) := by
    rw [Bool.eq_iff_iff]
    simp only [List.all_eq_true, mem_keyList, decide_eq_true_eq]
    refine forall_congr' fun k => ?_
    rcases ht k with hk | hk
    · rw [h.never hk]
    · simp [hk]
  simp only [this]

/-- Reading an entry with a default. -/
theorem getD_agree {k : String} {v : PVal} {d : PDict} (ht : T [k] d₀ = .val v) (h : Agree T d₀ d) :
    (d.get? k).getD v = (d₀.get? k).getD v := by
  have hk := h.at k
  rw [ht] at hk
  generalize d₀.get? k = x at hk ⊢
  generalize d.get? k = y at hk ⊢
  cases hk <;> rfl

theorem Lawful.numArg {k : String} {v : ℚ} (ht : T [k] d₀ = .val (.num v)) : Lawful T d₀ (numArg k v) := by
  intro d h
  refine ⟨?_, h⟩
  show numOf ((d.get? k).getD _) = numOf ((d₀.get? k).getD _)
  rw [getD_agree ht h]

theorem Lawful.lengthArg {k : String} {v : ℚ} (ht : T [k] d₀ = .val (.num v) ∨ T [k] d₀ = .never) : Lawful T d₀ (lengthArg k v) := by
  intro d h
  refine ⟨?_, h⟩
  show lengthOf ((d.get? k).getD _) = lengthOf ((d₀.get? k).getD _)
  rcases ht with ht | ht
  · rw [getD_agree ht h]
  · rw [h.never ht]

theorem Lawful.nameArg {k v : String} (ht : T [k] d₀ = .val (.str v) ∨ T [k] d₀ = .never) : Lawful T d₀ (nameArg k v) := by
  intro d h
  refine ⟨?_, h⟩
  show nameOf ((d.get? k).getD _) = nameOf ((d₀.get? k).getD _)
  rcases ht with ht | ht
  · rw [getD_agree ht h]
  · rw [h.never ht]

theorem Lawful.boolArg {k : String} (ht : T [k] d₀ = .val (.bool false)) : Lawful T d₀ (boolArg k) := by
  intro d h
  refine ⟨?_, h⟩
  show Except.ok (truthy ((d.get? k).getD _)) = Except.ok (truthy ((d₀.get? k).getD _))
  rw [getD_agree ht h]

end
end QuOCS

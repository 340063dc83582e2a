import Verif.Lemmas.SettingsUse

/-!
# What creating an optimizer does to the dictionary, and assignments to the dictionary
-/

set_option linter.unusedSectionVars false
set_option linter.unusedVariables false

namespace QuOCS

section
variable {T : Tab} {D : Def}

/-! ### Entries are kept -/

theorem AgreeItems.get? : ∀ {l₀ l : PList}, AgreeItems T l₀ l → ∀ i, (l₀.get? i = none ∧ l.get? i = none) ∨
    ∃ v₀ v, l₀.get? i = some v₀ ∧ l.get? i = some v ∧ AgreeAt .sub T (some v₀) (some v)
  | .nil, _, h, i => by cases h; exact .inl ⟨rfl, rfl⟩
  | .cons v₀ l₀, _, h, 0 => by
    cases h with
    | same h => exact .inr ⟨_, _, rfl, rfl, .same _⟩
    | dict hs h => exact .inr ⟨_, _, rfl, rfl, .sub hs⟩
  | .cons v₀ l₀, _, h, i + 1 => by
    cases h with
    | same h => exact AgreeItems.get? h i
    | dict hs h => exact AgreeItems.get? h i

theorem Agree.get_some {T : Tab} {d₀ d : PDict} {k : String} {v₀ : PVal} (h : Agree T d₀ d) (hk : d₀.get? k = some v₀) :
    ∃ v, d.get? k = some v ∧ AgreeAt (T [k] d₀) (T.below k) (some v₀) (some v) := by
  have := h.at k
  rw [hk] at this
  rcases hd : d.get? k with _ | v
  · rw [hd] at this
    generalize T [k] d₀ = X at this
    cases this
  · rw [hd] at this
    exact ⟨v, rfl, this⟩

/-- Everything that is reached in the dictionary is reached in the one with defaults filled in, with agreeing values. -/
theorem lookAt_agree : ∀ (p : List PathStep) {T : Tab} {D : Def} {v₀ v w₀ : PVal}, AgreeAt D T (some v₀) (some v) → lookAt v₀ p = some w₀ →
    ∃ T' D' w, lookAt v p = some w ∧ AgreeAt D' T' (some w₀) (some w)
  | [], T, D, v₀, v, w₀, h, hl => by
    simp only [lookAt] at hl
    cases hl
    exact ⟨T, D, v, rfl, h⟩
  | .key k :: p, T, D, v₀, v, w₀, h, hl => by
    cases h with
    | same => exact ⟨T, D, w₀, hl, .same _⟩
    | sub h =>
      rename_i s₀ s
      simp only [lookAt] at hl ⊢
      rcases hk : s₀.get? k with _ | x₀
      · rw [hk] at hl; cases hl
      · rw [hk] at hl
        obtain ⟨x, hx, ha⟩ := h.get_some hk
        rw [hx]
        exact lookAt_agree p ha hl
    | subSome h =>
      rename_i s₀ s
      simp only [lookAt] at hl ⊢
      rcases hk : s₀.get? k with _ | x₀
      · rw [hk] at hl; cases hl
      · rw [hk] at hl
        obtain ⟨x, hx, ha⟩ := h.get_some hk
        rw [hx]
        exact lookAt_agree p ha hl
    | items h => simp [lookAt] at hl
  | .pos i :: p, T, D, v₀, v, w₀, h, hl => by
    cases h with
    | same => exact ⟨T, D, w₀, hl, .same _⟩
    | sub h => simp [lookAt] at hl
    | subSome h => simp [lookAt] at hl
    | items h =>
      rename_i l₀ l
      simp only [lookAt] at hl ⊢
      rcases h.get? i with ⟨h1, h2⟩ | ⟨x₀, x, h1, h2, ha⟩
      · rw [h1] at hl; cases hl
      · rw [h1] at hl
        rw [h2]
        exact lookAt_agree p ha hl

/-! ### Assignments -/

/-- The defaults do not depend on the entry that is assigned to. -/
def TabStable (T : Tab) : List PathStep → Prop
  | [] => True
  | .key k :: p => (∀ j s x, T [j] (s.insert k x) = T [j] s) ∧ TabStable (T.below k) p
  | .pos _ :: p => TabStable T p

theorem Agree.insertBoth {T : Tab} {d₀ d : PDict} {k : String} {x₀ x : PVal} (h : Agree T d₀ d)
    (ht : ∀ j s y, T [j] (PDict.insert k y s) = T [j] s) (hx : AgreeAt (T [k] d₀) (T.below k) (some x₀) (some x)) :
    Agree T (d₀.insert k x₀) (d.insert k x) := by
  refine .mk fun j => ?_
  rw [ht, get?_insert, get?_insert]
  by_cases hj : j = k
  · subst hj
    rw [if_pos rfl, if_pos rfl]
    exact hx
  · rw [if_neg hj, if_neg hj]
    exact h.at j

theorem AgreeItems.set : ∀ {l₀ l : PList}, AgreeItems T l₀ l → ∀ {i : ℕ} {x₀ x : PVal}, AgreeAt .sub T (some x₀) (some x) →
    AgreeItems T (l₀.set i x₀) (l.set i x)
  | .nil, _, h, i, x₀, x, hx => by cases h; exact .nil
  | .cons v₀ l₀, _, h, 0, x₀, x, hx => by
    have key : ∀ {l₀ l : PList}, AgreeItems T l₀ l → AgreeItems T (.cons x₀ l₀) (.cons x l) := by
      intro l₀ l h
      cases hx with
      | same => exact .same h
      | sub hs => exact .dict hs h
    cases h with
    | same h => exact key h
    | dict hs h => exact key h
  | .cons v₀ l₀, _, h, i + 1, x₀, x, hx => by
    cases h with
    | same h => exact .same (AgreeItems.set h hx)
    | dict hs h => exact .dict hs (AgreeItems.set h hx)

theorem setAt_agree : ∀ (p : List PathStep) {T : Tab} {D : Def} {v₀ v : PVal} (w : PVal), AgreeAt D T (some v₀) (some v) → TabStable T p →
    (lookAt v₀ p.dropLast).isSome = true → AgreeAt D T (some (setAt v₀ p w)) (some (setAt v p w))
  | [], T, D, v₀, v, w, h, hs, hl => by unfold setAt; exact .same _
  | [.key k], T, D, v₀, v, w, h, hs, hl => by
    cases h with
    | same => exact .same _
    | sub h => exact .sub (h.insertBoth hs.1 (.same _))
    | subSome h => exact .subSome (h.insertBoth hs.1 (.same _))
    | items h => exact .items h
  | .key k :: s :: p, T, D, v₀, v, w, h, hs, hl => by
    have key : ∀ {s₀ s' : PDict}, v₀ = .dict s₀ → v = .dict s' → Agree T s₀ s' → ∃ t₀ t, setAt v₀ (.key k :: s :: p) w = .dict t₀ ∧
        setAt v (.key k :: s :: p) w = .dict t ∧ Agree T t₀ t := by
      intro s₀ s' h0 h1 hA
      subst h0 h1
      have hl : ((s₀.get? k).bind fun v => lookAt v (s :: p).dropLast).isSome = true := hl
      rcases hk : s₀.get? k with _ | x₀
      · rw [hk] at hl; cases hl
      · rw [hk] at hl
        obtain ⟨x, hx, ha⟩ := hA.get_some hk
        refine ⟨_, _, by simp only [setAt, hk]; rfl, by simp only [setAt, hx]; rfl, ?_⟩
        exact hA.insertBoth hs.1 (setAt_agree (s :: p) w ha hs.2 hl)
    cases h with
    | same => exact .same _
    | sub h =>
      obtain ⟨t₀, t, h1, h2, h3⟩ := key rfl rfl h
      rw [h1, h2]
      exact .sub h3
    | subSome h =>
      obtain ⟨t₀, t, h1, h2, h3⟩ := key rfl rfl h
      rw [h1, h2]
      exact .subSome h3
    | items h => exact .items h
  | .pos i :: p, T, D, v₀, v, w, h, hs, hl => by
    cases h with
    | same => exact .same _
    | sub h => exact .sub h
    | subSome h => exact .subSome h
    | items h =>
      rename_i l₀ l
      cases p with
      | nil =>
        simp only [setAt]
        rcases h.get? i with ⟨h1, h2⟩ | ⟨x₀, x, h1, h2, ha⟩
        · rw [h1, h2]
          exact .items h
        · rw [h1, h2]
          exact .items (h.set (.same _))
      | cons s p =>
        have hl : ((l₀.get? i).bind fun v => lookAt v (s :: p).dropLast).isSome = true := hl
        simp only [setAt]
        rcases h.get? i with ⟨h1, h2⟩ | ⟨x₀, x, h1, h2, ha⟩
        · rw [h1] at hl; cases hl
        · rw [h1] at hl
          rw [h1, h2]
          exact .items (h.set (setAt_agree (s :: p) w ha hs hl))

theorem setAt_dict (d : PDict) (k : String) (q : List PathStep) (w : PVal) : setAt (.dict d) (.key k :: q) w = .dict (assign d (.key k :: q) w) := by
  unfold assign
  cases q with
  | nil => rfl
  | cons s q =>
    simp only [setAt]
    rcases d.get? k with _ | v <;> rfl

theorem assign_agree {d₀ d : PDict} {p : List PathStep} {w : PVal} (h : Agree T d₀ d) (hs : TabStable T p) (hp : Assignable d₀ p) :
    Agree T (assign d₀ p w) (assign d p w) := by
  obtain ⟨k, q, rfl, hl⟩ := hp
  have := setAt_agree (.key k :: q) w (.sub h) hs hl
  rw [setAt_dict, setAt_dict] at this
  generalize assign d₀ (.key k :: q) w = a at this ⊢
  generalize assign d (.key k :: q) w = b at this ⊢
  cases this with
  | same => exact Agree.refl _ _
  | sub h => exact h

theorem TabStable.const : ∀ {T : Tab}, (∀ j q s s', T (j :: q) s = T (j :: q) s') → ∀ p, TabStable T p
  | T, hT, [] => trivial
  | T, hT, .key k :: p => ⟨fun j s x => hT _ _ _ _, TabStable.const (T := T.below k) (fun j q s s' => hT _ _ _ _) p⟩
  | T, hT, .pos _ :: p => TabStable.const (T := T) hT p

theorem TabStable.congr : ∀ {T T' : Tab}, (∀ j q s, T (j :: q) s = T' (j :: q) s) → ∀ p, TabStable T' p → TabStable T p
  | T, T', hT, [], h => trivial
  | T, T', hT, .key k :: p, h => ⟨fun j s x => by rw [hT, hT]; exact h.1 j s x, TabStable.congr (T := T.below k) (T' := T'.below k) (fun j q s => hT _ _ _) p h.2⟩
  | T, T', hT, .pos _ :: p, h => TabStable.congr (T := T) (T' := T') hT p h

end

section
variable (lib : PyLib) (B : Bool)

theorem settingsTab_one (j : String) (s : PDict) : settingsTab lib B [j] s = topConst [j] := by
  unfold settingsTab
  split <;> simp_all

theorem settingsTab_other {k : String} (h1 : k ≠ "algorithm_settings") (h2 : k ≠ "pulses") (p : List String) (s : PDict) :
    settingsTab lib B (k :: p) s = topConst (k :: p) := by
  unfold settingsTab
  split <;> simp_all

theorem algTab_two (k j : String) (p : List String) (s : PDict) : algTab lib (k :: j :: p) s = algConst (k :: j :: p) := by
  unfold algTab
  split <;> simp_all

theorem algTab_other {j : String} (h : j ≠ "super_iteration_number") (s : PDict) : algTab lib [j] s = algConst [j] := by
  unfold algTab
  split <;> simp_all

theorem basisTab_two (k j : String) (p : List String) (s : PDict) : basisTab lib (k :: j :: p) s = basisConst (k :: j :: p) := by
  unfold basisTab
  split <;> simp_all

theorem pulseTab_one (j : String) (s : PDict) : pulseTab lib false [j] s = pulseConst [j] := by
  by_cases h : j = "bins_number"
  · subst h; rfl
  · unfold pulseTab
    split <;> simp_all

theorem pulseTab_other {k : String} (h : k ≠ "basis") (j : String) (p : List String) (s : PDict) :
    pulseTab lib B (k :: j :: p) s = pulseConst (k :: j :: p) := by
  unfold pulseTab
  split <;> simp_all

theorem algTab_stable {k : String} (hk : k ∉ ["algorithm_name", "algorithm_module", "algorithm_class", "algorithm_attribute"])
    (j : String) (s : PDict) (x : PVal) : algTab lib [j] (s.insert k x) = algTab lib [j] s := by
  simp only [List.mem_cons, List.not_mem_nil, or_false, not_or] at hk
  have ha : algOf lib (s.insert k x) = algOf lib s := by
    unfold algOf
    rw [get?_insert, get?_insert, get?_insert, get?_insert, if_neg (Ne.symm hk.1), if_neg (Ne.symm hk.2.1), if_neg (Ne.symm hk.2.2.1),
      if_neg (Ne.symm hk.2.2.2)]
  by_cases hj : j = "super_iteration_number"
  · subst hj
    show (if (algOf lib (s.insert k x)).bind algClass = some .ad then _ else _) = _
    rw [ha]
    rfl
  · rw [algTab_other lib hj, algTab_other lib hj]

theorem basisTab_stable {k : String} (hk : k ∉ ["basis_name", "basis_module", "basis_class", "basis_attribute", "sigma"])
    (j : String) (s : PDict) (x : PVal) : basisTab lib [j] (s.insert k x) = basisTab lib [j] s := by
  simp only [List.mem_cons, List.not_mem_nil, or_false, not_or] at hk
  have ha : basisOf lib (s.insert k x) = basisOf lib s := by
    unfold basisOf
    rw [get?_insert, get?_insert, get?_insert, get?_insert, if_neg (Ne.symm hk.1), if_neg (Ne.symm hk.2.1), if_neg (Ne.symm hk.2.2.1),
      if_neg (Ne.symm hk.2.2.2.1)]
  have hi : ∀ m, basisIs lib (s.insert k x) m = basisIs lib s m := fun m => by unfold basisIs; rw [ha]
  have ho : offsetDefault (s.insert k x) = offsetDefault s := by
    unfold offsetDefault
    rw [get?_insert, if_neg (Ne.symm hk.2.2.2.2)]
  by_cases h1 : j = "sigma"
  · subst h1
    show (if basisIs lib (s.insert k x) _ then _ else _) = _
    rw [hi]
    rfl
  by_cases h2 : j = "offset"
  · subst h2
    show (if basisIs lib (s.insert k x) _ then _ else offsetDefault (s.insert k x)) = _
    rw [hi, ho]
    rfl
  by_cases h3 : j = "tau_variation"
  · subst h3
    show (if basisIs lib (s.insert k x) _ then _ else _) = _
    rw [hi]
    rfl
  by_cases h4 : j = "sigma_variation"
  · subst h4
    show (if basisIs lib (s.insert k x) _ then _ else _) = _
    rw [hi]
    rfl
  have hc : ∀ s, basisTab lib [j] s = basisConst [j] := by
    intro s
    unfold basisTab
    split <;> simp_all
  rw [hc, hc]

theorem sweep_stable : ∀ {p : List PathStep}, Sweepable p = true → TabStable (settingsTab lib false) p
  | [], _ => trivial
  | .pos _ :: p, h => by simp [Sweepable] at h
  | .key k :: q, h => by
    refine ⟨fun j s x => by rw [settingsTab_one, settingsTab_one], ?_⟩
    by_cases hk : k = "algorithm_settings"
    · subst hk
      refine TabStable.congr (T := (settingsTab lib false).below "algorithm_settings") (T' := algTab lib) (fun j q s => rfl) q ?_
      match q, h with
      | [], _ => trivial
      | .key k :: q, h =>
        refine ⟨algTab_stable lib (by simpa [Sweepable] using h), ?_⟩
        refine TabStable.const (fun j q s s' => ?_) q
        show algTab lib (k :: j :: q) s = algTab lib (k :: j :: q) s'
        rw [algTab_two, algTab_two]
    by_cases hp : k = "pulses"
    · subst hp
      refine TabStable.congr (T := (settingsTab lib false).below "pulses") (T' := pulseTab lib false) (fun j q s => rfl) q ?_
      match q, h with
      | [], _ => trivial
      | [.pos i], _ => trivial
      | .pos i :: .key k :: q, h =>
        refine ⟨fun j s x => by rw [pulseTab_one, pulseTab_one], ?_⟩
        by_cases hb : k = "basis"
        · subst hb
          refine TabStable.congr (T := (pulseTab lib false).below "basis") (T' := basisTab lib) (fun j q s => rfl) q ?_
          match q, h with
          | [], _ => trivial
          | .key k :: q, h =>
            refine ⟨basisTab_stable lib (by simpa [Sweepable] using h), ?_⟩
            refine TabStable.const (fun j q s s' => ?_) q
            show basisTab lib (k :: j :: q) s = basisTab lib (k :: j :: q) s'
            rw [basisTab_two, basisTab_two]
        · refine TabStable.const (fun j q s s' => ?_) q
          show pulseTab lib false (k :: j :: q) s = pulseTab lib false (k :: j :: q) s'
          rw [pulseTab_other lib false hb, pulseTab_other lib false hb]
    · refine TabStable.const (fun j q s s' => ?_) q
      show settingsTab lib false (k :: j :: q) s = settingsTab lib false (k :: j :: q) s'
      rw [settingsTab_other lib false hk hp, settingsTab_other lib false hk hp]

end

/-! ### Filling in one default -/

section
variable {T : Tab} {d s : PDict} {k : String} {w : PVal}

theorem lookAt_key {v x : PVal} {k : String} {p : List PathStep} (h : lookAt v (.key k :: p) = some x) :
    ∃ s y, v = .dict s ∧ s.get? k = some y ∧ lookAt y p = some x := by
  cases v <;> simp only [lookAt] at h <;> try cases h
  rename_i s
  obtain ⟨y, h1, h2⟩ := Option.bind_eq_some_iff.1 h
  exact ⟨s, y, rfl, h1, h2⟩

theorem lookAt_pos {v x : PVal} {i : ℕ} {p : List PathStep} (h : lookAt v (.pos i :: p) = some x) :
    ∃ l y, v = .list l ∧ l.get? i = some y ∧ lookAt y p = some x := by
  cases v <;> simp only [lookAt] at h <;> try cases h
  rename_i s
  obtain ⟨y, h1, h2⟩ := Option.bind_eq_some_iff.1 h
  exact ⟨s, y, rfl, h1, h2⟩

/-- A default, or an entry that nothing depends on. -/
def Def.Fill (D : Def) (w : PVal) : Prop := D = .val w ∨ D = .unused

theorem fill_val (ht : (T [k] d).Fill w) (hk : d.get? k = none) : Agree T d (d.insert k w) := by
  refine (Agree.refl T d).insert ?_
  rcases ht with ht | ht <;> rw [ht, hk]
  · exact .val w
  · exact .unused w

theorem fill_sub {s' : PDict} (ht : T [k] d = .sub ∨ T [k] d = .subDefault) (hk : d.get? k = some (.dict s))
    (h : Agree (T.below k) s s') : Agree T d (d.insert k (.dict s')) := by
  refine (Agree.refl T d).insert ?_
  rw [hk]
  rcases ht with ht | ht <;> rw [ht]
  · exact .sub h
  · exact .subSome h

theorem set_item {s' : PDict} : ∀ {l : PList} {i : ℕ}, l.get? i = some (.dict s) → Agree T s s' → AgreeItems T l (l.set i (.dict s'))
  | .nil, _, hl, _ => by cases hl
  | .cons v l, 0, hl, h => by
    have : v = .dict s := Option.some.inj hl
    subst this
    exact .dict h (AgreeItems.refl _ _)
  | .cons v l, i + 1, hl, h => .same (set_item (l := l) hl h)

theorem fill_item {s' : PDict} {l : PList} {i : ℕ} (ht : T [k] d = .items) (hk : d.get? k = some (.list l))
    (hl : l.get? i = some (.dict s)) (h : Agree (T.below k) s s') : Agree T d (d.insert k (.list (l.set i (.dict s')))) := by
  refine (Agree.refl T d).insert ?_
  rw [ht, hk]
  exact .items (set_item hl h)

theorem fill1 {a : String} (h1 : (T [a] d).Fill w) (hl : lookAt (.dict d) [] = some (.dict s))
    (hn : lookAt (.dict d) [.key a] = none) : Agree T d (assign d [.key a] w) := by
  simp only [lookAt, Option.bind_eq_none_iff] at hn
  refine fill_val h1 ?_
  rcases h : d.get? a with _ | x
  · rfl
  · exact absurd (hn x h) (by simp)

theorem fill2 {a b : String} (h1 : T [a] d = .sub) (h2 : (T.below a [b] s).Fill w)
    (hl : lookAt (.dict d) [.key a] = some (.dict s)) (hn : lookAt (.dict d) [.key a, .key b] = none) :
    Agree T d (assign d [.key a, .key b] w) := by
  obtain ⟨_, y, e, hy, hl1⟩ := lookAt_key hl
  cases e
  simp only [lookAt] at hl1
  cases hl1
  have hn' : lookAt (.dict s) [.key b] = none := by simpa [lookAt, hy] using hn
  have := fill1 (s := s) h2 rfl hn'
  have e : assign d [.key a, .key b] w = d.insert a (.dict (assign s [.key b] w)) := by simp [assign, setAt, hy]
  rw [e]
  exact fill_sub (.inl h1) hy this

theorem fill3 {a b c : String} (h1 : T [a] d = .sub) (h2 : ∀ s, T.below a [b] s = .sub ∨ T.below a [b] s = .subDefault)
    (h3 : ((T.below a).below b [c] s).Fill w)
    (hl : lookAt (.dict d) [.key a, .key b] = some (.dict s)) (hn : lookAt (.dict d) [.key a, .key b, .key c] = none) :
    Agree T d (assign d [.key a, .key b, .key c] w) := by
  obtain ⟨_, y, e, hy, hl1⟩ := lookAt_key hl
  cases e
  obtain ⟨s1, z, e, hz, hl2⟩ := lookAt_key hl1
  subst e
  simp only [lookAt] at hl2
  cases hl2
  have hn' : lookAt (.dict s) [.key c] = none := by simpa [lookAt, hy, hz] using hn
  have := fill1 (s := s) h3 rfl hn'
  have e : assign d [.key a, .key b, .key c] w = d.insert a (.dict (s1.insert b (.dict (assign s [.key c] w)))) := by
    simp [assign, setAt, hy, hz]
  rw [e]
  exact fill_sub (.inl h1) hy (fill_sub (h2 _) hz this)

theorem fill4 {a b c e : String} (h1 : T [a] d = .sub) (h2 : ∀ s, T.below a [b] s = .sub)
    (h3 : ∀ s, (T.below a).below b [c] s = .sub) (h4 : (((T.below a).below b).below c [e] s).Fill w)
    (hl : lookAt (.dict d) [.key a, .key b, .key c] = some (.dict s))
    (hn : lookAt (.dict d) [.key a, .key b, .key c, .key e] = none) : Agree T d (assign d [.key a, .key b, .key c, .key e] w) := by
  obtain ⟨_, y, e', hy, hl1⟩ := lookAt_key hl
  cases e'
  obtain ⟨s1, z, e', hz, hl2⟩ := lookAt_key hl1
  subst e'
  obtain ⟨s2, u, e', hu, hl3⟩ := lookAt_key hl2
  subst e'
  simp only [lookAt] at hl3
  cases hl3
  have hn' : lookAt (.dict s) [.key e] = none := by simpa [lookAt, hy, hz, hu] using hn
  have := fill1 (s := s) h4 rfl hn'
  have e' : assign d [.key a, .key b, .key c, .key e] w =
      d.insert a (.dict (s1.insert b (.dict (s2.insert c (.dict (assign s [.key e] w)))))) := by
    simp [assign, setAt, hy, hz, hu]
  rw [e']
  exact fill_sub (.inl h1) hy (fill_sub (.inl (h2 _)) hz (fill_sub (.inl (h3 _)) hu this))

theorem fillP {a b : String} {i : ℕ} (h1 : T [a] d = .items) (h2 : (T.below a [b] s).Fill w)
    (hl : lookAt (.dict d) [.key a, .pos i] = some (.dict s)) (hn : lookAt (.dict d) [.key a, .pos i, .key b] = none) :
    Agree T d (assign d [.key a, .pos i, .key b] w) := by
  obtain ⟨_, y, e, hy, hl1⟩ := lookAt_key hl
  cases e
  obtain ⟨l, z, e, hz, hl2⟩ := lookAt_pos hl1
  subst e
  simp only [lookAt] at hl2
  cases hl2
  have hn' : lookAt (.dict s) [.key b] = none := by simpa [lookAt, hy, hz] using hn
  have := fill1 (s := s) h2 rfl hn'
  have e : assign d [.key a, .pos i, .key b] w = d.insert a (.list (l.set i (.dict (assign s [.key b] w)))) := by
    simp [assign, setAt, hy, hz]
  rw [e]
  exact fill_item h1 hy hz this

theorem fillPB {a b c : String} {i : ℕ} (h1 : T [a] d = .items) (h2 : ∀ s, T.below a [b] s = .sub)
    (h3 : ((T.below a).below b [c] s).Fill w)
    (hl : lookAt (.dict d) [.key a, .pos i, .key b] = some (.dict s))
    (hn : lookAt (.dict d) [.key a, .pos i, .key b, .key c] = none) : Agree T d (assign d [.key a, .pos i, .key b, .key c] w) := by
  obtain ⟨_, y, e, hy, hl1⟩ := lookAt_key hl
  cases e
  obtain ⟨l, z, e, hz, hl2⟩ := lookAt_pos hl1
  subst e
  obtain ⟨s1, u, e, hu, hl3⟩ := lookAt_key hl2
  subst e
  simp only [lookAt] at hl3
  cases hl3
  have hn' : lookAt (.dict s) [.key c] = none := by simpa [lookAt, hy, hz, hu] using hn
  have := fill1 (s := s) h3 rfl hn'
  have e : assign d [.key a, .pos i, .key b, .key c] w =
      d.insert a (.list (l.set i (.dict (s1.insert b (.dict (assign s [.key c] w)))))) := by
    simp [assign, setAt, hy, hz, hu]
  rw [e]
  exact fill_item h1 hy hz (fill_sub (.inl (h2 _)) hu this)

theorem doc_agree (lib : PyLib) {p : List PathStep} (h : docDefault lib s p = some w) (hw : docWrong lib s p = false)
    (hl : lookAt (.dict d) p.dropLast = some (.dict s)) (hn : lookAt (.dict d) p = none) :
    Agree (settingsTab lib true) d (assign d p w) := by
  have hm : ∀ m, basisModule lib s = some m → basisIs lib s m = true := by
    intro m h
    have e : basisIs lib s m = (basisModule lib s == some m) := rfl
    rw [e, h]
    simp
  unfold docDefault at h
  split at h
  · cases h; exact fill1 (.inl rfl) hl hn
  · cases h; exact fill2 rfl (.inl rfl) hl hn
  · cases hw
  · cases h; exact fill3 rfl (fun _ => .inr rfl) (.inl rfl) hl hn
  · cases h; exact fill4 rfl (fun _ => rfl) (fun _ => rfl) (.inl rfl) hl hn
  · cases hw
  · cases h; exact fill4 rfl (fun _ => rfl) (fun _ => rfl) (.inl rfl) hl hn
  · cases h; exact fill4 rfl (fun _ => rfl) (fun _ => rfl) (.inl rfl) hl hn
  · cases hw
  · cases h; exact fillP rfl (.inl rfl) hl hn
  · cases h; exact fillP rfl (.inl rfl) hl hn
  · cases h
    refine fillP rfl (.inl ?_) hl hn
    rw [bins_tab, if_pos]
    rw [Bool.true_and, Bool.not_eq_true']
    unfold isPiecewise
    have hw : (match s.get? "basis" with
      | some (.dict b) => decide (basisModule lib b = some "quocslib.pulses.basis.PiecewiseBasis")
      | _ => false) = false := hw
    generalize s.get? "basis" = x at hw ⊢
    cases x with
    | none => rfl
    | some x =>
      cases x <;> try rfl
      rename_i b
      have e : basisIs lib b "quocslib.pulses.basis.PiecewiseBasis" =
        (basisModule lib b == some "quocslib.pulses.basis.PiecewiseBasis") := rfl
      simp only [decide_eq_false_iff_not] at hw
      show basisIs lib b "quocslib.pulses.basis.PiecewiseBasis" = false
      rw [e]
      simpa using hw
  · cases h; exact fillP rfl (.inl rfl) hl hn
  · cases h; exact fillP rfl (.inl rfl) hl hn
  · cases h; exact fillP rfl (.inl rfl) hl hn
  · cases h; exact fillPB rfl (fun _ => rfl) (.inl rfl) hl hn
  · split at h
    · rename_i hb
      cases h
      refine fillPB rfl (fun _ => rfl) (.inl ?_) hl hn
      show (if basisIs lib s "quocslib.pulses.basis.Sigmoid" then _ else _) = _
      rw [if_pos (hm _ hb)]
    · cases h
  · split at h
    · rename_i hb
      cases h
      refine fillPB rfl (fun _ => rfl) (.inl ?_) hl hn
      show (if basisIs lib s "quocslib.pulses.basis.Sigmoid" then _ else _) = _
      rw [if_pos (hm _ hb)]
    · cases h
  · split at h
    · cases h
      exact fillPB rfl (fun _ => rfl) (.inl rfl) hl hn
    · cases h
  · cases hw
  · cases h; exact fillP rfl (.inl rfl) hl hn
  · cases h; exact fillP rfl (.inl rfl) hl hn
  · cases hw
  · cases h; exact fillP rfl (.inl rfl) hl hn
  · cases hw
  · cases h; exact fillP rfl (.inl rfl) hl hn
  · cases h

theorem extra_top {k : String} (hk : k ∉ ["optimization_client_name", "create_logfile", "console_info", "use_microsecond_name", "dump_format",
    "sys_type", "algorithm_settings", "pulses", "parameters", "times"]) : topConst [k] = .unused := by
  simp only [List.mem_cons, List.not_mem_nil, or_false, not_or] at hk
  unfold topConst
  split <;> simp_all

theorem extra_alg (lib : PyLib) {k : String} (hk : k ∉ ["algorithm_name", "algorithm_attribute", "algorithm_module", "algorithm_class",
    "optimization_direction", "max_eval_total", "total_time_lim", "FoM_goal", "super_iteration_number", "dsm_settings",
    "compensate_drift", "stopping_criteria", "re_evaluation", "random_number_generator"]) (s : PDict) : algTab lib [k] s = .unused := by
  simp only [List.mem_cons, List.not_mem_nil, or_false, not_or] at hk
  rw [algTab_other lib hk.2.2.2.2.2.2.2.2.1]
  unfold algConst
  split <;> simp_all

theorem extra_pulse (lib : PyLib) {k : String} (hk : k ∉ ["pulse_name", "time_name", "bins_number", "lower_limit", "upper_limit",
    "amplitude_variation", "shrink_ampl_lim", "overwrite_base_pulse", "shaping_options", "initial_guess", "scaling_function", "basis",
    "map_index", "rng", "is_AD"]) (s : PDict) : pulseTab lib false [k] s = .unused := by
  simp only [List.mem_cons, List.not_mem_nil, or_false, not_or] at hk
  rw [pulseTab_one]
  unfold pulseConst
  split <;> simp_all

theorem extra_agree (lib : PyLib) {p : List PathStep} (h : ExtraEntry p = true) (hl : lookAt (.dict d) p.dropLast = some (.dict s))
    (hn : lookAt (.dict d) p = none) : Agree (settingsTab lib false) d (assign d p w) := by
  unfold ExtraEntry at h
  split at h
  · refine fill1 (.inr ?_) hl hn
    rw [settingsTab_one]
    exact extra_top (by simpa using h)
  · exact fill2 rfl (.inr (extra_alg lib (by simpa using h) s)) hl hn
  · exact fillP rfl (.inr (extra_pulse lib (by simpa using h) s)) hl hn
  · cases h

end
end QuOCS

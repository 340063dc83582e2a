import Verif.Lemmas.SettingsRead
import Verif.Spec.Settings
import Verif.Lemmas.SettingsValues

/-!
# The values read when an optimizer is created
-/

set_option linter.unusedSectionVars false
set_option linter.unusedVariables false

namespace QuOCS

section
variable {α β : Type} {T : Tab} {d d' : PDict}

/-- One step of a program that ended normally, started from a dictionary with some defaults filled in. -/
theorem Lawful.step {m : Prog PDict α} {f : α → Prog PDict β} {b : β} (hm : Lawful T d m) (ha : Agree T d d')
    (h : ((m >>= f) d').1 = .ok b) : ∃ a d'', (m d).1 = .ok a ∧ Agree T d d'' ∧ (f a d'').1 = .ok b := by
  obtain ⟨h1, h2⟩ := hm d' ha
  rw [prog_bind] at h
  rcases hd : m d' with ⟨r, d''⟩
  rw [hd] at h1 h2 h
  cases r with
  | error e => simp at h
  | ok a => exact ⟨a, d'', h1.symm, h2, h⟩

theorem lift_ok {x : Py α} {d : PDict} {a : α} (h : (Prog.lift x d).1 = .ok a) : x = .ok a := h

theorem pure_ok {x a : α} {d : PDict} (h : ((pure x : Prog PDict α) d).1 = .ok a) : a = x := by
  exact (Except.ok.inj h).symm

theorem item_ok {k : String} {v : PVal} {d : PDict} (h : (item k d).1 = .ok v) : d.get? k = some v := by
  unfold item at h
  rcases hd : d.get? k with _ | w
  · simp [hd] at h
  · simp [hd] at h
    rw [h]

theorem getOpt_ok {k : String} {v : Option PVal} {d : PDict} (h : (getOpt k d).1 = .ok v) : v = d.get? k :=
  (Except.ok.inj h).symm

theorem inDictDefault_ok {k : String} {m : Prog PDict α} {d : PDict} {a : α} (h : (inDictDefault k m d).1 = .ok a) :
    ∃ s, (d.get? k).getD (.dict .nil) = .dict s ∧ (m s).1 = .ok a := by
  unfold inDictDefault at h
  rcases hd : d.get? k with _ | w
  · simp [hd] at h
    exact ⟨.nil, rfl, h⟩
  · cases w <;> simp [hd] at h
    exact ⟨_, rfl, h⟩

theorem forItems_ok {m : Prog PDict α} : ∀ {l : PList} {as : List α}, (forItems m l).1 = .ok as →
    List.Forall₂ (fun s a => (m s).1 = .ok a) (dictsIn l) as
  | .nil, as, h => by
    simp [forItems] at h
    subst h
    exact .nil
  | .cons (.dict s) l, as, h => by
    unfold forItems at h
    rcases hm : (m s).1 with e | a
    · simp [hm] at h
    · simp only [hm] at h
      rcases hf : (forItems m l).1 with e | bs
      · simp [hf, Except.map] at h
      · simp [hf, Except.map] at h
        subst h
        exact .cons hm (forItems_ok hf)
  | .cons (.atom _) l, as, h => by simp [forItems] at h
  | .cons (.list _) l, as, h => by simp [forItems] at h
  | .cons (.ndarray _) l, as, h => by simp [forItems] at h
  | .cons (.cls _) l, as, h => by simp [forItems] at h
  | .cons (.fn _) l, as, h => by simp [forItems] at h
  | .cons (.other _) l, as, h => by simp [forItems] at h

theorem inItems_ok {k : String} {m : Prog PDict α} {d : PDict} {as : List α} (h : (inItems k m d).1 = .ok as) :
    List.Forall₂ (fun s a => (m s).1 = .ok a) (itemsAt d k) as := by
  unfold inItems at h
  unfold itemsAt
  rcases hd : d.get? k with _ | w
  · simp [hd] at h
  · cases w <;> simp [hd] at h
    exact forItems_ok h

theorem inItems_list {k : String} {m : Prog PDict α} {d : PDict} {as : List α} (h : (inItems k m d).1 = .ok as) :
    ∃ l, entry d [k] = some (.list l) := by
  unfold inItems at h
  show ∃ l, d.get? k = some (.list l)
  rcases hd : d.get? k with _ | w
  · simp [hd] at h
  · cases w <;> simp [hd] at h
    exact ⟨_, rfl⟩

theorem nameOf_ok {v : PVal} {s : String} (h : nameOf v = .ok s) : v = .str s := by
  unfold nameOf at h
  split at h
  · rw [Except.ok.inj h]
  · simp at h

theorem directionOf_ok {v : PVal} {b : Bool} (h : directionOf v = .ok b) :
    v = .str (if b then "maximization" else "minimization") := by
  have hs : ∀ s, strOpt (some v) = some s → v = .str s := by
    intro s hs
    unfold strOpt at hs
    split at hs
    · rename_i heq
      rw [Option.some.inj heq, Option.some.inj hs]
    · simp at hs
  unfold directionOf at h
  split at h
  · rename_i h'
    rw [← Except.ok.inj h]
    exact hs _ h'
  · split at h
    · rename_i h'
      rw [← Except.ok.inj h]
      exact hs _ h'
    · simp at h

theorem goalOf_ok {v w : PVal} (h : goalOf v = .ok w) : w = v := by
  unfold goalOf at h
  split at h <;> simp at h
  exact h.symm

theorem setting_one (d : PDict) (k : String) (v : PVal) : setting d [k] v = (d.get? k).getD v := rfl

theorem look_cons {s : PDict} {k j : String} {p : List String} (h : d.get? k = some (.dict s)) :
    entry d (k :: j :: p) = entry s (j :: p) := by
  simp [entry, h]

theorem setting_cons {s : PDict} {k j : String} {p : List String} {v : PVal} (h : d.get? k = some (.dict s)) :
    setting d (k :: j :: p) v = setting s (j :: p) v := by
  unfold setting
  rw [look_cons h]

theorem setting_default {s : PDict} {k j : String} {v : PVal} (h : (d.get? k).getD (.dict .nil) = .dict s) :
    setting d [k, j] v = setting s [j] v := by
  unfold setting
  rcases hd : d.get? k with _ | w
  · rw [hd] at h
    cases h
    simp [entry, hd, PDict.get?]
  · rw [hd] at h
    have : w = .dict s := h
    subst this
    rw [look_cons hd]

end

section
variable (lib : PyLib)
include lib

theorem stopping_use {d : PDict} {s : StopSettings} (h : (readStopping d).1 = .ok s) :
    s = { maxEval := setting d ["max_eval"] (.num (10 ^ 10)), timeLim := setting d ["time_lim"] (.num (10 ^ 10)),
          changeBased := setting d ["change_based_stop"] changeBasedDefault, xatol := setting d ["xatol"] (.num (1 / 10 ^ 14)),
          fatol := setting d ["fatol"] (.num (1 / 10 ^ 100)) } := by
  let T := (((settingsTab lib false).below "algorithm_settings").below "dsm_settings").below "stopping_criteria"
  unfold readStopping at h
  obtain ⟨a, d1, h1, a1, h⟩ := Lawful.step (T := T) (Lawful.setdefault rfl) (Agree.refl _ d) h
  obtain ⟨b, d2, h2, a2, h⟩ := Lawful.step (Lawful.setdefault rfl) a1 h
  obtain ⟨c, d3, h3, a3, h⟩ := Lawful.step (Lawful.setdefault rfl) a2 h
  obtain ⟨e, d4, h4, a4, h⟩ := Lawful.step (Lawful.setdefault rfl) a3 h
  obtain ⟨f, d5, h5, a5, h⟩ := Lawful.step (Lawful.setdefault rfl) a4 h
  rw [pure_ok h, setdefault_ok h1, setdefault_ok h2, setdefault_ok h3, setdefault_ok h4, setdefault_ok h5]
  rfl

theorem gradientStopping_use {d : PDict} {s : PVal × PVal × PVal × PVal} (h : (readGradientStopping d).1 = .ok s) :
    s = (setting d ["max_eval_total"] (.num (10 ^ 10)), setting d ["ftol"] (.num (1 / 10 ^ 6)), setting d ["gtol"] (.num (1 / 10 ^ 6)),
      setting d ["maxls"] (.num 20)) := by
  let T := ((settingsTab lib false).below "algorithm_settings").below "stopping_criteria"
  unfold readGradientStopping at h
  obtain ⟨a, d1, h1, a1, h⟩ := Lawful.step (T := T) (Lawful.setdefault rfl) (Agree.refl _ d) h
  obtain ⟨b, d2, h2, a2, h⟩ := Lawful.step (Lawful.setdefault rfl) a1 h
  obtain ⟨c, d3, h3, a3, h⟩ := Lawful.step (Lawful.setdefault rfl) a2 h
  obtain ⟨e, d4, h4, a4, h⟩ := Lawful.step (Lawful.setdefault rfl) a3 h
  rw [pure_ok h, setdefault_ok h1, setdefault_ok h2, setdefault_ok h3, setdefault_ok h4]
  rfl

theorem methodName_lawful (b : Bool) (d : PDict) :
    Lawful ((((settingsTab lib false).below "algorithm_settings").below "dsm_settings").below "general_settings") d
      (readMethodName lib b) := by
  unfold readMethodName
  lawful
  split <;> lawful

theorem methodName_use {b : Bool} {d : PDict} {m : MethodName} (h : (readMethodName lib b d).1 = .ok m) :
    (b = true → entry d ["dsm_name"] ≠ none → m = .nelderMead) ∧
    (b = false ∨ entry d ["dsm_name"] = none → chosen lib "dsm_settings" none (entry d ["dsm_algorithm_module"])
      (entry d ["dsm_algorithm_class"]) (entry d ["dsm_algorithm_name"]) =
      m.moduleAndClass) := by
  let T := (((settingsTab lib false).below "algorithm_settings").below "dsm_settings").below "general_settings"
  unfold readMethodName at h
  obtain ⟨o, d1, h1, a1, h⟩ := Lawful.step (T := T) (Lawful.getOpt rfl) (Agree.refl _ d) h
  have ho := getOpt_ok h1
  subst ho
  have he : ∀ k, entry d [k] = d.get? k := fun _ => rfl
  rw [he]
  split at h
  · rename_i hc
    simp only [Bool.and_eq_true, Option.isSome_iff_ne_none] at hc
    have hm := pure_ok h
    exact ⟨fun _ _ => hm, fun hh => by rcases hh with hh | hh <;> simp_all⟩
  · rename_i hc
    simp only [Bool.and_eq_true, Option.isSome_iff_ne_none, not_and] at hc
    refine ⟨fun h1 h2 => absurd h2 (hc h1), fun _ => ?_⟩
    obtain ⟨_, d2, h2, a2, h⟩ := Lawful.step (Lawful.setdefault rfl) a1 h
    obtain ⟨_, d3, h3, a3, h⟩ := Lawful.step (Lawful.setdefault rfl) a2 h
    obtain ⟨_, d4, h4, a4, h⟩ := Lawful.step (Lawful.setdefault rfl) a3 h
    rw [setdefault_ok h2, setdefault_ok h3, setdefault_ok h4, chosen_is] at h
    have hcn := chosen_none lib "dsm_settings" none (d.get? "dsm_algorithm_module") (d.get? "dsm_algorithm_class")
      (d.get? "dsm_algorithm_name")
    have hcn' : ∀ m c n, chosen lib "dsm_settings" (some ((none : Option PVal).getD .null)) m c n = chosen lib "dsm_settings" none m c n :=
      fun _ _ _ => rfl
    rw [hcn'] at hcn
    rw [hcn] at h
    rw [he, he, he]
    rcases hcl : chosen lib "dsm_settings" none (d.get? "dsm_algorithm_module") (d.get? "dsm_algorithm_class")
      (d.get? "dsm_algorithm_name") with _ | cl
    · rw [hcl] at h
      cases h
    · rw [hcl] at h
      rw [pure_ok h]
      unfold methodClass
      split
      · rename_i h; rw [h]; rfl
      · split
        · rename_i h; rw [h]; rfl
        · rfl

theorem method_use {b : Bool} {d : PDict} {m : MethodSettings} (h : (readMethod lib b d).1 = .ok m) :
    m.adaptive = setting d ["is_adaptive"] (.bool false) ∧ (m.method = .cmaes → m.population = setting d ["population"] .null) ∧
    (m.method = .nelderMead ∨ m.method = .cmaes) ∧
    (b = true → entry d ["dsm_name"] ≠ none → m.method = .nelderMead) ∧
    (b = false ∨ entry d ["dsm_name"] = none → chosen lib "dsm_settings" none (entry d ["dsm_algorithm_module"])
      (entry d ["dsm_algorithm_class"]) (entry d ["dsm_algorithm_name"]) =
      m.method.moduleAndClass) := by
  unfold readMethod at h
  obtain ⟨a, d1, h1, a1, h⟩ := Lawful.step (methodName_lawful lib b d) (Agree.refl _ d) h
  have hn := methodName_use lib h1
  cases a with
  | nelderMead =>
    obtain ⟨b, d2, h2, a2, h⟩ := Lawful.step (Lawful.setdefault rfl) a1 h
    obtain ⟨c, d3, h3, a3, h⟩ := Lawful.step (Lawful.setdefault rfl) a2 h
    rw [pure_ok h, setdefault_ok h3]
    exact ⟨rfl, (fun h => by cases h), .inl rfl, hn⟩
  | cmaes =>
    obtain ⟨b, d2, h2, a2, h⟩ := Lawful.step (Lawful.setdefault rfl) a1 h
    obtain ⟨c, d3, h3, a3, h⟩ := Lawful.step (Lawful.setdefault rfl) a2 h
    obtain ⟨e, d4, h4, a4, h⟩ := Lawful.step (Lawful.setdefault rfl) a3 h
    rw [pure_ok h, setdefault_ok h3, setdefault_ok h4]
    exact ⟨rfl, (fun _ => rfl), .inr rfl, hn⟩
  | other a b => cases h

theorem core_use {d : PDict} {c : CoreSettings} (h : (readCore lib d).1 = .ok c) : UsesCore lib d c := by
  unfold readCore at h
  obtain ⟨pn, d1, h1, a1, h⟩ := Lawful.step (T := settingsTab lib false) (Lawful.inItems rfl fun _ => Lawful.item rfl) (Agree.refl _ d) h
  obtain ⟨an, d2, h2, a2, h⟩ := Lawful.step (Lawful.inItems rfl fun _ => Lawful.item rfl) a1 h
  obtain ⟨tn, d3, h3, a3, h⟩ := Lawful.step (Lawful.inItems rfl fun _ => Lawful.item rfl) a2 h
  rw [(Lawful.inDict (T := settingsTab lib false) (d₀ := d) rfl (fun s hs => by lawful) d3 a3).1] at h
  obtain ⟨s, hs, h⟩ := inDict_ok h
  obtain ⟨v4, d4, h4, a4, h⟩ := Lawful.step (T := (settingsTab lib false).below "algorithm_settings") (Lawful.setdefault rfl) (Agree.refl _ s) h
  obtain ⟨v5, d5, h5, a5, h⟩ := Lawful.step (Lawful.lift _) a4 h
  obtain ⟨v6, d6, h6, a6, h⟩ := Lawful.step (Lawful.setdefault rfl) a5 h
  obtain ⟨v7, d7, h7, a7, h⟩ := Lawful.step (Lawful.setdefault rfl) a6 h
  obtain ⟨v8, d8, h8, a8, h⟩ := Lawful.step (Lawful.lift _) a7 h
  obtain ⟨v9, d9, h9, a9, h⟩ := Lawful.step (Lawful.setdefault rfl) a8 h
  obtain ⟨v10, d10, h10, a10, h⟩ := Lawful.step (Lawful.lift _) a9 h
  rw [pure_ok h]
  refine ⟨?_, ?_, ?_, ?_, ?_, ?_, ?_, ?_⟩
  · rw [setting_cons hs, setting_one, ← setdefault_ok h4]
    exact pyInt_is h5
  · rw [setting_cons hs, setting_one, ← setdefault_ok h6]
  · rw [setting_cons hs, setting_one, ← setdefault_ok h7]
    exact directionOf_ok h8
  · rw [setting_cons hs, setting_one, ← setdefault_ok h9]
    exact goalOf_ok h10
  · exact (inItems_ok h1).imp fun _ _ => item_ok
  · exact (inItems_ok h2).imp fun _ _ => item_ok
  · exact (inItems_ok h3).imp fun _ _ => item_ok
  · intro k hk
    simp only [List.mem_cons, List.not_mem_nil, or_false] at hk
    rcases hk with rfl | rfl | rfl
    · exact inItems_list h1
    · exact inItems_list h2
    · exact inItems_list h3

omit lib in
theorem numArg_ok {k : String} {v x : ℚ} {d : PDict} (h : (numArg k v d).1 = .ok x) : IsNumber (setting d [k] (.num v)) x :=
  numOf_is h
omit lib in
theorem nameArg_ok {k : String} {v x : String} {d : PDict} (h : (nameArg k v d).1 = .ok x) : setting d [k] (.str v) = .str x :=
  nameOf_ok h
omit lib in
theorem boolArg_ok {k : String} {x : Bool} {d : PDict} (h : (boolArg k d).1 = .ok x) :
    x = false ↔ IsFalse (setting d [k] (.bool false)) := by
  rw [← Except.ok.inj (show Except.ok (truthy (setting d [k] (.bool false))) = Except.ok x from h)]
  exact truthy_false_iff _

theorem param_use {d : PDict} {x : ParamDict ℚ} (h : (readParam d).1 = .ok x) : UsesParam d x := by
  unfold readParam at h
  obtain ⟨_, d1, h1, a1, h⟩ := Lawful.step (T := (settingsTab lib false).below "parameters") (Lawful.onlyKeys (param_keys lib d)) (Agree.refl _ d) h
  obtain ⟨_, d2, h2, a2, h⟩ := Lawful.step (Lawful.nameArg (.inr rfl)) a1 h
  obtain ⟨_, d3, h3, a3, h⟩ := Lawful.step (Lawful.numArg rfl) a2 h
  obtain ⟨_, d4, h4, a4, h⟩ := Lawful.step (Lawful.numArg rfl) a3 h
  obtain ⟨_, d5, h5, a5, h⟩ := Lawful.step (Lawful.numArg rfl) a4 h
  obtain ⟨_, d6, h6, a6, h⟩ := Lawful.step (Lawful.numArg rfl) a5 h
  rw [pure_ok h]
  exact ⟨nameArg_ok h2, numArg_ok h3, numArg_ok h4, numArg_ok h5, numArg_ok h6⟩

theorem time_use {d : PDict} {x : TimeDict ℚ} (h : (readTime d).1 = .ok x) : UsesTime d x := by
  unfold readTime at h
  obtain ⟨_, d1, h1, a1, h⟩ := Lawful.step (T := (settingsTab lib false).below "times") (Lawful.item rfl) (Agree.refl _ d) h
  obtain ⟨_, d2, h2, a2, h⟩ := Lawful.step (Lawful.lift _) a1 h
  obtain ⟨_, d3, h3, a3, h⟩ := Lawful.step (Lawful.onlyKeys (time_keys lib d)) a2 h
  obtain ⟨_, d4, h4, a4, h⟩ := Lawful.step (Lawful.numArg rfl) a3 h
  obtain ⟨_, d5, h5, a5, h⟩ := Lawful.step (Lawful.boolArg rfl) a4 h
  obtain ⟨_, d6, h6, a6, h⟩ := Lawful.step (Lawful.numArg rfl) a5 h
  obtain ⟨_, d7, h7, a7, h⟩ := Lawful.step (Lawful.numArg rfl) a6 h
  obtain ⟨_, d8, h8, a8, h⟩ := Lawful.step (Lawful.numArg rfl) a7 h
  rw [pure_ok h]
  refine ⟨?_, numArg_ok h4, boolArg_ok h5, numArg_ok h6, numArg_ok h7, numArg_ok h8⟩
  rw [← nameOf_ok (lift_ok h2)]
  exact item_ok h1

theorem distribution_use {d : PDict} {x : ℚ × ℚ} (h : (readDistribution lib d).1 = .ok x) :
    IsNumber (setting d ["lower_limit"] (.num 0)) x.1 ∧ IsNumber (setting d ["upper_limit"] (.num 5)) x.2 := by
  unfold readDistribution at h
  obtain ⟨_, d1, h1, a1, h⟩ := Lawful.step (T := (((settingsTab lib false).below "pulses").below "basis").below
    "random_super_parameter_distribution") (Lawful.setdefault rfl) (Agree.refl _ d) h
  obtain ⟨_, d2, h2, a2, h⟩ := Lawful.step (Lawful.setdefault rfl) a1 h
  obtain ⟨_, d3, h3, a3, h⟩ := Lawful.step (Lawful.setdefault rfl) a2 h
  obtain ⟨_, d4, h4, a4, h⟩ := Lawful.step (Lawful.setdefault rfl) a3 h
  generalize importClass lib _ _ _ _ _ = r at h
  cases r with
  | none => cases h
  | some c =>
    dsimp only at h
    split at h
    · obtain ⟨_, d5, h5, a5, h⟩ := Lawful.step (Lawful.numArg rfl) a4 h
      obtain ⟨_, d6, h6, a6, h⟩ := Lawful.step (Lawful.numArg rfl) a5 h
      rw [pure_ok h]
      exact ⟨numArg_ok h5, numArg_ok h6⟩
    · cases h

omit lib in
theorem vectorNumber_ok {d : PDict} {n : ℕ} (h : (vectorNumber d).1 = .ok n) :
    IsCount (setting d ["basis_vector_number"] (.num 1)) n := by
  refine countOf_is ?_
  unfold vectorNumber at h
  rw [prog_bind] at h
  unfold setdefault at h
  unfold setting entry
  rcases hd : d.get? "basis_vector_number" with _ | w <;> rw [hd] at h <;> exact h

omit lib in
theorem numSetting_ok {k : String} {v x : ℚ} {d : PDict} (h : (numSetting k v d).1 = .ok x) : IsNumber (setting d [k] (.num v)) x := by
  rw [numSetting_result] at h
  exact numOf_is h

theorem basisSettings_use {d : PDict} {c : String × String} (hc : basisOf lib d = some c) {bins : Option PVal} {x : Basis ℚ} {d' : PDict}
    (ha : Agree (((settingsTab lib false).below "pulses").below "basis") d d')
    (h : (readBasisSettings bins c.1 d').1 = .ok x) : UsesBasis lib d x := by
  rw [(lawful_basisSettings lib hc bins d' ha).1] at h
  have his : ∀ m, basisIs lib d m = (c.1 == m) := by
    intro m
    unfold basisIs
    rw [hc]
    rfl
  have hcl : ∀ m, c.1 = m → ∃ c', chosen lib "basis" (entry d ["basis_attribute"]) (entry d ["basis_module"]) (entry d ["basis_class"])
      (entry d ["basis_name"]) = some (m, c') := by
    intro m hm
    refine ⟨c.2, ?_⟩
    rw [← chosen_none, ← chosen_is, ← hm]
    exact hc
  let T := ((settingsTab lib false).below "pulses").below "basis"
  have hsig : ∀ v, (if basisIs lib d "quocslib.pulses.basis.Sigmoid" then Def.val (.num (1 / 10)) else .val (.num (1 / 10 ^ 10))) = .val v →
      T ["sigma"] d = .val v := fun v h => h
  have hoff : ∀ v, (if basisIs lib d "quocslib.pulses.basis.Sigmoid" then Def.val (.num (1 / 10)) else offsetDefault d) = .val v →
      T ["offset"] d = .val v := fun v h => h
  have htau : ∀ v, (if basisIs lib d "quocslib.pulses.basis.SigmoidTimeDep" then Def.val (.num (1 / 10)) else .val (.num (1 / 10 ^ 20))) =
      .val v → T ["tau_variation"] d = .val v := fun v h => h
  have hsv : ∀ v, (if basisIs lib d "quocslib.pulses.basis.SigmoidSigmas" then Def.val (.num 1) else .val (.num (1 / 10 ^ 20))) =
      .val v → T ["sigma_variation"] d = .val v := fun v h => h
  have ho : ∀ s, (numSetting "sigma" (1 / 10 ^ 10) d).1 = .ok s → offsetDefault d = .val (.num (-10 * s)) := by
    intro s h
    rw [numSetting_result] at h
    unfold offsetDefault
    rw [h]
  have hv := lawful_vectorNumber lib (B := false) d
  unfold readBasisSettings at h
  split at h
  · rename_i hm
    cases bins with
    | none => cases h
    | some b =>
      have h' : ((Prog.lift (countOf b) >>= fun _ => pure .piecewise : Prog PDict (Basis ℚ)) d).1 = .ok x := h
      obtain ⟨_, _, _, _, h'⟩ := Lawful.step (T := T) (Lawful.lift _) (Agree.refl _ d) h'
      rw [pure_ok h']
      exact hcl _ hm
  split at h
  · rename_i hm
    obtain ⟨n, d1, h1, a1, h⟩ := Lawful.step hv (Agree.refl _ d) h
    rw [pure_ok h]
    exact ⟨hcl _ hm, vectorNumber_ok h1⟩
  split at h
  · rename_i hm
    obtain ⟨n, d1, h1, a1, h⟩ := Lawful.step hv (Agree.refl _ d) h
    rw [pure_ok h]
    exact ⟨hcl _ hm, vectorNumber_ok h1⟩
  split at h
  · rename_i hm
    obtain ⟨n, d1, h1, a1, h⟩ := Lawful.step hv (Agree.refl _ d) h
    rw [pure_ok h]
    exact ⟨hcl _ hm, vectorNumber_ok h1⟩
  split at h
  · rename_i hm
    obtain ⟨n, d1, h1, a1, h⟩ := Lawful.step hv (Agree.refl _ d) h
    obtain ⟨m, d2, h2, a2, h⟩ := Lawful.step (lawful_numSetting rfl) a1 h
    rw [pure_ok h]
    exact ⟨hcl _ hm, vectorNumber_ok h1, numSetting_ok h2⟩
  split at h
  · rename_i hm
    obtain ⟨n, d1, h1, a1, h⟩ := Lawful.step hv (Agree.refl _ d) h
    obtain ⟨o, d2, h2, a2, h⟩ := Lawful.step (lawful_numSetting (hoff _ (by rw [his, hm]; rfl))) a1 h
    obtain ⟨σ, d3, h3, a3, h⟩ := Lawful.step (lawful_numSetting (hsig _ (by rw [his, hm]; rfl))) a2 h
    rw [pure_ok h]
    exact ⟨hcl _ hm, vectorNumber_ok h1, numSetting_ok h2, numSetting_ok h3⟩
  split at h
  · rename_i hm
    obtain ⟨n, d1, h1, a1, h⟩ := Lawful.step hv (Agree.refl _ d) h
    obtain ⟨σ, d3, h3, a3, h⟩ := Lawful.step (lawful_numSetting (hsig _ (by rw [his, hm]; rfl))) a1 h
    obtain ⟨o, d2, h2, a2, h⟩ := Lawful.step (lawful_numSetting (hoff _ (by rw [his, hm, ← ho σ h3]; rfl))) a3 h
    obtain ⟨τ, d4, h4, a4, h⟩ := Lawful.step (lawful_numSetting (htau _ (by rw [his, hm]; rfl))) a2 h
    rw [pure_ok h]
    exact ⟨hcl _ hm, vectorNumber_ok h1, numSetting_ok h2, numSetting_ok h3, numSetting_ok h4⟩
  split at h
  · rename_i hm
    obtain ⟨n, d1, h1, a1, h⟩ := Lawful.step hv (Agree.refl _ d) h
    obtain ⟨σ, d3, h3, a3, h⟩ := Lawful.step (lawful_numSetting (hsig _ (by rw [his, hm]; rfl))) a1 h
    obtain ⟨o, d2, h2, a2, h⟩ := Lawful.step (lawful_numSetting (hoff _ (by rw [his, hm, ← ho σ h3]; rfl))) a3 h
    obtain ⟨τ, d4, h4, a4, h⟩ := Lawful.step (lawful_numSetting (hsv _ (by rw [his, hm]; rfl))) a2 h
    rw [pure_ok h]
    exact ⟨hcl _ hm, vectorNumber_ok h1, numSetting_ok h2, numSetting_ok h3, numSetting_ok h4⟩
  split at h
  · rename_i hm
    obtain ⟨n, d1, h1, a1, h⟩ := Lawful.step hv (Agree.refl _ d) h
    obtain ⟨σ, d3, h3, a3, h⟩ := Lawful.step (lawful_numSetting (hsig _ (by rw [his, hm]; rfl))) a1 h
    obtain ⟨o, d2, h2, a2, h⟩ := Lawful.step (lawful_numSetting (hoff _ (by rw [his, hm, ← ho σ h3]; rfl))) a3 h
    obtain ⟨τ, d4, h4, a4, h⟩ := Lawful.step (lawful_numSetting (htau _ (by rw [his, hm]; rfl))) a2 h
    obtain ⟨v, d5, h5, a5, h⟩ := Lawful.step (lawful_numSetting (hsv _ (by rw [his, hm]; rfl))) a4 h
    rw [pure_ok h]
    exact ⟨hcl _ hm, vectorNumber_ok h1, numSetting_ok h2, numSetting_ok h3, numSetting_ok h4, numSetting_ok h5⟩
  · cases h

theorem basis_use {d : PDict} {bins : Option PVal} {x : Basis ℚ} (h : (readBasis lib bins d).1 = .ok x) : UsesBasis lib d x := by
  unfold readBasis at h
  obtain ⟨a, d1, h1, a1, h⟩ := Lawful.step (T := ((settingsTab lib false).below "pulses").below "basis") (Lawful.setdefault rfl)
    (Agree.refl _ d) h
  obtain ⟨b, d2, h2, a2, h⟩ := Lawful.step (Lawful.setdefault rfl) a1 h
  obtain ⟨c, d3, h3, a3, h⟩ := Lawful.step (Lawful.setdefault rfl) a2 h
  obtain ⟨e, d4, h4, a4, h⟩ := Lawful.step (Lawful.setdefault rfl) a3 h
  rw [setdefault_ok h1, setdefault_ok h2, setdefault_ok h3, setdefault_ok h4] at h
  have hb : basisOf lib d = importClass lib (some ((d.get? "basis_attribute").getD .null)) (some ((d.get? "basis_module").getD .null))
    (some ((d.get? "basis_class").getD .null)) (some ((d.get? "basis_name").getD .null)) "basis" := rfl
  rw [← hb] at h
  rcases hc : basisOf lib d with _ | c
  · rw [hc] at h; cases h
  · rw [hc] at h
    exact basisSettings_use lib hc a4 h

/-- A pulse can be created only without entries with the names of the other arguments. -/
theorem pulse_reserved {d : PDict} {x : PulseDict ℚ} (h : (readPulse lib d).1 = .ok x) : ∀ k ∈ reservedNames, d.get? k = none := by
  unfold readPulse at h
  obtain ⟨basis, d2, h2, a2, h⟩ := Lawful.step (T := (settingsTab lib false).below "pulses") (lawful_pulseBasis lib d) (Agree.refl _ d) h
  obtain ⟨_, d3, h3, a3, h⟩ := Lawful.step (by unfold noClash; lawful) a2 h
  unfold noClash at h3
  obtain ⟨a, e1, b1, c1, h3⟩ := Lawful.step (T := (settingsTab lib false).below "pulses") (Lawful.getOpt rfl) (Agree.refl _ d) h3
  obtain ⟨b, e2, b2, c2, h3⟩ := Lawful.step (Lawful.getOpt rfl) c1 h3
  obtain ⟨c, e3, b3, c3, h3⟩ := Lawful.step (Lawful.getOpt rfl) c2 h3
  have b1 := getOpt_ok b1
  have b2 := getOpt_ok b2
  have b3 := getOpt_ok b3
  subst b1 b2 b3
  split at h3
  · cases h3
  · rename_i hn
    simp only [Bool.or_eq_true, not_or, Option.isSome_iff_ne_none, not_not] at hn
    intro k hk
    simp only [reservedNames, List.mem_cons, List.not_mem_nil, or_false] at hk
    rcases hk with rfl | rfl | rfl
    · exact hn.1.1
    · exact hn.1.2
    · exact hn.2

theorem pulse_use {d : PDict} {x : PulseDict ℚ} (h : (readPulse lib d).1 = .ok x) : UsesPulse lib d x := by
  have hres := pulse_reserved lib h
  unfold readPulse at h
  obtain ⟨basis, d2, h2, a2, h⟩ := Lawful.step (T := (settingsTab lib false).below "pulses") (lawful_pulseBasis lib d) (Agree.refl _ d) h
  obtain ⟨_, d3, h3, a3, h⟩ := Lawful.step (by unfold noClash; lawful) a2 h
  obtain ⟨_, d4, h4, a4, h⟩ := Lawful.step (Lawful.nameArg (.inr rfl)) a3 h
  obtain ⟨_, d5, h5, a5, h⟩ := Lawful.step (Lawful.nameArg (.inl rfl)) a4 h
  obtain ⟨_, d6, h6, a6, h⟩ := Lawful.step (Lawful.numArg rfl) a5 h
  obtain ⟨_, d7, h7, a7, h⟩ := Lawful.step (Lawful.numArg rfl) a6 h
  obtain ⟨_, d8, h8, a8, h⟩ := Lawful.step (Lawful.numArg rfl) a7 h
  obtain ⟨_, d9, h9, a9, h⟩ := Lawful.step (lawful_bins lib d) a8 h
  split at h
  · cases h
  obtain ⟨_, d10, h10, a10, h⟩ := Lawful.step (Lawful.getOpt rfl) a9 h
  obtain ⟨_, d11, h11, a11, h⟩ := Lawful.step (Lawful.lift _) a10 h
  obtain ⟨_, d12, h12, a12, h⟩ := Lawful.step (lawful_guess lib d) a11 h
  obtain ⟨_, d13, h13, a13, h⟩ := Lawful.step (Lawful.lift _) a12 h
  obtain ⟨_, d14, h14, a14, h⟩ := Lawful.step (lawful_scaling lib d) a13 h
  obtain ⟨_, d15, h15, a15, h⟩ := Lawful.step (Lawful.lift _) a14 h
  obtain ⟨_, d16, h16, a16, h⟩ := Lawful.step (Lawful.boolArg rfl) a15 h
  obtain ⟨_, d17, h17, a17, h⟩ := Lawful.step (Lawful.boolArg rfl) a16 h
  obtain ⟨w, d18, h18, a18, h⟩ := Lawful.step (by
    unfold readSuper
    exact Lawful.ite (fun _ => Lawful.inDict rfl fun _ _ => Lawful.inDict rfl fun _ _ => lawful_distribution lib _)
      (fun _ => Lawful.pure _)) a17 h
  rw [pure_ok h]
  rw [getOpt_ok h10] at h11
  have h2 : (inDict "basis" (readBasis lib (d.get? "bins_number")) d).1 = .ok basis := h2
  obtain ⟨s, hs, h2⟩ := inDict_ok h2
  refine ⟨nameArg_ok h4, nameArg_ok h5, lengthOf_is h9, numArg_ok h6, numArg_ok h7, numArg_ok h8, boolArg_ok h16, boolArg_ok h17,
    shapingOf_is h11, guess_is h12 h13, scaling_is h14 h15, ?_, ?_, hres⟩
  · exact ⟨s, hs, basis_use lib h2⟩
  · intro hx
    have hx : basis.isChopped = true := by
      have hx : basis ≠ .piecewise := hx
      unfold Basis.isChopped
      split
      · exact absurd rfl hx
      · rfl
    unfold readSuper at h18
    rw [if_pos hx] at h18
    obtain ⟨s', hs', h18⟩ := inDict_ok h18
    obtain ⟨s2, hs2, h18⟩ := inDict_ok h18
    rw [setting_cons hs', setting_cons hs2, setting_cons hs', setting_cons hs2]
    exact distribution_use lib h18

theorem controls_use {d : PDict} {c : ControlDicts} (h : (readControls lib d).1 = .ok c) : UsesControls lib d c := by
  unfold readControls at h
  obtain ⟨_, d1, h1, a1, h⟩ := Lawful.step (T := settingsTab lib false) (Lawful.inItems rfl fun s => lawful_pulse lib s) (Agree.refl _ d) h
  obtain ⟨_, d2, h2, a2, h⟩ := Lawful.step (Lawful.inItems rfl fun s => lawful_param lib s) a1 h
  obtain ⟨_, d3, h3, a3, h⟩ := Lawful.step (Lawful.inItems rfl fun s => lawful_time lib s) a2 h
  obtain ⟨_, d4, h4, a4, h⟩ := Lawful.step (Lawful.lift _) a3 h
  rw [pure_ok h]
  exact ⟨(inItems_ok h1).imp fun _ _ => pulse_use lib, (inItems_ok h2).imp fun _ _ => param_use lib,
    (inItems_ok h3).imp fun _ _ => time_use lib⟩

omit lib in
theorem inDict_look {α : Type} {k : String} {m : Prog PDict α} {d s : PDict} {a : α} (hs : d.get? k = some (.dict s))
    (h : (inDict k m d).1 = .ok a) : (m s).1 = .ok a := by
  obtain ⟨s', hs', h⟩ := inDict_ok h
  rw [hs] at hs'
  cases hs'
  exact h

theorem method_uses {d s : PDict} {m : MethodSettings} {st : StopSettings} {b : Bool}
    (hm : (inDict "algorithm_settings" (inDict "dsm_settings" (inDict "general_settings" (readMethod lib b))) d).1 = .ok m)
    (hst : (inDict "algorithm_settings" (inDict "dsm_settings" (inDict "stopping_criteria" readStopping)) d).1 = .ok st) :
    UsesMethod lib b d m st := by
  obtain ⟨s1, hs1, hm⟩ := inDict_ok hm
  obtain ⟨s2, hs2, hm⟩ := inDict_ok hm
  obtain ⟨s3, hs3, hm⟩ := inDict_ok hm
  obtain ⟨s4, hs4, hst⟩ := inDict_ok (inDict_look hs2 (inDict_look hs1 hst))
  have h1 := method_use lib hm
  have h2 := stopping_use lib hst
  subst h2
  constructor
  · rw [look_cons hs1, look_cons hs2, look_cons hs3]; exact h1.2.2.2.1
  · rw [look_cons hs1, look_cons hs2, look_cons hs3, look_cons hs1, look_cons hs2, look_cons hs3, look_cons hs1, look_cons hs2,
      look_cons hs3, look_cons hs1, look_cons hs2, look_cons hs3]
    exact h1.2.2.2.2
  · rw [setting_cons hs1, setting_cons hs2, setting_cons hs3]; exact h1.1
  · rw [setting_cons hs1, setting_cons hs2, setting_cons hs3]; exact h1.2.1
  iterate 5 rw [setting_cons hs1, setting_cons hs2, setting_cons hs4]
  · rfl
  · exact h1.2.2.1

theorem dcrab_use {d s : PDict} {x : SearchSettings} (hs : d.get? "algorithm_settings" = some (.dict s))
    (hc : (algOf lib s).bind algClass = some .dcrab) (h : (readDcrab lib d).1 = .ok x) : x.kind = .dcrab ∧ UsesDcrab lib d x := by
  unfold readDcrab at h
  obtain ⟨core, d1, h1, a1, h⟩ := Lawful.step (lawful_core lib (B := false) d) (Agree.refl _ d) h
  obtain ⟨_, d2, h2, a2, h⟩ := Lawful.step (Lawful.inDict rfl fun _ _ => Lawful.setdefault rfl) a1 h
  obtain ⟨_, d3, h3, a3, h⟩ := Lawful.step (Lawful.inDict rfl fun _ _ => Lawful.inDict rfl fun _ _ => Lawful.inDict rfl fun _ _ =>
    Lawful.fillDefault rfl) a2 h
  obtain ⟨_, d4, h4, a4, h⟩ := Lawful.step (Lawful.inDict rfl fun _ _ => Lawful.inDict rfl fun _ _ => Lawful.inDict rfl fun _ _ =>
    Lawful.fillDefault rfl) a3 h
  obtain ⟨_, d5, h5, a5, h⟩ := Lawful.step (Lawful.inDict rfl fun _ _ => Lawful.inDict rfl fun _ _ => Lawful.inDict rfl fun _ _ =>
    lawful_method lib _ _) a4 h
  obtain ⟨_, d6, h6, a6, h⟩ := Lawful.step (Lawful.inDict rfl fun _ _ => Lawful.inDict rfl fun _ _ => Lawful.inDict rfl fun _ _ =>
    lawful_stopping lib _) a5 h
  obtain ⟨_, d7, h7, a7, h⟩ := Lawful.step (Lawful.inDict rfl fun _ _ => Lawful.inDictDefault rfl fun _ _ => Lawful.pure _) a6 h
  obtain ⟨si, d8, h8, a8, h⟩ := Lawful.step (Lawful.inDict rfl fun s' hs' => Lawful.item (by
    rw [hs] at hs'
    cases hs'
    show (if (algOf lib s).bind algClass = some .ad then _ else _) = _
    rw [hc, if_neg (by decide)])) a7 h
  obtain ⟨_, d9, h9, a9, h⟩ := Lawful.step (Lawful.lift _) a8 h
  obtain ⟨⟨after, minutes, average⟩, d10, h10, a10, h⟩ := Lawful.step (by lawful) a9 h
  obtain ⟨q, d11, h11, a11, h⟩ := Lawful.step (Lawful.lift _) a10 h
  obtain ⟨_, d12, h12, a12, h⟩ := Lawful.step (Lawful.inDict rfl fun _ _ => Lawful.getOpt rfl) a11 h
  obtain ⟨_, d13, h13, a13, h⟩ := Lawful.step (Lawful.lift _) a12 h
  obtain ⟨_, d14, h14, a14, h⟩ := Lawful.step (Lawful.inDict rfl fun _ _ => Lawful.getOpt rfl) a13 h
  obtain ⟨_, d15, h15, a15, h⟩ := Lawful.step (Lawful.lift _) a14 h
  obtain ⟨_, d16, h16, a16, h⟩ := Lawful.step (lawful_controls lib d) a15 h
  rw [pure_ok h]
  refine ⟨rfl, ?_⟩
  obtain ⟨s', hs', h10⟩ := inDictDefault_ok (inDict_look hs h10)
  obtain ⟨_, e1, g1, b1, h10⟩ := Lawful.step (T := ((settingsTab lib false).below "algorithm_settings").below "compensate_drift")
    (Lawful.setdefault rfl) (Agree.refl _ s') h10
  obtain ⟨_, e2, g2, b2, h10⟩ := Lawful.step (Lawful.setdefault rfl) b1 h10
  obtain ⟨_, e3, g3, b3, h10⟩ := Lawful.step (Lawful.setdefault rfl) b2 h10
  have h10 := pure_ok h10
  rw [Prod.mk.injEq, Prod.mk.injEq] at h10
  obtain ⟨i1, i2, i3⟩ := h10
  rw [setdefault_ok g1] at i1
  rw [setdefault_ok g2] at i2
  rw [setdefault_ok g3] at i3
  have e12 := getOpt_ok (inDict_look hs h12)
  have e14 := getOpt_ok (inDict_look hs h14)
  subst e12 e14
  refine ⟨core_use lib h1, method_uses (s := s) lib h5 h6, controls_use lib h16, ?_, ?_, ?_, ?_, ?_, ?_, ?_⟩
  · exact ⟨si, by rw [look_cons hs]; exact item_ok (inDict_look hs h8), pyInt_is h9⟩
  · rw [setting_cons hs, setting_default hs']; exact i2
  · rw [setting_cons hs, setting_default hs']; exact i3
  · rw [setting_cons hs, setting_default hs', setting_one, ← i1]
    have h11 : numOf minutes = .ok q := h11
    simp only [Bool.or_eq_true, decide_eq_true_eq, truthy_iff]
    constructor
    · rintro (h | h)
      · exact .inl h
      · exact .inr ⟨q, numOf_is h11, h⟩
    · rintro (h | ⟨q', hq, h⟩)
      · exact .inl h
      · rw [IsNumber.unique hq (numOf_is h11)] at h
        exact .inr h
  · rw [look_cons hs]; exact reEvalOf_is h13
  · rw [look_cons hs]; exact seed_is (alg := .dcrab) (r := lib.randint) (by decide) h15
  · intro hn
    rw [look_cons hs] at hn
    have hn : s.get? "random_number_generator" = none := hn
    rw [hn] at h15
    exact (Except.ok.inj h15).symm

theorem directSearch_use {d : PDict} {x : SearchSettings} (h : (readDirectSearch lib d).1 = .ok x) :
    x.kind = .directSearch ∧ UsesDirectSearch lib d x := by
  unfold readDirectSearch at h
  obtain ⟨core, d1, h1, a1, h⟩ := Lawful.step (lawful_core lib (B := false) d) (Agree.refl _ d) h
  obtain ⟨_, d2, h2, a2, h⟩ := Lawful.step (Lawful.inDict rfl fun _ _ => Lawful.setdefault rfl) a1 h
  obtain ⟨_, d3, h3, a3, h⟩ := Lawful.step (Lawful.inDict rfl fun _ _ => Lawful.inDict rfl fun _ _ => Lawful.inDict rfl fun _ _ =>
    Lawful.fillDefault rfl) a2 h
  obtain ⟨_, d5, h5, a5, h⟩ := Lawful.step (Lawful.inDict rfl fun _ _ => Lawful.inDict rfl fun _ _ => Lawful.inDict rfl fun _ _ =>
    lawful_method lib _ _) a3 h
  obtain ⟨_, d6, h6, a6, h⟩ := Lawful.step (Lawful.inDict rfl fun _ _ => Lawful.inDict rfl fun _ _ => Lawful.inDict rfl fun _ _ =>
    lawful_stopping lib _) a5 h
  obtain ⟨⟨minutes, average⟩, d10, h10, a10, h⟩ := Lawful.step (by lawful) a6 h
  obtain ⟨_, d12, h12, a12, h⟩ := Lawful.step (Lawful.inDict rfl fun _ _ => Lawful.getOpt rfl) a10 h
  obtain ⟨_, d13, h13, a13, h⟩ := Lawful.step (Lawful.lift _) a12 h
  obtain ⟨_, d16, h16, a16, h⟩ := Lawful.step (lawful_controls lib d) a13 h
  rw [pure_ok h]
  refine ⟨rfl, ?_⟩
  obtain ⟨s, hs, h10⟩ := inDict_ok h10
  obtain ⟨s', hs', h10⟩ := inDictDefault_ok h10
  obtain ⟨_, e2, g2, b2, h10⟩ := Lawful.step (T := ((settingsTab lib false).below "algorithm_settings").below "compensate_drift")
    (Lawful.setdefault rfl) (Agree.refl _ s') h10
  obtain ⟨_, e3, g3, b3, h10⟩ := Lawful.step (Lawful.setdefault rfl) b2 h10
  have h10 := pure_ok h10
  rw [Prod.mk.injEq] at h10
  obtain ⟨i2, i3⟩ := h10
  rw [setdefault_ok g2] at i2
  rw [setdefault_ok g3] at i3
  have e12 := getOpt_ok (inDict_look hs h12)
  subst e12
  refine ⟨core_use lib h1, method_uses (s := s) lib h5 h6, controls_use lib h16, rfl, ?_, ?_, ?_⟩
  · rw [setting_cons hs, setting_default hs']; exact i2
  · rw [setting_cons hs, setting_default hs']; exact i3
  · rw [look_cons hs]; exact reEvalOf_is h13

theorem gradientStopping_uses {d : PDict} {st : PVal × PVal × PVal × PVal}
    (h : (inDict "algorithm_settings" (inDictDefault "stopping_criteria" readGradientStopping) d).1 = .ok st) :
    st = (setting d ["algorithm_settings", "stopping_criteria", "max_eval_total"] (.num (10 ^ 10)),
      setting d ["algorithm_settings", "stopping_criteria", "ftol"] (.num (1 / 10 ^ 6)),
      setting d ["algorithm_settings", "stopping_criteria", "gtol"] (.num (1 / 10 ^ 6)),
      setting d ["algorithm_settings", "stopping_criteria", "maxls"] (.num 20)) := by
  obtain ⟨s, hs, h⟩ := inDict_ok h
  obtain ⟨s', hs', h⟩ := inDictDefault_ok h
  rw [setting_cons hs, setting_cons hs, setting_cons hs, setting_cons hs, setting_default hs', setting_default hs', setting_default hs',
    setting_default hs']
  exact gradientStopping_use lib h

theorem grape_use {d : PDict} {x : GradientSettings} (h : (readGrape lib d).1 = .ok x) : UsesGradient lib .grape d x := by
  unfold readGrape at h
  obtain ⟨core, d1, h1, a1, h⟩ := Lawful.step (lawful_core lib (B := false) d) (Agree.refl _ d) h
  obtain ⟨_, d2, h2, a2, h⟩ := Lawful.step (Lawful.setdefault rfl) a1 h
  obtain ⟨_, d3, h3, a3, h⟩ := Lawful.step (Lawful.inDict rfl fun _ _ => Lawful.inDictDefault rfl fun _ _ =>
    lawful_gradientStopping lib _) a2 h
  obtain ⟨_, d4, h4, a4, h⟩ := Lawful.step (Lawful.inDict rfl fun _ _ => Lawful.getOpt rfl) a3 h
  obtain ⟨_, d5, h5, a5, h⟩ := Lawful.step (Lawful.lift _) a4 h
  obtain ⟨_, d6, h6, a6, h⟩ := Lawful.step (lawful_controls lib d) a5 h
  split at h
  · cases h
  rw [pure_ok h, gradientStopping_uses lib h3]
  obtain ⟨s, hs, h4⟩ := inDict_ok h4
  have e4 := getOpt_ok h4
  subst e4
  refine ⟨core_use lib h1, controls_use lib h6, rfl, rfl, rfl, rfl, (fun h => by cases h), ?_, ?_⟩
  · rw [look_cons hs]
    exact seed_is (alg := .grape) (r := lib.randint) (by decide) h5
  · intro hn
    rw [look_cons hs] at hn
    have hn : s.get? "random_number_generator" = none := hn
    rw [hn] at h5
    exact (Except.ok.inj h5).symm

theorem ad_use {d s : PDict} {x : GradientSettings} (hs : d.get? "algorithm_settings" = some (.dict s))
    (hc : (algOf lib s).bind algClass = some .ad) (h : (readAD lib d).1 = .ok x) : UsesGradient lib .ad d x := by
  unfold readAD at h
  obtain ⟨core, d1, h1, a1, h⟩ := Lawful.step (lawful_core lib (B := false) d) (Agree.refl _ d) h
  obtain ⟨_, d2, h2, a2, h⟩ := Lawful.step (Lawful.setdefault rfl) a1 h
  obtain ⟨_, d7, h7, a7, h⟩ := Lawful.step (Lawful.inDict rfl fun s' hs' => Lawful.setdefault (by
    rw [hs] at hs'
    cases hs'
    show (if (algOf lib s).bind algClass = some .ad then _ else _) = _
    rw [hc, if_pos rfl])) a2 h
  obtain ⟨_, d8, h8, a8, h⟩ := Lawful.step (Lawful.lift _) a7 h
  obtain ⟨_, d3, h3, a3, h⟩ := Lawful.step (Lawful.inDict rfl fun _ _ => Lawful.inDictDefault rfl fun _ _ =>
    lawful_gradientStopping lib _) a8 h
  obtain ⟨_, d4, h4, a4, h⟩ := Lawful.step (Lawful.inDict rfl fun _ _ => Lawful.getOpt rfl) a3 h
  obtain ⟨_, d5, h5, a5, h⟩ := Lawful.step (Lawful.lift _) a4 h
  obtain ⟨_, d6, h6, a6, h⟩ := Lawful.step (lawful_controls lib d) a5 h
  rw [pure_ok h, gradientStopping_uses lib h3]
  have e4 := getOpt_ok (inDict_look hs h4)
  subst e4
  refine ⟨core_use lib h1, controls_use lib h6, rfl, rfl, rfl, rfl, fun _ => ?_, ?_, ?_⟩
  · rw [setting_cons hs, setting_one, ← setdefault_ok (inDict_look hs h7)]
    exact pyInt_is h8
  · rw [look_cons hs]
    exact seed_is (alg := .ad) (r := lib.randint) (by decide) h5
  · intro hn
    rw [look_cons hs] at hn
    have hn : s.get? "random_number_generator" = none := hn
    rw [hn] at h5
    exact (Except.ok.inj h5).symm

theorem algOf_is (s : PDict) : chosen lib "algorithm" (entry s ["algorithm_attribute"]) (entry s ["algorithm_module"])
    (entry s ["algorithm_class"]) (entry s ["algorithm_name"]) = algOf lib s := by
  have he : ∀ k, entry s [k] = s.get? k := fun _ => rfl
  rw [he, he, he, he, ← chosen_none]
  unfold algOf
  rw [chosen_is, ← chosen_none lib "algorithm" (s.get? "algorithm_attribute")]
  rfl

theorem create_use {d : PDict} {c : Created} (h : (createOptimizer lib d).1 = .ok c) : UsesSettings lib d c := by
  unfold createOptimizer at h
  obtain ⟨_, d1, h1, a1, h⟩ := Lawful.step (T := settingsTab lib false) (Lawful.setdefault rfl) (Agree.refl _ d) h
  obtain ⟨_, d2, h2, a2, h⟩ := Lawful.step (Lawful.setdefault rfl) a1 h
  obtain ⟨_, d3, h3, a3, h⟩ := Lawful.step (Lawful.setdefault rfl) a2 h
  obtain ⟨_, d4, h4, a4, h⟩ := Lawful.step (Lawful.setdefault rfl) a3 h
  obtain ⟨_, d5, h5, a5, h⟩ := Lawful.step (Lawful.setdefault rfl) a4 h
  obtain ⟨dir, d6, h6, a6, h⟩ := Lawful.step (Lawful.inDict rfl fun _ _ => Lawful.setdefault rfl) a5 h
  obtain ⟨cls, d7, h7, a7, h⟩ := Lawful.step (by unfold readClass; lawful) a6 h
  obtain ⟨s, hs, h7⟩ := inDict_ok h7
  rw [readClass_result] at h7
  have h7 := Except.ok.inj h7
  have hdir : ∀ {c : CoreSettings}, UsesCore lib d c → c.maximize = decide (strOpt (some dir) = some "maximization") := by
    intro c hc
    have := hc.direction
    rw [setting_cons hs, setting_one, ← setdefault_ok (inDict_look hs h6)] at this
    rw [this]
    cases c.maximize <;> decide
  cases cls with
  | none => cases h
  | some cl =>
    have hb : (algOf lib s).bind algClass = algClass cl := by rw [h7]; rfl
    have hch : chosen lib "algorithm" (entry d ["algorithm_settings", "algorithm_attribute"])
        (entry d ["algorithm_settings", "algorithm_module"]) (entry d ["algorithm_settings", "algorithm_class"])
        (entry d ["algorithm_settings", "algorithm_name"]) = some cl := by
      rw [look_cons hs, look_cons hs, look_cons hs, look_cons hs, ← h7]
      exact algOf_is lib s
    have hac : ∀ {n : AlgName}, algClass cl = some n → cl = (match n with
        | .dcrab => ("quocslib.optimizationalgorithms.dCRABAlgorithm", "dCRABAlgorithm")
        | .directSearch => ("quocslib.optimizationalgorithms.DirectSearchAlgorithm", "DirectSearchAlgorithm")
        | .grape => ("quocslib.optimizationalgorithms.GRAPEAlgorithm", "GRAPEAlgorithm")
        | .ad => ("quocslib.optimizationalgorithms.ADAlgorithm", "ADAlgorithm")) := by
      intro n hn
      unfold algClass at hn
      split at hn
      · cases hn; assumption
      split at hn
      · cases hn; assumption
      split at hn
      · cases hn; assumption
      split at hn
      · cases hn; assumption
      · cases hn
    have hsome := fun {n : AlgName} (hn : algClass cl = some n) => hch.trans (congrArg some (hac hn))
    unfold readAlg at h
    rcases hcl : algClass cl with _ | n
    · simp only [hcl] at h
      cases h
    · rw [hcl] at hb
      simp only [hcl] at h
      cases n with
      | dcrab =>
        obtain ⟨_, d8, h8, a8, h⟩ := Lawful.step (Lawful.bind (lawful_dcrab lib hs hb) fun _ _ => Lawful.pure _) a7 h
        obtain ⟨x, d9, h9, a9, h8⟩ := Lawful.step (lawful_dcrab lib (B := false) hs hb) (Agree.refl _ d) h8
        have := dcrab_use lib hs hb h9
        rw [pure_ok h, pure_ok h8, setdefault_ok h1, setdefault_ok h2, setdefault_ok h3, setdefault_ok h4, setdefault_ok h5]
        exact ⟨rfl, rfl, rfl, rfl, rfl, (by simp only [AlgSettings.className, this.1]; exact hsome hcl), hdir this.2.core, .inl this⟩
      | directSearch =>
        obtain ⟨_, d8, h8, a8, h⟩ := Lawful.step (Lawful.bind (lawful_directSearch lib d) fun _ _ => Lawful.pure _) a7 h
        obtain ⟨x, d9, h9, a9, h8⟩ := Lawful.step (lawful_directSearch lib (B := false) d) (Agree.refl _ d) h8
        have := directSearch_use lib h9
        rw [pure_ok h, pure_ok h8, setdefault_ok h1, setdefault_ok h2, setdefault_ok h3, setdefault_ok h4, setdefault_ok h5]
        exact ⟨rfl, rfl, rfl, rfl, rfl, (by simp only [AlgSettings.className, this.1]; exact hsome hcl), hdir this.2.core, .inr this⟩
      | grape =>
        obtain ⟨_, d8, h8, a8, h⟩ := Lawful.step (Lawful.bind (lawful_grape lib d) fun _ _ => Lawful.pure _) a7 h
        obtain ⟨x, d9, h9, a9, h8⟩ := Lawful.step (lawful_grape lib (B := false) d) (Agree.refl _ d) h8
        have := grape_use lib h9
        rw [pure_ok h, pure_ok h8, setdefault_ok h1, setdefault_ok h2, setdefault_ok h3, setdefault_ok h4, setdefault_ok h5]
        exact ⟨rfl, rfl, rfl, rfl, rfl, hsome hcl, hdir this.core, this⟩
      | ad =>
        obtain ⟨_, d8, h8, a8, h⟩ := Lawful.step (Lawful.bind (lawful_ad lib hs hb) fun _ _ => Lawful.pure _) a7 h
        obtain ⟨x, d9, h9, a9, h8⟩ := Lawful.step (lawful_ad lib (B := false) hs hb) (Agree.refl _ d) h8
        have := ad_use lib hs hb h9
        rw [pure_ok h, pure_ok h8, setdefault_ok h1, setdefault_ok h2, setdefault_ok h3, setdefault_ok h4, setdefault_ok h5]
        exact ⟨rfl, rfl, rfl, rfl, rfl, hsome hcl, hdir this.core, this⟩

omit lib in
theorem num?_is {v : PVal} {q : ℚ} (h : v.num? = some q) : v = .num q := by
  unfold PVal.num? at h
  split at h
  · rw [Option.some.inj h]
  · cases h

omit lib in
theorem int?_is {v : PVal} {z : ℤ} (h : v.int? = some z) : v = .num z := by
  unfold PVal.int? at h
  split at h
  · rename_i q hq
    split at h
    · rename_i hd
      rw [num?_is hq, ← Option.some.inj h, Rat.coe_int_num_of_den_eq_one hd]
    · cases h
  · cases h

omit lib in
theorem dict?_is {v : PVal} {s : PDict} (h : v.dict? = some s) : v = .dict s := by
  unfold PVal.dict? at h
  split at h
  · rw [Option.some.inj h]
  · cases h

omit lib in
theorem goal?_is {v : PVal} {g : Option ℚ} (h : v.goal? = some g) : v = .null ∧ g = none ∨ ∃ q, v = .num q ∧ g = some q := by
  unfold PVal.goal? at h
  split at h
  · exact .inl ⟨rfl, (Option.some.inj h).symm⟩
  · obtain ⟨q, hq, hg⟩ := Option.map_eq_some_iff.1 h
    exact .inr ⟨q, num?_is hq, hg.symm⟩

theorem run_use {d : PDict} {c : Created} {s : SearchSettings} {cfg : AlgCfg ℚ ℚ} (h : (createOptimizer lib d).1 = .ok c)
    (hs : c.alg = .search s) (hc : s.cfg = some cfg) : RunUses lib d cfg := by
  have hu := (create_use lib h).alg
  rw [hs] at hu
  have hu := hu.2
  unfold SearchSettings.cfg at hc
  obtain ⟨_, h1, hc⟩ := Option.bind_eq_some_iff.1 hc
  obtain ⟨_, h2, hc⟩ := Option.bind_eq_some_iff.1 hc
  obtain ⟨_, h3, hc⟩ := Option.bind_eq_some_iff.1 hc
  obtain ⟨_, h4, hc⟩ := Option.bind_eq_some_iff.1 hc
  obtain ⟨_, h5, hc⟩ := Option.bind_eq_some_iff.1 hc
  obtain ⟨_, h6, hc⟩ := Option.bind_eq_some_iff.1 hc
  obtain ⟨_, h7, hc⟩ := Option.bind_eq_some_iff.1 hc
  obtain ⟨_, h8, hc⟩ := Option.bind_eq_some_iff.1 hc
  obtain ⟨cb, h9, hc⟩ := Option.bind_eq_some_iff.1 hc
  obtain ⟨_, h10, hc⟩ := Option.bind_eq_some_iff.1 hc
  obtain ⟨_, h11, hc⟩ := Option.bind_eq_some_iff.1 hc
  obtain ⟨_, g10, h10⟩ := Option.bind_eq_some_iff.1 h10
  obtain ⟨_, g11, h11⟩ := Option.bind_eq_some_iff.1 h11
  cases hc
  have hcore : UsesCore lib d s.core := by
    rcases hu with ⟨_, hu⟩ | ⟨_, hu⟩ <;> exact hu.core
  obtain ⟨b, hm⟩ : ∃ b, UsesMethod lib b d s.method s.stop := by
    rcases hu with ⟨_, hu⟩ | ⟨_, hu⟩ <;> exact ⟨_, hu.method⟩
  have hmin : s.minutes = setting d ["algorithm_settings", "compensate_drift", "compensate_after_minutes"] (.num 0) := by
    rcases hu with ⟨_, hu⟩ | ⟨_, hu⟩ <;> exact hu.minutes
  have havg : s.average = setting d ["algorithm_settings", "compensate_drift", "num_average"] (.num 1) := by
    rcases hu with ⟨_, hu⟩ | ⟨_, hu⟩ <;> exact hu.average
  refine ⟨?_, hcore.budget, ?_, hcore.direction, ?_, ?_, ?_, ?_, ?_, ?_, ?_, ?_, ?_, ?_, ?_, ?_, by norm_num⟩
  · rcases hu with ⟨h, _⟩ | ⟨h, _⟩
    · exact .inl h
    · exact .inr h
  · rw [← hcore.timeLimit]; exact num?_is h1
  · rw [← hcore.goal]
    rcases goal?_is h2 with ⟨hg, rfl⟩ | ⟨q, hg, rfl⟩ <;> simp [hg]
  · rw [← hcore.goal]
    intro q
    rcases goal?_is h2 with ⟨hg, rfl⟩ | ⟨q, hg, rfl⟩ <;> simp [hg]
  · rw [← hm.maxEval]; exact int?_is h5
  · rw [← hm.timeLim]; exact num?_is h6
  · rw [← hm.xatol]; exact num?_is h7
  · rw [← hm.fatol]; exact num?_is h8
  · refine ⟨cb, ?_, ?_, ?_⟩
    · rw [← hm.changeBased]; exact dict?_is h9
    · rw [← int?_is h10]; exact g10
    · rw [← num?_is h11]; exact g11
  · rw [← hmin]; exact num?_is h3
  · exact ⟨_, by rw [← havg]; exact int?_is h4, rfl⟩
  · rcases hu with ⟨hk, hu⟩ | ⟨hk, hu⟩
    · show s.afterSI = true ↔ s.kind = .dcrab ∧ _
      rw [hu.afterSI]
      have hnum := num?_is h3
      constructor
      · rintro (h | ⟨q, hq, h⟩)
        · exact ⟨hk, .inl h⟩
        · rw [hnum] at hq
          exact ⟨hk, .inr (by rw [hq.num] at h; exact h)⟩
      · rintro ⟨_, h | h⟩
        · exact .inl h
        · exact .inr ⟨_, .inl hnum, h⟩
    · show s.afterSI = true ↔ s.kind = .dcrab ∧ _
      rw [hk]
      rw [hu.afterSI]
      simp
  · intro hk
    have hk : s.kind = .dcrab := hk
    rcases hu with ⟨_, hu⟩ | ⟨hk', _⟩
    · obtain ⟨v, hv, hz⟩ := hu.superIterations
      exact ⟨v, s.maxSI, hv, hz, rfl⟩
    · rw [hk] at hk'
      cases hk'
  · rcases hu with ⟨_, hu⟩ | ⟨_, hu⟩ <;> exact hu.reEval

end
end QuOCS

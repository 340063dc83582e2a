/-
Property C96: what the dictionary asks for is what happens, from the dictionary to the results.
-/
import Verif.Spec.Program
import Verif.Props.EndToEnd
import Verif.Props.BestLibrary
import Verif.Props.Usable
import Verif.Props.Records
import Verif.Lemmas.Continue
import Verif.Lemmas.ZeroUpdate
import Verif.Props.CMAES

set_option linter.unusedSectionVars false
set_option linter.unusedVariables false

namespace QuOCS

variable {w : Surroundings} {d : PDict} {r : Outcome}

/-! ### The parts of an optimization -/

/-- the search variables of a created optimizer -/
abbrev SearchSettings.vars (s : SearchSettings) : ℕ := searchDim s.controls.pulses s.controls.params

/-- the run of a created optimizer -/
abbrev theRun (w : Surroundings) (s : SearchSettings) (cfg : AlgCfg ℚ ℚ) (dsm : Dsm ℚ (Vec ℚ s.vars) ℚ) (o : Controls ℚ) :=
  execute cfg (w.env s.vars) (systemOps cfg.kind w.lib.M w.sqrt w.rnd w.draws) dsm o

/-- the parts of an optimization -/
structure Parts (w : Surroundings) (d : PDict) (r : Outcome) (s : SearchSettings) (cfg : AlgCfg ℚ ℚ)
    (dsm : Dsm ℚ (Vec ℚ s.vars) ℚ) (o : Controls ℚ) : Prop where
  created : ∃ c, (createOptimizer w.lib d).1 = .ok c ∧ c.alg = .search s
  hcfg : s.cfg = some cfg
  hcontrols : mkControls w.lib.M s.controls.pulses s.controls.times s.controls.params = .ok o
  hdsm : s.dsm w cfg s.vars = some dsm
  calls : r.calls = (theRun w s cfg dsm o).2.log.map fun k => (k.ctl, k.ans)
  ended : r.ended = (theRun w s cfg dsm o).1
  fom : r.fom = finalFoM cfg (theRun w s cfg dsm o).2
  best : r.best = bestControls (systemOps cfg.kind w.lib.M w.sqrt w.rnd (w.draws (n := s.vars))) (theRun w s cfg dsm o).2
  foms : r.foms = (theRun w s cfg dsm o).2.fomList
  numbers : r.numbers = (theRun w s cfg dsm o).2.iterList
  told : r.told = (theRun w s cfg dsm o).2.signals
  saved : ∃ c, (createOptimizer w.lib d).1 = .ok c ∧ c.alg = .search s ∧
    ∀ n, r.saved n = resultsFile cfg.kind c.dumpFormat s.core ((theRun w s cfg dsm o).2.dumps.filter fun k => k.calls ≤ n)

theorem optimize_parts (h : optimize w d = some (.ok r)) : ∃ s cfg dsm o, Parts w d r s cfg dsm o := by
  unfold optimize at h
  rcases hc : (createOptimizer w.lib d).1 with e | c
  · rw [hc] at h; cases h
  rw [hc] at h
  dsimp only at h
  rcases ha : c.alg with s | s | s
  · rw [ha] at h
    dsimp only at h
    rcases hm : mkControls w.lib.M s.controls.pulses s.controls.times s.controls.params with e | o
    · rw [hm] at h
      rcases hs : s.cfg with _ | cfg <;> rw [hs] at h <;> cases h
    · rcases hs : s.cfg with _ | cfg
      · rw [hs, hm] at h; cases h
      · rw [hs, hm] at h
        dsimp only at h
        rcases hd : s.dsm w cfg s.controls.dim with _ | dsm
        · rw [hd] at h; cases h
        · rw [hd] at h
          simp only [Option.map_some, Option.some.injEq, Except.ok.injEq] at h
          subst h
          exact ⟨s, cfg, dsm, o, ⟨c, hc, ha⟩, hs, hm, hd, rfl, rfl, rfl, rfl, rfl, rfl, rfl, c, hc, ha, fun _ => rfl⟩
  · rw [ha] at h; cases h
  · rw [ha] at h; cases h

section
variable {s : SearchSettings} {cfg : AlgCfg ℚ ℚ} {dsm : Dsm ℚ (Vec ℚ s.vars) ℚ} {o : Controls ℚ}

theorem seen_value {n : ℕ} (k : Call (Vec ℚ n) (ControlsOut ℚ) ℚ) : Seen.value (k.ctl, k.ans) = k.value := by
  unfold Seen.value Call.value
  rcases k.ans with _ | _ <;> rfl

theorem PVal_num_inj {a b : ℚ} (h : PVal.num a = PVal.num b) : a = b := by
  injection h with h
  injection h

theorem Parts.uses (h : Parts w d r s cfg dsm o) : RunUses w.lib d cfg := by
  obtain ⟨c, h1, h2⟩ := h.created
  exact C77_run_settings w.lib h1 h2 h.hcfg

theorem Parts.search (h : Parts w d r s cfg dsm o) :
    s.kind = .dcrab ∧ UsesDcrab w.lib d s ∨ s.kind = .directSearch ∧ UsesDirectSearch w.lib d s := by
  obtain ⟨c, h1, h2⟩ := h.created
  have := (create_use w.lib h1).alg
  rw [h2] at this
  exact this.2

theorem Parts.kind (h : Parts w d r s cfg dsm o) : cfg.kind = s.kind ∧ cfg.fomMax = 10 ^ 10 := by
  have h := h.hcfg
  unfold SearchSettings.cfg at h
  simp only [bind, Option.bind_eq_some_iff, pure, Option.some.injEq] at h
  obtain ⟨_, _, _, _, _, _, _, _, _, _, _, _, _, _, _, _, _, _, _, _, _, _, h⟩ := h
  rw [← h]
  exact ⟨rfl, rfl⟩

theorem Parts.usesControls (h : Parts w d r s cfg dsm o) : UsesControls w.lib d s.controls := by
  rcases h.search with ⟨_, h⟩ | ⟨_, h⟩ <;> exact h.controls

theorem Parts.maximize (h : Parts w d r s cfg dsm o) : cfg.maximize = true ↔ Maximizes d := by
  have := h.uses.direction
  unfold Maximizes
  rw [this]
  cases cfg.maximize
  · simp
  · simp

theorem Parts.better (h : Parts w d r s cfg dsm o) (x y : ℚ) : Better cfg.maximize x y ↔ BetterFor d x y := by
  unfold Better BetterFor
  rw [← h.maximize]
  cases cfg.maximize <;> simp

/-- without the entries for re-evaluation and drift compensation there is none -/
theorem Parts.single (h : Parts w d r s cfg dsm o) (hs : SingleMeasurements d) :
    cfg.reEval = none ∧ cfg.driftAfterSI = false ∧ cfg.driftMinutes = 0 := by
  have hn : ∀ k, entry d ["algorithm_settings", "compensate_drift", k] = none := by
    intro k
    have := hs.drift
    simp only [entry] at this ⊢
    rcases ha : d.get? "algorithm_settings" with _ | a
    · rfl
    · rw [ha] at this
      cases a <;> simp_all
  have hm : cfg.driftMinutes = 0 := by
    have := h.uses.minutes
    unfold setting at this
    rw [hn] at this
    exact (PVal_num_inj this).symm
  refine ⟨?_, ?_, hm⟩
  · rcases h.uses.reEval with ⟨_, h⟩ | ⟨_, h, _⟩
    · exact h
    · rw [hs.reEval] at h; cases h
  · rw [← Bool.not_eq_true, h.uses.afterSI]
    rintro ⟨_, h1 | h1⟩
    · refine h1 ?_
      unfold setting
      rw [hn]
      exact .inr (.inl rfl)
    · rw [hm] at h1; exact lt_irrefl _ h1

/-- the search method is one of the library -/
theorem Parts.library (h : Parts w d r s cfg dsm o) (hm : cfg.driftMinutes ≤ 0) : LibrarySearch dsm := by
  have hd := h.hdsm
  unfold SearchSettings.dsm at hd
  split at hd
  · cases hd; exact .inl ⟨_, _, hm, rfl⟩
  · obtain ⟨p, _, hp⟩ := Option.map_eq_some_iff.1 hd
    subst hp
    exact .inr ⟨_, _, _, rfl⟩
  · cases hd

theorem Parts.mem (h : Parts w d r s cfg dsm o) {c : Seen} (hc : c ∈ r.calls) :
    ∃ k ∈ (theRun w s cfg dsm o).2.log, c = (k.ctl, k.ans) ∧ k.value = c.value := by
  rw [h.calls] at hc
  obtain ⟨k, hk, rfl⟩ := List.mem_map.1 hc
  exact ⟨k, hk, rfl, (seen_value k).symm⟩

end

/-! ### The property -/

/-- **C96.** The calls of an optimization are calls of the user's function: each recorded answer is what the function does with these
controls after the earlier calls. -/
theorem C96_calls (h : optimize w d = some (.ok r)) (before after : List Seen) (c : Seen) (hc : r.calls = before ++ c :: after) :
    c.2 = w.user before c.1 := by
  obtain ⟨s, cfg, dsm, o, h⟩ := optimize_parts h
  rw [h.calls] at hc
  obtain ⟨l1, l2, hl, hb, ha⟩ := List.map_eq_append_iff.1 hc
  obtain ⟨k, l3, rfl, rfl, rfl⟩ := List.map_eq_cons_iff.1 ha
  have := execute_answered dsm o l1 k l3 hl
  rw [← hb]
  exact this

/-- **C96.** With the entry `max_eval_total = n` the user's function is called at most `n` times. -/
theorem C96_budget (h : optimize w d = some (.ok r)) {n : ℤ}
    (hn : entry d ["algorithm_settings", "max_eval_total"] = some (.num n)) : (r.calls.length : ℤ) ≤ max 0 n := by
  obtain ⟨s, cfg, dsm, o, h⟩ := optimize_parts h
  obtain ⟨c, h1, h2⟩ := h.created
  rw [h.calls, List.length_map]
  exact C77_configured_budget w.lib h1 h2 h.hcfg hn _ _ _ _

/-- **C96.** With the entry `FoM_goal = g`, and without re-evaluation and drift compensation: a call that returns a figure of merit at
least as good as `g` (for the direction in the dictionary) is the last one. -/
theorem C96_goal (h : optimize w d = some (.ok r)) (hs : SingleMeasurements d) {g : ℚ}
    (hg : entry d ["algorithm_settings", "FoM_goal"] = some (.num g)) (before after : List Seen) (c : Seen) (f : ℚ)
    (hc : r.calls = before ++ c :: after) (hf : c.value = some f) (hgood : ¬ BetterFor d g f) : after = [] := by
  obtain ⟨s, cfg, dsm, o, h⟩ := optimize_parts h
  obtain ⟨h1, h2, h3⟩ := h.single hs
  rw [h.calls] at hc
  obtain ⟨l1, l2, hl, hb, ha⟩ := List.map_eq_append_iff.1 hc
  obtain ⟨k, l3, rfl, rfl, rfl⟩ := List.map_eq_cons_iff.1 ha
  have hgoal : cfg.userGoal = some g := (h.uses.goal g).1 (by unfold setting; rw [hg]; rfl)
  have := C03_goal_stops cfg (w.env s.vars) (systemOps cfg.kind w.lib.M w.sqrt w.rnd w.draws) (.inr h1)
    (fun h => h) dsm ((h.library h3.le).noDrift h2) o g hgoal l1 l3 k f hl ((seen_value k).symm.trans hf) ?_
  · rw [this]; rfl
  · rw [← h.better] at hgood
    unfold Better at hgood
    unfold AtLeastAsGood
    split at hgood <;> rename_i hm
    · rw [if_pos hm]; exact not_lt.1 hgood
    · rw [if_neg hm]; exact not_lt.1 hgood

/-- **C96.** Without re-evaluation and drift compensation: no call returned a figure of merit that is better, for the direction in the
dictionary, than the reported one, and the reported one was returned by a call or is the start value. -/
theorem C96_best (h : optimize w d = some (.ok r)) (hs : SingleMeasurements d) :
    (∀ c ∈ r.calls, ∀ f, c.value = some f → ¬ BetterFor d f r.fom) ∧
    ((∃ c ∈ r.calls, c.value = some r.fom) ∨ (Maximizes d ∧ r.fom = -10 ^ 10) ∨ (¬ Maximizes d ∧ r.fom = 10 ^ 10)) := by
  obtain ⟨s, cfg, dsm, o, h⟩ := optimize_parts h
  obtain ⟨h1, h2, h3⟩ := h.single hs
  obtain ⟨e1, e2⟩ := C04_best_is_optimum_library_partial (h.library h3.le) cfg (w.env s.vars)
    (systemOps cfg.kind w.lib.M w.sqrt w.rnd w.draws) (.inr h1) h2 (fun h => h) o
  refine ⟨fun c hc f hf => ?_, ?_⟩
  · obtain ⟨k, hk, rfl, hv⟩ := h.mem hc
    rw [← h.better, h.fom]
    exact e1 k hk f (hv.trans hf)
  · rcases e2 with e2 | ⟨k, hk, hv⟩
    · right
      rw [← h.maximize, h.fom, e2, h.kind.2]
      unfold dirMul
      cases cfg.maximize <;> simp
    · refine .inl ⟨(k.ctl, k.ans), ?_, ?_⟩
      · rw [h.calls]; exact List.mem_map.2 ⟨k, hk, rfl⟩
      · rw [h.fom]; exact (seen_value k).trans hv


/-! ### The controls of the dictionary are usable -/

theorem entry_nested {p s : PDict} {k k' : String} (h : entry p [k] = some (.dict s)) : entry p [k, k'] = entry s [k'] := by
  simp only [entry] at h ⊢
  rw [h]

theorem setting_nested {p s : PDict} {k k' : String} {v : PVal} (h : entry p [k] = some (.dict s)) :
    setting p [k, k'] v = setting s [k'] v := by
  unfold setting
  rw [entry_nested h]

theorem count_unique {v : PVal} {m n : ℕ} (h1 : IsCount v m) (h2 : v = .num n) : m = n := by
  unfold IsCount at h1
  rw [h1] at h2
  exact Nat.cast_injective (R := ℚ) (PVal_num_inj h2)

theorem noEntry_guess {lib : PyLib} {A : Type} {dflt : A → Prop} {arr : List ℚ → A} {ev : String → Py A}
    {file : PVal → PVal → PVal → Py A} {v : Option PVal} {f : A} (h : UsesFn lib dflt arr ev file v f) (hv : NoEntry v) : dflt f := by
  rcases h with ⟨_, h⟩ | ⟨s, t, h, _⟩
  · exact h
  · rcases hv with hv | hv <;> rw [hv] at h <;> cases h

theorem items_unique {lib : PyLib} {l : PList} {a b : List ℚ} (h1 : ItemsAre lib l a) (h2 : ItemsAre lib l b) : a = b := by
  induction h1 generalizing b with
  | nil => cases h2; rfl
  | num v l q qs hv h ih =>
    cases h2 with
    | num _ _ q' qs' hv' h' => rw [ih h', hv.unique hv']
    | str s _ q' qs' hs h' => exact (by rcases hv with hv | hv | hv <;> simp at hv)
  | str s l q qs hs h ih =>
    cases h2 with
    | num _ _ q' qs' hv' h' => exact (by rcases hv' with hv | hv | hv <;> simp at hv)
    | str _ _ q' qs' hs' h' => rw [ih h']; rw [hs] at hs'; cases hs'; rfl

theorem array_unique {lib : PyLib} {v : PVal} {a b : List ℚ} (h1 : IsArray lib v a) (h2 : IsArray lib v b ∨ ∃ q, v = .num q ∧ b = [q]) :
    a = b := by
  obtain ⟨l, hl, h1⟩ := h1
  rcases h2 with ⟨l', hl', h2⟩ | ⟨q, hq, _⟩
  · rcases hl with rfl | rfl
    · rcases hl' with e | e
      · injection e with e; subst e; exact items_unique h1 h2
      · cases e
    · rcases hl' with e | e
      · cases e
      · injection e with e; injection e with e; subst e; exact items_unique h1 h2
  · rcases hl with rfl | rfl <;> cases hq

/-- the settings of a function are the samples that the entry describes -/
theorem samples_used {lib : PyLib} {A : Type} {call : (List ℚ → List ℚ) → A} {dflt : ℚ} {arr : List ℚ → A} {ev : String → Py A}
    {file : PVal → PVal → PVal → Py A} {v : Option PVal} {a : A} {b : ℕ} {f : List ℚ → List ℚ}
    (h : UsesFn lib (fun g => ∃ f, g = call f ∧ ∀ t, f t = t.map fun _ => dflt) arr ev file v a)
    (hv : Samples lib (fun src f => ev src = .ok (call f)) dflt v b f) :
    (a = call f ∨ ∃ qs, a = arr qs ∧ qs.length = b ∧ f = fun _ => qs) ∧ ∀ t : List ℚ, t.length = b → (f t).length = b := by
  rcases hv with ⟨hv, rfl⟩ | ⟨s, hs, ⟨ht, v', qs, hl, hq, hb, rfl⟩ | ⟨ht, src, hl, he, hb⟩⟩
  · obtain ⟨g, hg, hz⟩ := noEntry_guess h hv
    obtain rfl : g = _ := funext hz
    exact ⟨.inl hg, fun t ht => by rw [List.length_map]; exact ht⟩
  · refine ⟨.inr ⟨qs, ?_, hb, rfl⟩, fun _ _ => hb⟩
    rcases h with ⟨h, _⟩ | ⟨s', t, h, ht', h1⟩
    · rcases h with h | h <;> rw [h] at hs <;> cases hs
    · rw [hs] at h
      injection h with h; injection h with h; subst h
      rw [ht] at ht'
      injection ht' with ht'; subst ht'
      rcases h1 with ⟨h1, _⟩ | ⟨_, v'', qs', hl', hq', rfl⟩ | ⟨h1, _⟩ | ⟨h1, _⟩
      · simp at h1
      · rw [hl] at hl'
        injection hl' with hl'; subst hl'
        rw [array_unique hq hq']
      · simp at h1
      · simp at h1
  · refine ⟨.inl ?_, hb⟩
    rcases h with ⟨h, _⟩ | ⟨s', t, h, ht', h1⟩
    · rcases h with h | h <;> rw [h] at hs <;> cases hs
    · rw [hs] at h
      injection h with h; injection h with h; subst h
      rw [ht] at ht'
      injection ht' with ht'; subst ht'
      rcases h1 with ⟨_, src', hl', he'⟩ | ⟨h1, _⟩ | ⟨h1, _⟩ | ⟨h1, _⟩
      · rw [hl] at hl'
        injection hl' with hl'; injection hl' with hl'; injection hl' with hl'; subst hl'
        rw [he] at he'
        injection he' with he'
        exact he'.symm
      · simp at h1
      · simp at h1
      · simp at h1

/-- the basis has as many vectors as the dictionary says -/
theorem basis_vectors {lib : PyLib} {s : PDict} {x : Basis ℚ} (h : UsesBasis lib s x) {n b : ℕ}
    (hn : setting s ["basis_vector_number"] (.num 1) = .num n) (h1 : 1 ≤ n) (hb : 1 ≤ b) :
    1 ≤ basisParams b x ∧ x.Usable b ∧ basisSuper x ≤ n := by
  cases x with
  | piecewise => exact ⟨hb, trivial, Nat.zero_le _⟩
  | custom a b c => exact h.elim
  | fourier m => obtain rfl := count_unique h.2 hn; exact ⟨by simp only [basisParams]; omega, trivial, le_refl _⟩
  | chebyshev m => obtain rfl := count_unique h.2 hn; exact ⟨by simp only [basisParams]; omega, trivial, le_refl _⟩
  | walsh m => obtain rfl := count_unique h.2 hn; exact ⟨by simp only [basisParams]; omega, trivial, le_refl _⟩
  | sinc m a => obtain rfl := count_unique h.2.1 hn; exact ⟨by simp only [basisParams]; omega, trivial, le_refl _⟩
  | sigmoid m a b => obtain rfl := count_unique h.2.1 hn; exact ⟨by simp only [basisParams]; omega, trivial, le_refl _⟩
  | sigmoidTimeDep m a b c => obtain rfl := count_unique h.2.1 hn; exact ⟨by simp only [basisParams]; omega, h1, le_refl _⟩
  | sigmoidSigmas m a b c => obtain rfl := count_unique h.2.1 hn; exact ⟨by simp only [basisParams]; omega, trivial, le_refl _⟩
  | sigmoidAllParas m a b c e => obtain rfl := count_unique h.2.1 hn; exact ⟨by simp only [basisParams]; omega, h1, le_refl _⟩

theorem forall2_back {α β : Type} {R : α → β → Prop} {l : List α} {m : List β} (h : List.Forall₂ R l m) {i : ℕ} {b : β}
    (hb : m[i]? = some b) : ∃ a, l[i]? = some a ∧ R a b := by
  obtain ⟨a, ha, hR⟩ := forall2_at h.flip hb
  exact ⟨a, ha, hR⟩

theorem forall2_mem {α β : Type} {R : α → β → Prop} {l : List α} {m : List β} (h : List.Forall₂ R l m) {b : β}
    (hb : b ∈ m) : ∃ a ∈ l, R a b := by
  obtain ⟨i, hi⟩ := List.mem_iff_getElem?.1 hb
  obtain ⟨a, ha, hR⟩ := forall2_back h hi
  exact ⟨a, List.mem_of_getElem? ha, hR⟩

theorem usable_pulse {lib : PyLib} {td : List (TimeDict ℚ)} {p : PDict} {x : PulseDict ℚ} (ht : List.Forall₂ UsesTime (itemsAt d "times") td)
    (h : UsesPulse lib p x) (hp : PlainPulse lib d p) : UsablePulse td x := by
  obtain ⟨b, hb1, hb, ⟨g, hg⟩, ⟨sc, hsc⟩⟩ := hp.bins
  obtain ⟨n, hn1, hn⟩ := hp.vectors
  obtain ⟨s, hs, hB⟩ := h.basis
  rw [setting_nested hs] at hn
  obtain rfl := count_unique h.bins hb
  obtain ⟨h1, h2, h3⟩ := basis_vectors hB hn hn1 hb1
  refine ⟨hb1, h1, h2, ?_, ?_, ?_⟩
  · obtain ⟨e | ⟨qs, e, hq, _⟩, hl⟩ := samples_used h.guess hg
    · rw [e]; exact fun t ht => .inl (hl t ht)
    · rw [e]; exact .inl hq
  · obtain ⟨e | ⟨qs, e, hq, _⟩, hl⟩ := samples_used h.scaling hsc
    · rw [e]; exact fun t ht => .inl (hl t ht)
    · rw [e]; exact .inl hq
  · obtain ⟨t, htm, hte⟩ := hp.time
    obtain ⟨i, hi⟩ := List.mem_iff_getElem?.1 htm
    obtain ⟨y, hy, hU⟩ := forall2_at ht hi
    refine ⟨y, List.mem_of_getElem? hy, ?_⟩
    have := hU.name
    rw [hte, h.time] at this
    injection this with this
    injection this with this
    injection this with this
    exact this.symm

theorem usable_controls {lib : PyLib} {c : ControlDicts} (h : UsesControls lib d c) (hp : PlainControls lib d) :
    Usable c.pulses c.times c.params ∧ FixedTimes c.times := by
  have hf : FixedTimes c.times := by
    intro t ht
    obtain ⟨p, hpm, hU⟩ := forall2_mem h.times ht
    exact hU.optimized.2 (hp.times p hpm)
  refine ⟨⟨?_, fun x hx => ?_, fun t ht h1 => ?_⟩, hf⟩
  · rcases hp.something with h1 | h1
    · exact .inl fun h2 => h1 (by have := h.pulses; rw [h2] at this; exact List.forall₂_nil_right_iff.1 this)
    · exact .inr fun h2 => h1 (by have := h.params; rw [h2] at this; exact List.forall₂_nil_right_iff.1 this)
  · obtain ⟨p, hpm, hU⟩ := forall2_mem h.pulses hx
    exact usable_pulse h.times hU (hp.pulses p hpm)
  · rw [hf t ht] at h1; cases h1

theorem enough_random {c : ControlDicts} (h : UsesControls w.lib d c) (hp : PlainControls w.lib d) (hd : w.Draws d) (k : ℕ) :
    EnoughRandom c.pulses (w.rnd k) := by
  intro i x hx
  obtain ⟨p, hpi, hU⟩ := forall2_back h.pulses hx
  have hP := hp.pulses p (List.mem_of_getElem? hpi)
  obtain ⟨n, hn1, hn⟩ := hP.vectors
  obtain ⟨b, hb1, hb, _⟩ := hP.bins
  obtain ⟨s, hs, hB⟩ := hU.basis
  have := hd k i p n hpi hn
  rw [setting_nested hs] at hn
  exact (basis_vectors hB hn hn1 hb1).2.2.trans this

theorem Parts.dcrab {s : SearchSettings} {cfg : AlgCfg ℚ ℚ} {dsm : Dsm ℚ (Vec ℚ s.vars) ℚ} {o : Controls ℚ}
    (h : Parts w d r s cfg dsm o) (hd : IsDcrab d) : cfg.kind = .dcrab := by
  obtain ⟨c, h1, h2⟩ := h.created
  have := (create_use w.lib h1).algorithm
  rw [hd.2, h2] at this
  rw [h.kind.1]
  rcases h.search with ⟨hk, _⟩ | ⟨hk, _⟩
  · exact hk
  · exfalso
    rcases hd.1 with e | e <;> rw [e] at this <;>
    · simp only [chosen, Spec.resolve, Spec.target, Spec.builtin, text, AlgSettings.className, hk] at this
      simp at this

/-- the population of CMA-ES is at least two -/
theorem Parts.population {s : SearchSettings} {cfg : AlgCfg ℚ ℚ} {dsm : Dsm ℚ (Vec ℚ s.vars) ℚ} {o : Controls ℚ}
    (h : Parts w d r s cfg dsm o) (hu : Usable s.controls.pulses s.controls.times s.controls.params) (hm : UsablePopulation d)
    (hl : w.Log) (hcm : s.method.method = .cmaes) {p : Option ℚ} (hpp : s.method.population.goal? = some p) :
    ∃ l, cmaPopulation w.num.log (searchDim s.controls.pulses s.controls.params) p = .ok l ∧ 2 ≤ l := by
  have hpop : s.method.population = setting d ["algorithm_settings", "dsm_settings", "general_settings", "population"] .null := by
    rcases h.search with ⟨_, h⟩ | ⟨_, h⟩ <;> exact h.method.population hcm
  have hdim : searchDim s.controls.pulses s.controls.params ≠ 0 := hu.dim_pos.ne'
  unfold cmaPopulation
  rw [if_neg hdim]
  cases p with
  | none =>
    refine ⟨_, rfl, ?_⟩
    have := hl _ (Nat.one_le_iff_ne_zero.2 hdim)
    have : 0 ≤ ⌊3 * w.num.log (searchDim s.controls.pulses s.controls.params : ℚ)⌋ := Int.floor_nonneg.2 (by linarith)
    omega
  | some q =>
    refine ⟨_, rfl, ?_⟩
    rw [hpop] at hpp
    unfold setting at hpp
    have : entry d ["algorithm_settings", "dsm_settings", "general_settings", "population"] = some (.num q) := by
      rcases he : entry d ["algorithm_settings", "dsm_settings", "general_settings", "population"] with _ | v
      · rw [he] at hpp; cases hpp
      · rw [he] at hpp
        simp only [Option.getD_some] at hpp
        unfold PVal.goal? at hpp
        split at hpp
        · cases hpp
        · obtain ⟨x, hx, e⟩ := Option.map_eq_some_iff.1 hpp
          cases e
          unfold PVal.num? at hx
          split at hx <;> cases hx
          rfl
    exact Int.le_floor.2 (by exact_mod_cast hm q this)

/-- **C96.** A dictionary with plain controls, without re-evaluation and drift compensation, with a usable population, and with dCRAB
or without pulses: if the user's function always returns a figure of merit, the run completes. -/
theorem C96_completes (h : optimize w d = some (.ok r)) (hp : PlainControls w.lib d) (hs : SingleMeasurements d) (hm : UsablePopulation d)
    (hb : BuildsControls d) (ha : w.Answers) (hr : w.Draws d) (hl : w.Log) : r.ended = .ok () := by
  obtain ⟨s, cfg, dsm, o, h⟩ := optimize_parts h
  obtain ⟨h1, h2, h3⟩ := h.single hs
  obtain ⟨hu, hf⟩ := usable_controls h.usesControls hp
  have hR := fun k => enough_random h.usesControls hp hr k
  have hA : AlwaysAnswers (w.env s.vars) := fun l c => ha _ c
  have hg : cfg.kind ≠ .grape := by rcases h.uses.algorithm with e | e <;> rw [e] <;> simp
  have hk : cfg.kind = .directSearch → s.controls.pulses = [] := by
    intro hk
    rcases hb with hb | hb
    · rw [h.dcrab hb] at hk; cases hk
    · have := h.usesControls.pulses
      rw [hb] at this
      exact List.forall₂_nil_left_iff.1 this
  rw [h.ended]
  have hd := h.hdsm
  unfold SearchSettings.dsm at hd
  split at hd
  · cases hd
    exact C84_completes_nelder_mead_partial hu hg hk hR h1 (by simp [h2]) _ h3.le _ (le_refl _) hA h.hcontrols
  · rename_i hcm
    obtain ⟨p, hpp, hd⟩ := Option.map_eq_some_iff.1 hd
    subst hd
    obtain ⟨l, hl1, hl2⟩ := h.population hu hm hl hcm hpp
    exact C84_completes_cmaes_partial hu hg hk hR h1 (by simp [h2]) w.num p hl1 hl2 _ (le_refl _) hA h.hcontrols
  · cases hd

/-! ### Limits and best controls -/

theorem fits_of_admissible {lib : PyLib} {x : ControlDicts} (hctl : UsesControls lib d x) {c : ControlsOut ℚ}
    (ha : Admissible x.pulses x.times x.params c) : FitTo d c := by
  refine ⟨ha.number.1.trans hctl.pulses.length_eq.symm, ha.number.2.2.trans hctl.params.length_eq.symm, ?_, ?_⟩
  · intro i p u t lo hi hp hu ht hlo hhi hle hsh
    obtain ⟨x, hx, hU⟩ := forall2_at hctl.pulses hp
    have hap := ha.pulses i x u t hx hu ht
    have e1 := hU.lower
    have e2 := hU.upper
    have e3 := hU.shaping
    have e4 := hU.bins
    unfold setting at e1 e2 e4
    rw [hlo] at e1
    rw [hhi] at e2
    rw [hsh] at e3
    have e1 : x.lowerLimit = lo := e1.num
    have e2 : x.upperLimit = hi := e2.num
    subst e1 e2
    have e3 : x.shapingOptions = none := by
      rcases e3 with ⟨_, e3⟩ | ⟨_, e3, _⟩
      · exact e3
      · cases e3
    refine ⟨fun y hy => ?_, fun b hb => ?_⟩
    · have := hap.limits (.inl e3) y hy
      rwa [min_eq_left hle, max_eq_right hle] at this
    · rw [hb] at e4
      rw [hap.grid.1]
      exact (Nat.cast_injective (R := ℚ) e4.num).symm
  · intro j p v lo hi hp hv hlo hhi hle
    obtain ⟨x, hx, hU⟩ := forall2_at hctl.params hp
    have e1 := hU.lower
    have e2 := hU.upper
    unfold setting at e1 e2
    rw [hlo] at e1
    rw [hhi] at e2
    have e1 : x.lower = lo := e1.num
    have e2 : x.upper = hi := e2.num
    subst e1 e2
    exact ha.parameters j x v hx hv hle

theorem system_reach_kept {kind : AlgKind} {M : MathFns ℚ} {sqrt : ℚ → ℚ} {rnd : ℕ → ℕ → List ℚ} {n : ℕ} {draws : ℕ → Vec ℚ n}
    {pd : List (PulseDict ℚ)} {td : List (TimeDict ℚ)} {rd : List (ParamDict ℚ)} :
    KeptByOps (systemOps kind M sqrt rnd draws) (ControlsReach M pd td rd) := by
  refine ⟨fun o x o' c h1 h2 => ?_, fun _ _ _ h1 h2 => .select h1 h2, fun _ _ _ h1 h2 => .base h1 h2⟩
  obtain ⟨r, hr, h2⟩ := py_bind_ok.1 h2
  split at h2
  · cases h2
  · cases h2
    exact .get h1 hr

/-- **C96.** All controls passed to the user's function, and the best controls (also after a failed or interrupted run), fit to the
dictionary. -/
theorem C96_limits (h : optimize w d = some (.ok r)) :
    (∀ c ∈ r.calls, FitTo d c.1) ∧ ∀ b, r.best = .ok b → FitTo d b := by
  obtain ⟨s, cfg, dsm, o, h⟩ := optimize_parts h
  have hb := execute_built (cfg := cfg) (env := w.env s.vars)
    (system_reach_kept (kind := cfg.kind) (M := w.lib.M) (sqrt := w.sqrt) (rnd := w.rnd) (draws := w.draws)) dsm (.create h.hcontrols)
  have hA : ∀ {o1 o2 : Controls ℚ} {x : Vec ℚ s.vars} {c : ControlsOut ℚ},
      ControlsReach w.lib.M s.controls.pulses s.controls.times s.controls.params o1 →
      (systemOps cfg.kind w.lib.M w.sqrt w.rnd (w.draws (n := s.vars))).getControls o1 x = .ok (o2, c) → FitTo d c := by
    intro o1 o2 x c h1 h2
    obtain ⟨r, hr, h2⟩ := py_bind_ok.1 h2
    split at h2
    · cases h2
    · cases h2
      exact fits_of_admissible h.usesControls (delivered_admissible h1 hr)
  refine ⟨fun c hc => ?_, fun b hbest => ?_⟩
  · obtain ⟨k, hk, rfl, _⟩ := h.mem hc
    obtain ⟨o1, o2, h1, h2⟩ := hb.log k hk
    exact hA h1 h2
  · rw [h.best] at hbest
    obtain ⟨x, _, hbest⟩ := py_bind_ok.1 hbest
    obtain ⟨⟨o', c'⟩, hg, hbest⟩ := py_bind_ok.1 hbest
    cases hbest
    exact hA hb.ctl hg

/-- a basis of the library selected by its name -/
theorem strList_inj {a b : List String} (h : strList a = strList b) : a = b := by
  induction a generalizing b with
  | nil =>
    cases b with
    | nil => rfl
    | cons y b => cases h
  | cons x a ih =>
    cases b with
    | nil => cases h
    | cons y b =>
      unfold strList at h
      injection h with h1 h2
      injection h1 with h1
      injection h1 with h1
      rw [h1, ih h2]

theorem standard_shaping {lib : PyLib} {p : PDict} {x : PulseDict ℚ} (h : UsesPulse lib p x) (hp : StandardPulse p) : KeepsBase x := by
  rcases h.shaping with ⟨_, e⟩ | ⟨names, e, e'⟩
  · exact .inl e
  · rcases hp.shaping with e1 | ⟨pre, post, e1, hne⟩
    · rcases e1 with e1 | e1 <;> rw [e1] at e <;> cases e
    · rw [e1] at e
      injection e with e; injection e with e
      rw [← strList_inj e] at e'
      exact .inr ⟨pre, post, e', hne⟩

/-- an optimization with the library's program uses the bases of the library -/
theorem library_basis {lib : PyLib} {p : PDict} {x : PulseDict ℚ} (h : UsesPulse lib p x) : ∀ n m f, x.basis ≠ .custom n m f := by
  obtain ⟨s, _, hB⟩ := h.basis
  intro n m f hx
  unfold UsesBasis at hB
  rw [hx] at hB
  exact hB

theorem Parts.standard {s : SearchSettings} {cfg : AlgCfg ℚ ℚ} {dsm : Dsm ℚ (Vec ℚ s.vars) ℚ} {o : Controls ℚ}
    (h : Parts w d r s cfg dsm o) (hu : Usable s.controls.pulses s.controls.times s.controls.params)
    (hf : FixedTimes s.controls.times) (hst : StandardDictionary d) :
    StandardControls w.lib.M s.controls.pulses s.controls.times s.controls.params := by
  refine ⟨fun x hx => ?_, fun x hx => ?_, fun x hx => ?_, hf, fun x hx => ?_⟩
  · obtain ⟨p, hpm, hU⟩ := forall2_mem h.usesControls.pulses hx
    exact standard_shaping hU (hst.pulses p hpm)
  · obtain ⟨p, hpm, hU⟩ := forall2_mem h.usesControls.pulses hx
    exact hU.overwrite.2 (hst.pulses p hpm).overwrite
  · obtain ⟨p, hpm, hU⟩ := forall2_mem h.usesControls.pulses hx
    exact zeroUpdate_usable (hu.pulses x hx) (library_basis hU)
  · obtain ⟨p, hpm, hU⟩ := forall2_mem h.usesControls.params hx
    exact hst.limits p hpm _ _ hU.lower hU.upper

/-- **C96.** A completed dCRAB optimization with plain and standard controls, without re-evaluation and drift compensation: if the
reported figure of merit is not the start value, a call returned it for exactly the controls that are reported as the best ones. -/
theorem C96_best_controls (h : optimize w d = some (.ok r)) (hk : IsDcrab d) (hp : PlainControls w.lib d) (hst : StandardDictionary d)
    (hs : SingleMeasurements d) (hr : w.Draws d) (he : r.ended = .ok ()) :
    ((Maximizes d ∧ r.fom = -10 ^ 10) ∨ (¬ Maximizes d ∧ r.fom = 10 ^ 10)) ∨
    ∃ c ∈ r.calls, c.value = some r.fom ∧ r.best = .ok c.1 := by
  obtain ⟨s, cfg, dsm, o, h⟩ := optimize_parts h
  obtain ⟨h1, h2, h3⟩ := h.single hs
  obtain ⟨hu, hf⟩ := usable_controls h.usesControls hp
  have hR := fun k => enough_random h.usesControls hp hr k
  have hK := h.dcrab hk
  have hS := h.standard hu hf hst
  have he' := he
  rw [h.ended] at he'
  have hfom := h.fom
  have hbest := h.best
  have hcalls := h.calls
  unfold theRun at he' hfom hbest hcalls
  rw [hK] at he' hfom hbest hcalls
  rcases C37_best_controls_reproduced_library_partial hS hu hR (h.library h3.le) cfg (w.env s.vars) hK h1 h2 o h.hcontrols he' with
    e | ⟨k, hk, hv, hb⟩
  · left
    rw [← h.maximize, hfom, e, h.kind.2]
    unfold dirMul
    cases cfg.maximize <;> simp
  · refine .inr ⟨(k.ctl, k.ans), ?_, ?_, ?_⟩
    · rw [hcalls]; exact List.mem_map.2 ⟨k, hk, rfl⟩
    · rw [hfom]; exact (seen_value k).trans hv
    · rw [hbest]; exact hb


/-! ### A concrete optimization -/

/-- dCRAB with Nelder-Mead, one pulse with three bins and one basis vector, at most five evaluations, goal 20 -/
def exProgram : PDict :=
  exSettings ([("max_eval_total", .num 5), ("FoM_goal", .num 20)] ++ exAlg)
    [exPulse (exBasis "Sinc" []) [("bins_number", .num 3), ("lower_limit", .num (-1))]] [] [exTime]

/-- the figure of merit is the sum of the squares of the samples, plus `a` for every earlier call -/
def exAround (a : ℚ) : Surroundings :=
  { lib := exLib, user := fun h c => .ok ⟨some ((c.pulses.map fun u => (u.map (· ^ 2)).sum).sum + a * h.length), none, none⟩, async := fun _ => .none
    clock := fun n => n, sqrt := id, cdf := id, rnd := fun _ _ => [1 / 2], draws := fun _ _ => 1 / 2, num := exCmaLib }

/-- what is checked in the examples: number of calls, result, values, figure of merit, best controls -/
def shownOf (r : Option (Py Outcome)) : Option (ℕ × Bool × List (Option ℚ) × ℚ × Bool) :=
  match r with
  | some (.ok r) => some (r.calls.length, r.ended.isOk, r.calls.map Seen.value, r.fom, r.best.isOk)
  | _ => none

/-- The whole program in a concrete case: all five evaluations are used, the samples reach their upper limit 2, and the best sum of
squares, 12, is reported. -/
theorem exProgram_uses_budget : shownOf (optimize (exAround 0) exProgram) =
    some (5, true, [some 0, some (75 / 49), some (300 / 49), some 12, some 12], 12, true) := by decide +kernel

/-- The goal is reached at the third call, which is the last one. -/
theorem exProgram_reaches_goal : shownOf (optimize (exAround 10) exProgram) =
    some (3, true, [some 0, some (565 / 49), some (1280 / 49)], 1280 / 49, true) := by decide +kernel

/-- The hypotheses of the theorems above are met by this dictionary and these surroundings. -/
theorem exProgram_plain : PlainControls exLib exProgram ∧ StandardDictionary exProgram ∧ SingleMeasurements exProgram ∧ IsDcrab exProgram ∧
    UsablePopulation exProgram ∧ entry exProgram ["algorithm_settings", "max_eval_total"] = some (.num (5 : ℤ)) ∧
    entry exProgram ["algorithm_settings", "FoM_goal"] = some (.num 20) ∧ Maximizes exProgram := by
  have hp : itemsAt exProgram "pulses" = [mkDict [("pulse_name", .str "p"), ("upper_limit", .num 2), ("time_name", .str "t"),
      ("basis", exBasis "Sinc" []), ("bins_number", .num 3), ("lower_limit", .num (-1))]] := rfl
  have ht : itemsAt exProgram "times" = [mkDict [("time_name", .str "t"), ("initial_value", .num 3)]] := rfl
  have hq : itemsAt exProgram "parameters" = [] := rfl
  refine ⟨⟨.inl (by rw [hp]; simp), fun p h => ?_, fun t h => ?_⟩, ⟨fun p h => ?_, fun p h => ?_⟩, ⟨rfl, rfl⟩, ⟨.inl rfl, rfl⟩, ?_, rfl, rfl, rfl⟩
  · rw [hp, List.mem_singleton] at h
    subst h
    refine ⟨⟨3, by norm_num, rfl, ⟨_, .inl ⟨.inl rfl, rfl⟩⟩, ⟨_, .inl ⟨.inl rfl, rfl⟩⟩⟩, ⟨1, le_refl _, rfl⟩, ?_⟩
    rw [ht]
    exact ⟨_, List.mem_singleton.2 rfl, rfl⟩
  · rw [ht, List.mem_singleton] at h
    subst h
    exact .inr (.inl rfl)
  · rw [hp, List.mem_singleton] at h
    subst h
    exact ⟨.inl (.inl rfl), .inr (.inl rfl)⟩
  · rw [hq] at h; cases h
  · intro q h
    cases h

/-- The hypotheses on the surroundings. -/
theorem exAround_usable (a : ℚ) : (exAround a).Answers ∧ (exAround a).Draws exProgram ∧ (exAround a).Log := by
  refine ⟨fun h c => ⟨_, _, rfl, rfl⟩, fun k i p n hp hn => ?_, fun n hn => ?_⟩
  · rcases i with _ | i
    · have hp' : mkDict [("pulse_name", .str "p"), ("upper_limit", .num 2), ("time_name", .str "t"),
        ("basis", exBasis "Sinc" []), ("bins_number", .num 3), ("lower_limit", .num (-1))] = p := Option.some.inj hp
      subst hp'
      have : ((1 : ℕ) : ℚ) = n := PVal_num_inj (a := ((1 : ℕ) : ℚ)) hn
      have : 1 = n := Nat.cast_injective this
      subst this
      exact le_refl 1
    · have : (none : Option PDict) = some p := hp
      cases this
  · show (0 : ℚ) ≤ n
    exact_mod_cast Nat.zero_le n

end QuOCS

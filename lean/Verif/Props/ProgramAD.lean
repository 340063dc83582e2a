/-
Property C99: what the dictionary asks for is what happens with automatic differentiation, from the dictionary to the results.
-/
import Verif.Lemmas.ProgramAD
import Verif.Lemmas.UsableAD
import Verif.Props.ProgramGrape

set_option linter.unusedSectionVars false
set_option linter.unusedVariables false

namespace QuOCS

variable {w : Surroundings} {L : AdProgramLib} {d : PDict} {r : AdOutcome}

/-! ### Specification -/

/-- All calls of the user's function, in their order. -/
def AdOutcome.all (r : AdOutcome) : List Seen := r.calls.map (·.seen)

/-- The calls that were made for a figure of merit, not for a gradient. -/
def AdOutcome.evaluations (r : AdOutcome) : List Seen := (r.calls.filter fun c => !c.forGradient).map (·.seen)

/-- `c` are the controls `c0` as arrays: the pulses and time grids are rows of the length of the longest one, filled up with zeros. -/
structure FilledUp (c0 c : ControlsOut ℚ) : Prop where
  samples : c0.pulses.map List.length = c0.timegrids.map List.length
  rows : ∃ width, (∀ u ∈ c0.pulses, u.length ≤ width) ∧ (c0.pulses = [] ∨ ∃ u ∈ c0.pulses, u.length = width) ∧
    c.pulses = c0.pulses.map (fun u => u ++ List.replicate (width - u.length) 0) ∧
    c.timegrids = c0.timegrids.map (fun u => u ++ List.replicate (width - u.length) 0)
  parameters : c.parameters = c0.parameters

/-! ### The parts of an optimization with automatic differentiation -/

/-- the controls of the algorithm -/
abbrev aOps (w : Surroundings) (s : GradientSettings) := adOps w.lib.M w.rnd (n := s.vars)

/-- the run of a created optimizer -/
abbrev adRun (w : Surroundings) (L : AdProgramLib) (s : GradientSettings) (cfg : AlgCfg ℚ ℚ) (o : Controls ℚ) :=
  adExecute (s.adLib w L s.vars) cfg (w.env s.vars) (aOps w s) o

/-- the parts of an optimization -/
structure AdParts (w : Surroundings) (L : AdProgramLib) (d : PDict) (r : AdOutcome) (s : GradientSettings) (cfg : AlgCfg ℚ ℚ)
    (o : Controls ℚ) : Prop where
  created : ∃ c, (createOptimizer w.lib d).1 = .ok c ∧ c.alg = .ad s
  hcfg : s.adCfg = some cfg
  hcontrols : mkControls w.lib.M s.controls.pulses s.controls.times s.controls.params = .ok o
  calls : r.calls = (adRun w L s cfg o).2.calls
  ended : r.ended = (adRun w L s cfg o).1
  fom : r.fom = finalFoM cfg (adRun w L s cfg o).2.alg
  best : r.best = bestControls (aOps w s) (adRun w L s cfg o).2.alg
  foms : r.foms = (adRun w L s cfg o).2.alg.fomList
  numbers : r.numbers = (adRun w L s cfg o).2.alg.iterList
  told : r.told = (adRun w L s cfg o).2.alg.signals
  saved : ∃ c, (createOptimizer w.lib d).1 = .ok c ∧ c.alg = .ad s ∧
    ∀ n, r.saved n = resultsFileAD c.dumpFormat s.core ((adRun w L s cfg o).2.alg.dumps.filter fun k => k.iteration ≤ n)

theorem ad_parts (h : optimizeAD w L d = some (.ok r)) : ∃ s cfg o, AdParts w L d r s cfg o := by
  unfold optimizeAD at h
  rcases hc : (createOptimizer w.lib d).1 with e | c
  · rw [hc] at h; cases h
  rw [hc] at h
  dsimp only at h
  rcases ha : c.alg with s | s | s
  · rw [ha] at h; cases h
  · rw [ha] at h; cases h
  · rw [ha] at h
    dsimp only at h
    rcases hm : mkControls w.lib.M s.controls.pulses s.controls.times s.controls.params with e | o
    · rw [hm] at h
      rcases hs : s.adCfg with _ | cfg <;> rw [hs] at h <;> cases h
    · rcases hs : s.adCfg with _ | cfg
      · rw [hs, hm] at h; cases h
      · rw [hs, hm] at h
        simp only [Option.some.injEq, Except.ok.injEq] at h
        subst h
        exact ⟨s, cfg, o, ⟨c, hc, ha⟩, hs, hm, rfl, rfl, rfl, rfl, rfl, rfl, rfl, c, hc, ha, fun _ => rfl⟩

section
variable {s : GradientSettings} {cfg : AlgCfg ℚ ℚ} {o : Controls ℚ}

theorem AdParts.uses (h : AdParts w L d r s cfg o) : UsesGradient w.lib .ad d s := by
  obtain ⟨c, h1, h2⟩ := h.created
  have := (create_use w.lib h1).alg
  rw [h2] at this
  exact this.2

theorem ad_cfg (h : s.adCfg = some cfg) : cfg.kind = .grape ∧ cfg.fomMax = 10 ^ 10 ∧ cfg.maxEvalTotal = s.core.maxEvalTotal ∧
    cfg.maximize = s.core.maximize ∧ s.core.goal.goal? = some cfg.userGoal ∧ cfg.maxSI = s.maxSI.toNat := by
  unfold GradientSettings.adCfg at h
  rw [Option.map_eq_some_iff] at h
  obtain ⟨c, h1, rfl⟩ := h
  obtain ⟨a1, a2, a3, a4, a5, _⟩ := grape_cfg h1
  exact ⟨a1, a2, a3, a4, a5, rfl⟩

theorem AdParts.maximize (h : AdParts w L d r s cfg o) : cfg.maximize = true ↔ Maximizes d := by
  have := h.uses.core.direction
  rw [(ad_cfg h.hcfg).2.2.2.1]
  unfold Maximizes
  rw [this]
  cases s.core.maximize
  · simp
  · simp

theorem AdParts.better (h : AdParts w L d r s cfg o) (x y : ℚ) : Better cfg.maximize x y ↔ BetterFor d x y := by
  unfold Better BetterFor
  rw [← h.maximize]
  cases cfg.maximize <;> simp

theorem AdParts.start (h : AdParts w L d r s cfg o) :
    IsStart d (dirMul cfg.maximize cfg.fomMax) ∧ ∀ v, IsStart d v → v = dirMul cfg.maximize cfg.fomMax := by
  rw [(ad_cfg h.hcfg).2.1]
  unfold dirMul IsStart
  rw [← h.maximize]
  cases cfg.maximize <;> simp

/-- the calls and the marks of the model -/
theorem AdParts.marks (h : AdParts w L d r s cfg o) :
    r.calls = (adRun w L s cfg o).2.marks.map fun k => ⟨k.1, k.2.ctl, k.2.ans⟩ := by
  rw [h.calls]
  unfold AdState.calls AdState.marks
  rw [List.map_map]
  rfl

theorem AdParts.log (h : AdParts w L d r s cfg o) : r.all = (adRun w L s cfg o).2.alg.log.map fun k => (k.ctl, k.ans) := by
  unfold AdOutcome.all
  rw [h.calls]
  unfold AdState.calls
  generalize (adRun w L s cfg o).2.gradAt = g
  rw [List.map_map]
  conv_rhs => rw [← List.zipIdx_map_fst 0 (adRun w L s cfg o).2.alg.log, List.map_map]
  rfl

theorem AdParts.evals (h : AdParts w L d r s cfg o) : r.evaluations =
    (((adRun w L s cfg o).2.marks.filter fun k => !k.1).map fun k => (k.2.ctl, k.2.ans)) := by
  unfold AdOutcome.evaluations
  rw [h.marks, List.filter_map, List.map_map]
  rfl

theorem AdParts.mem (h : AdParts w L d r s cfg o) {c : Seen} :
    c ∈ r.evaluations ↔ ∃ k, (false, k) ∈ (adRun w L s cfg o).2.marks ∧ c = (k.ctl, k.ans) := by
  rw [h.evals]
  simp only [List.mem_map, List.mem_filter]
  constructor
  · rintro ⟨⟨b, k⟩, ⟨h1, h2⟩, rfl⟩
    cases b
    · exact ⟨k, h1, rfl⟩
    · cases h2
  · rintro ⟨k, h1, rfl⟩
    exact ⟨(false, k), ⟨h1, rfl⟩, rfl⟩

theorem AdParts.inv (h : AdParts w L d r s cfg o) : AdInv (adCfg cfg) (w.env s.vars) (adRun w L s cfg o).2 := AdInv.execute o

end

/-! ### The property -/

/-- **C99.** With automatic differentiation, the calls of an optimization are calls of the user's function: each recorded answer, also for
gradients, is what the function does with these controls after the earlier calls. -/
theorem C99_calls (h : optimizeAD w L d = some (.ok r)) (before after : List Seen) (c : Seen) (hc : r.all = before ++ c :: after) :
    c.2 = w.user before c.1 := by
  obtain ⟨s, cfg, o, h⟩ := ad_parts h
  rw [h.log] at hc
  obtain ⟨l1, l2, hl, hb, ha⟩ := List.map_eq_append_iff.1 hc
  obtain ⟨k, l3, rfl, rfl, rfl⟩ := List.map_eq_cons_iff.1 ha
  have := h.inv.answers l1 k l3 hl
  rw [← hb]
  exact this

/-- **C99.** With the entry `max_eval_total = n` (of `algorithm_settings`) the user's function is called at most `n` times for a figure of
merit, whatever L-BFGS-B asks for. Missing: the calls for gradients, which are not counted (`C99_gradients_exceed_budget`). -/
theorem C99_budget_partial (h : optimizeAD w L d = some (.ok r)) {n : ℤ}
    (hn : entry d ["algorithm_settings", "max_eval_total"] = some (.num n)) : (r.evaluations.length : ℤ) ≤ max 0 n := by
  obtain ⟨s, cfg, o, h⟩ := ad_parts h
  rw [h.evals, List.length_map]
  have h1 := h.inv.count
  have h2 := h.inv.budget
  have e : (adCfg cfg).maxEvalTotal = s.core.maxEvalTotal := (ad_cfg h.hcfg).2.2.1
  rw [e] at h2
  have hm := h.uses.core.budget
  unfold setting at hm
  rw [hn] at hm
  rw [hm.int] at h2
  exact le_trans (by exact_mod_cast h1) h2

/-- **C99.** With the entry `FoM_goal = g`: after a call for a figure of merit that returns a value at least as good as `g` (for the
direction in the dictionary) only calls for gradients follow. Missing: that none of these is made (`C99_gradients_after_goal`). -/
theorem C99_goal_partial (h : optimizeAD w L d = some (.ok r)) {g : ℚ}
    (hg : entry d ["algorithm_settings", "FoM_goal"] = some (.num g)) (before after : List AdCall) (c : AdCall) (f : ℚ)
    (hc : r.calls = before ++ c :: after) (hcf : c.forGradient = false) (hf : c.seen.value = some f) (hgood : ¬ BetterFor d g f) :
    ∀ a ∈ after, a.forGradient = true := by
  obtain ⟨s, cfg, o, h⟩ := ad_parts h
  obtain ⟨hk, _, _, _, hgo, _⟩ := ad_cfg h.hcfg
  rw [h.marks] at hc
  obtain ⟨l1, l2, hl, hb, ha⟩ := List.map_eq_append_iff.1 hc
  obtain ⟨⟨b, k⟩, l3, rfl, rfl, rfl⟩ := List.map_eq_cons_iff.1 ha
  cases hcf
  have hgoal : cfg.userGoal = some g := by
    rw [h.uses.core.goal] at hgo
    unfold setting at hgo
    rw [hg] at hgo
    have : (PVal.num g).goal? = some (some g) := rfl
    rw [Option.getD_some, this] at hgo
    exact (Option.some.inj hgo).symm
  have hgoal' : (adCfg cfg).goal = some (dirMul cfg.maximize g) := by
    unfold AlgCfg.goal
    show cfg.userGoal.map _ = _
    rw [hgoal]
    rfl
  intro a hma
  obtain ⟨e, he, rfl⟩ := List.mem_map.1 hma
  refine h.inv.goal _ hgoal' l1 k l3 hl f ((seen_value k).symm.trans hf) ?_ e he
  rw [← h.better] at hgood
  show dirMul cfg.maximize f ≤ dirMul cfg.maximize g
  rw [← not_lt, dirMul_lt]
  exact hgood

/-- **C99.** No call for a figure of merit returned a value that is better, for the direction in the dictionary, than the reported one, and
the reported one was returned by such a call or is the start value. -/
theorem C99_best (h : optimizeAD w L d = some (.ok r)) :
    (∀ c ∈ r.evaluations, ∀ f, c.value = some f → ¬ BetterFor d f r.fom) ∧
    ((∃ c ∈ r.evaluations, c.value = some r.fom) ∨ IsStart d r.fom) := by
  obtain ⟨s, cfg, o, h⟩ := ad_parts h
  refine ⟨fun c hc f hf => ?_, ?_⟩
  · obtain ⟨k, hk, rfl⟩ := h.mem.1 hc
    rw [← h.better, h.fom]
    have := h.inv.le k hk f ((seen_value k).symm.trans hf)
    have e : (adCfg cfg).maximize = cfg.maximize := rfl
    rw [e] at this
    unfold finalFoM
    rw [← dirMul_lt, dirMul_dirMul]
    exact not_lt.2 this
  · rcases h.inv.mem with e | ⟨k, hk, f, hf, e⟩
    · refine .inr ?_
      rw [h.fom]
      unfold finalFoM
      rw [e]
      exact h.start.1
    · refine .inl ⟨_, h.mem.2 ⟨k, hk, rfl⟩, ?_⟩
      rw [h.fom]
      refine (seen_value k).trans ?_
      unfold finalFoM
      rw [e]
      exact hf.trans (congrArg some (dirMul_dirMul cfg.maximize f).symm)

theorem width_attained (l : List ℕ) (a : ℕ) : l.foldl max a = a ∨ l.foldl max a ∈ l := by
  induction l generalizing a with
  | nil => exact .inl rfl
  | cons b l ih =>
    rcases ih (max a b) with h | h
    · rcases max_choice a b with e | e
      · exact .inl (by rw [List.foldl_cons, h, e])
      · exact .inr (by rw [List.foldl_cons, h, e]; simp)
    · exact .inr (List.mem_cons_of_mem _ h)

/-- the controls of a run are filled-up controls that fit to the dictionary -/
theorem ad_fits {x : ControlDicts} (hx : UsesControls w.lib d x) (hu : Usable x.pulses x.times x.params) {c c' : Controls ℚ}
    {v : Vec ℚ (searchDim x.pulses x.params)} {out : ControlsOut ℚ} (hr : Ready w.lib.M x.pulses x.times x.params c)
    (h : (adOps w.lib.M w.rnd).getControls c v = .ok (c', out)) : ∃ c0, FitTo d c0 ∧ FilledUp c0 out ∧
      c0.pulses.map List.length = x.pulses.map (·.binsNumber) ∧ Admissible x.pulses x.times x.params c0 := by
  obtain ⟨c0, h0, rfl⟩ := (ad_get hu hr).1 h
  have hs := hr.samples hu (by simp) h0
  have hg := grids_length hr.reach h0
  have e1 : c0.pulses.map List.length = x.pulses.map (·.binsNumber) := by
    generalize x.pulses = l at hs ⊢
    generalize c0.pulses = l' at hs ⊢
    induction hs with
    | nil => rfl
    | cons h1 _ ih => rw [List.map_cons, List.map_cons, h1, ih]
  have e2 : c0.timegrids.map List.length = x.pulses.map (·.binsNumber) := by
    generalize x.pulses = l at hg ⊢
    generalize c0.timegrids = l' at hg ⊢
    induction hg with
    | nil => rfl
    | cons h1 _ ih => rw [List.map_cons, List.map_cons, h1, ih]
  refine ⟨c0, fits_of_admissible hx (delivered_admissible hr.reach h0), ⟨e1.trans e2.symm, ⟨width x.pulses, fun u hu => ?_, ?_, rfl, rfl⟩, rfl⟩, e1,
    delivered_admissible hr.reach h0⟩
  · unfold width
    rw [← e1]
    exact le_foldl_max (List.mem_map_of_mem hu)
  · rcases hp : c0.pulses with _ | ⟨u, l⟩
    · exact .inl rfl
    · refine .inr ?_
      rw [← hp]
      have : width x.pulses ∈ c0.pulses.map List.length := by
        unfold width
        rw [← e1]
        rcases width_attained (c0.pulses.map List.length) 0 with h | h
        · have h1 : u.length ≤ (c0.pulses.map List.length).foldl max 0 := le_foldl_max (List.mem_map_of_mem (by rw [hp]; simp))
          rw [h] at h1 ⊢
          exact List.mem_map.2 ⟨u, by rw [hp]; simp, by omega⟩
        · exact h
      obtain ⟨v, hv, e⟩ := List.mem_map.1 this
      exact ⟨v, hv, e⟩

theorem ad_controls (h : optimizeAD w L d = some (.ok r)) (hp : PlainControls w.lib d) (hd : w.Draws d) :
    ∃ x, UsesControls w.lib d x ∧ ∀ c, (c ∈ r.all.map (·.1) ∨ r.best = .ok c) →
      ∃ c0, FitTo d c0 ∧ FilledUp c0 c ∧ c0.pulses.map List.length = x.pulses.map (·.binsNumber) ∧
        Admissible x.pulses x.times x.params c0 := by
  obtain ⟨s, cfg, o, h⟩ := ad_parts h
  obtain ⟨hu, hf⟩ := usable_controls h.uses.controls hp
  obtain ⟨o', h1, h2⟩ := mkControls_exists (M := w.lib.M) hu
  obtain rfl : o' = o := by rw [h.hcontrols] at h1; cases h1; rfl
  have hF := ad_faultless (M := w.lib.M) hu (enough_random h.uses.controls hp hd)
  have hk : KeptByOps (aOps w s) (Ready w.lib.M s.controls.pulses s.controls.times s.controls.params) := by
    refine ⟨fun o x o' c ho e => ?_, fun o k o' ho e => ?_, fun o x o' ho e => ?_⟩
    · obtain ⟨o2, c2, e2, hi⟩ := hF.get o x ho
      rw [e] at e2; cases e2; exact hi
    · obtain ⟨o2, e2, hi⟩ := hF.select k o ho
      rw [e] at e2; cases e2; exact hi
    · obtain ⟨o2, e2, hi⟩ := hF.update o x ho
      rw [e] at e2; cases e2; exact hi
  have hb := adExecute_built (cfg := cfg) (env := w.env s.vars) (s.adLib w L s.vars) hk h2
  refine ⟨_, h.uses.controls, fun c hc => ?_⟩
  rcases hc with hc | hbest
  · rw [h.log, List.map_map] at hc
    obtain ⟨k, hk, rfl⟩ := List.mem_map.1 hc
    obtain ⟨o1, o2, h3, h4⟩ := hb.log k hk
    exact ad_fits h.uses.controls hu h3 h4
  · rw [h.best] at hbest
    obtain ⟨x, _, hbest⟩ := py_bind_ok.1 hbest
    obtain ⟨⟨o', c'⟩, hg, hbest⟩ := py_bind_ok.1 hbest
    cases hbest
    exact ad_fits h.uses.controls hu hb.ctl hg

/-- **C99.** With plain controls, the controls that are passed to the user's function, also for gradients, and the best controls (also
after a failed or interrupted run) are controls that fit to the dictionary, as arrays filled up with zeros. -/
theorem C99_limits (h : optimizeAD w L d = some (.ok r)) (hp : PlainControls w.lib d) (hd : w.Draws d) :
    (∀ c ∈ r.all, ∃ c0, FitTo d c0 ∧ FilledUp c0 c.1) ∧ ∀ b, r.best = .ok b → ∃ c0, FitTo d c0 ∧ FilledUp c0 b := by
  obtain ⟨x, _, hx⟩ := ad_controls h hp hd
  refine ⟨fun c hc => ?_, fun b hb => ?_⟩
  · obtain ⟨c0, h1, h2, _⟩ := hx c.1 (.inl (List.mem_map_of_mem hc))
    exact ⟨c0, h1, h2⟩
  · obtain ⟨c0, h1, h2, _⟩ := hx b (.inr hb)
    exact ⟨c0, h1, h2⟩

/-- nothing is filled up if all pulses have the same length -/
theorem FilledUp.same {c0 c : ControlsOut ℚ} (h : FilledUp c0 c) {b : ℕ} (hb : ∀ u ∈ c0.pulses, u.length = b) : c = c0 := by
  obtain ⟨hs, ⟨n, h1, h2, h3, h4⟩, h5⟩ := h
  have ht : ∀ t ∈ c0.timegrids, t.length = b := by
    intro t ht
    have : t.length ∈ c0.pulses.map List.length := by rw [hs]; exact List.mem_map_of_mem ht
    obtain ⟨u, hu, e⟩ := List.mem_map.1 this
    rw [← e]; exact hb u hu
  have e3 : c.pulses = c0.pulses := by
    rw [h3]
    refine (List.map_congr_left fun u hu => ?_).trans (List.map_id _)
    rcases h2 with h2 | ⟨v, hv, e⟩
    · rw [h2] at hu; cases hu
    · rw [← e, hb u hu, hb v hv]; simp
  have e4 : c.timegrids = c0.timegrids := by
    rw [h4]
    refine (List.map_congr_left fun t hm => ?_).trans (List.map_id _)
    rcases h2 with h2 | ⟨v, hv, e⟩
    · rw [h2] at hs
      have : c0.timegrids = [] := List.map_eq_nil_iff.1 hs.symm
      rw [this] at hm; cases hm
    · rw [← e, ht t hm, hb v hv]; simp
  cases c; cases c0
  simp_all

/-- **C99.** If all pulses have the same `bins_number`, nothing is filled up: the controls themselves fit to the dictionary. -/
theorem C99_limits_same_bins (h : optimizeAD w L d = some (.ok r)) (hp : PlainControls w.lib d) (hd : w.Draws d) (b : ℕ)
    (hb : ∀ p ∈ itemsAt d "pulses", entry p ["bins_number"] = some (.num b)) :
    (∀ c ∈ r.all, FitTo d c.1) ∧ ∀ b, r.best = .ok b → FitTo d b := by
  obtain ⟨x, hU, hx⟩ := ad_controls h hp hd
  have key : ∀ c, (c ∈ r.all.map (·.1) ∨ r.best = .ok c) → FitTo d c := by
    intro c hc
    obtain ⟨c0, h1, h2, h3, _⟩ := hx c hc
    rw [h2.same (b := b) fun u hu => ?_]
    · exact h1
    · have : u.length ∈ x.pulses.map (·.binsNumber) := by rw [← h3]; exact List.mem_map_of_mem hu
      obtain ⟨y, hy, e⟩ := List.mem_map.1 this
      obtain ⟨p, hpm, hP⟩ := forall2_mem hU.pulses hy
      have e4 := hP.bins
      unfold setting at e4
      rw [hb p hpm] at e4
      rw [← e]
      exact (Nat.cast_injective (R := ℚ) e4.num).symm
  exact ⟨fun c hc => key c.1 (.inl (List.mem_map_of_mem hc)), fun b hb => key b (.inr hb)⟩

/-- **C99.** If an optimization with automatic differentiation and plain controls raises, then the last call of the user's function raised
this exception or returned no figure of merit; or the user pressed Ctrl-C (`AttributeError`); or no call for a figure of merit returned a
value that is better than the start value, for instance because no call was allowed (`AttributeError`). -/
theorem C99_failures (h : optimizeAD w L d = some (.ok r)) (hp : PlainControls w.lib d) (hd : w.Draws d) {e : PyErr}
    (he : r.ended = .error e) :
    LastCallFailed r.all e ∨ (e = .attributeError ∧ ∃ n, w.async n = .sigint) ∨ (e = .attributeError ∧ NoneBetter d r.evaluations) := by
  obtain ⟨s, cfg, o, h⟩ := ad_parts h
  obtain ⟨hk, _⟩ := ad_cfg h.hcfg
  obtain ⟨hu, hf⟩ := usable_controls h.uses.controls hp
  rw [h.ended] at he
  obtain ⟨o', h1, h2⟩ := mkControls_exists (M := w.lib.M) hu
  obtain rfl : o' = o := by rw [h.hcontrols] at h1; cases h1; rfl
  rcases AdSound.execute_fails (ad_faultless (M := w.lib.M) hu (enough_random h.uses.controls hp hd)) (fun k x y => ⟨_, rfl⟩)
      (fun x => ⟨_, rfl⟩) h2 he with
    ⟨before, c, h3, _, h4⟩ | h3 | ⟨h3, h4⟩
  · refine .inl ⟨before.map fun k => (k.ctl, k.ans), (c.ctl, c.ans), ?_, h4⟩
    rw [h.log, h3, List.map_append]
    rfl
  · exact .inr (.inl h3)
  · refine .inr (.inr ⟨h3, fun c hc f hfv v hv => ?_⟩)
    obtain ⟨k, hk, rfl⟩ := h.mem.1 hc
    have := h.inv.le k hk f ((seen_value k).symm.trans hfv)
    rw [h4] at this
    rw [← h.better, h.start.2 v hv, ← dirMul_lt, dirMul_dirMul]
    exact not_lt.2 this

/-- **C99.** An optimization with automatic differentiation and plain controls completes if the user's function always returns a figure of
merit, the user does not press Ctrl-C, and some call for a figure of merit returns a value better than the start value. -/
theorem C99_completes (h : optimizeAD w L d = some (.ok r)) (hp : PlainControls w.lib d) (hd : w.Draws d) (ha : w.Answers)
    (hs : ∀ n, w.async n ≠ .sigint) (hb : ¬ NoneBetter d r.evaluations) : r.ended = .ok () := by
  rcases he : r.ended with e | u
  · rcases C99_failures h hp hd he with ⟨before, c, h1, h2⟩ | ⟨_, n, h1⟩ | ⟨_, h1⟩
    · obtain ⟨a, f, h3, h4⟩ := ha before c.1
      have := C99_calls h before [] c h1
      rw [h3] at this
      rw [this] at h2
      rcases h2 with h2 | ⟨_, a', h2, h5⟩
      · cases h2
      · cases h2; rw [h4] at h5; cases h5
    · exact absurd h1 (hs n)
    · exact absurd h1 hb
  · rfl

/-- **C99.** A completed optimization with one super-iteration (the default), plain and standard controls: if the reported figure of merit
is not the start value, a call returned it for exactly the controls that are reported as the best ones. Missing: more than one
super-iteration, for which this fails (`C62_second_super_iteration_spoils_best`). -/
theorem C99_best_controls_partial (h : optimizeAD w L d = some (.ok r)) (hp : PlainControls w.lib d) (hd : w.Draws d)
    (hst : StandardDictionary d) (h1 : setting d ["algorithm_settings", "super_iteration_number"] (.num 1) = .num 1)
    (he : r.ended = .ok ()) :
    IsStart d r.fom ∨ ∃ c ∈ r.all, c.value = some r.fom ∧ r.best = .ok c.1 := by
  obtain ⟨s, cfg, o, h⟩ := ad_parts h
  obtain ⟨hk, hmax, _, _, _, hsi⟩ := ad_cfg h.hcfg
  have hone : cfg.maxSI = 1 := by
    have := h.uses.superIterations rfl
    rw [h1] at this
    have e : s.maxSI = 1 := by
      have h2 : IsInt w.lib (.num ((1 : ℤ) : ℚ)) s.maxSI := by simpa using this
      exact h2.int
    rw [hsi, e]
    rfl
  obtain ⟨hu, hf⟩ := usable_controls h.uses.controls hp
  have hS : StandardControls w.lib.M s.controls.pulses s.controls.times s.controls.params := by
    refine ⟨fun x hx => ?_, fun x hx => ?_, fun x hx => ?_, hf, fun x hx => ?_⟩
    · obtain ⟨p, hpm, hU⟩ := forall2_mem h.uses.controls.pulses hx
      exact standard_shaping hU (hst.pulses p hpm)
    · obtain ⟨p, hpm, hU⟩ := forall2_mem h.uses.controls.pulses hx
      exact hU.overwrite.2 (hst.pulses p hpm).overwrite
    · obtain ⟨p, hpm, hU⟩ := forall2_mem h.uses.controls.pulses hx
      exact zeroUpdate_usable (hu.pulses x hx) (library_basis hU)
    · obtain ⟨p, hpm, hU⟩ := forall2_mem h.uses.controls.params hx
      exact hst.limits p hpm _ _ hU.lower hU.upper
  obtain ⟨o', h1, h2⟩ := mkControls_exists (M := w.lib.M) hu
  obtain rfl : o' = o := by rw [h.hcontrols] at h1; cases h1; rfl
  rw [h.ended] at he
  have hb : BetweenSI (adCfg cfg) (Ready w.lib.M s.controls.pulses s.controls.times s.controls.params) (ShowsMean (aOps w s))
      (adRun w L s cfg o').2.alg := by
    have hl := AD.leads_superIteration (lib := s.adLib w L s.vars) (cfg := adCfg cfg) (env := w.env s.vars)
      (ad_reproducible hS hu (enough_random h.uses.controls hp hd)).repro (.inl rfl) rfl 1
    unfold adRun adExecute at he ⊢
    rw [hone] at he ⊢
    unfold adLoop at he ⊢
    rw [Prog.bind_apply] at he ⊢
    rcases hs : adSuperIteration (s.adLib w L s.vars) (adCfg cfg) (w.env s.vars) (aOps w s) 1 ⟨initState (adCfg cfg) (w.env s.vars) o', []⟩ with
      ⟨e | u, s1⟩
    · rw [hs] at he; cases he
    · exact hl _ u s1 ⟨h2, rfl⟩ hs
  rcases hb.best with e | ⟨k, hk', f, hf', h3, ⟨x, hx, hs⟩, _⟩
  · left
    rw [h.fom]
    unfold finalFoM
    rw [e]
    exact h.start.1
  · refine .inr ⟨(k.ctl, k.ans), ?_, ?_, ?_⟩
    · rw [h.log]; exact List.mem_map.2 ⟨k, hk', rfl⟩
    · rw [h.fom]
      refine (seen_value k).trans ?_
      unfold finalFoM
      rw [h3]
      exact hf'.trans (congrArg some (dirMul_dirMul cfg.maximize f).symm)
    · rw [h.best]
      unfold bestControls
      simp only [hx, bind, Except.bind]
      unfold Shows at hs
      rcases hg : (aOps w s).getControls (adRun w L s cfg o').2.alg.ctl x with e | p
      · rw [hg] at hs; cases hs
      · rw [hg] at hs
        exact hs

/-- **C99.** With a dictionary of the documented form for the algorithm the optimization is carried out: neither the creation nor the
preparation of the run raises. -/
theorem C99_runs (hi : Installed w.lib) (h : Documented w.lib "AD" d) : ∃ r, optimizeAD w L d = some (.ok r) := by
  obtain ⟨c, hc, hcl⟩ := C97_accepted hi h
  obtain ⟨s, hs⟩ : ∃ s, c.alg = .ad s := by
    rcases ha : c.alg with s | s | s
    · have := (create_use w.lib hc).alg
      rw [ha] at this hcl
      rcases this.2 with ⟨hk, _⟩ | ⟨hk, _⟩ <;> simp [AlgSettings.className, hk] at hcl
    · rw [ha] at hcl
      simp [AlgSettings.className] at hcl
    · exact ⟨s, rfl⟩
  have hU := (create_use w.lib hc).alg
  rw [hs] at hU
  obtain ⟨a, ha, hA⟩ := h.algorithm
  have ha' : d.get? "algorithm_settings" = some (.dict a) := ha
  obtain ⟨tl, htl⟩ := number_entry (10 ^ 10) hA.timeLimit
  obtain ⟨go, hgo⟩ := goal_entry hA.goal
  have e1 : s.core.totalTimeLim.num? = some tl := by rw [hU.2.core.timeLimit, setting_cons ha']; exact htl
  have e2 : s.core.goal.goal? = some go := by rw [hU.2.core.goal, setting_cons ha']; exact hgo
  obtain ⟨cfg, hcfg⟩ : ∃ cfg, s.adCfg = some cfg := by
    unfold GradientSettings.adCfg GradientSettings.cfg
    simp only [e1, e2, bind, Option.bind_some]
    exact ⟨_, rfl⟩
  obtain ⟨o, ho⟩ := search_controls h hU.2.controls
  unfold optimizeAD
  rw [hc]
  simp only [hs, hcfg, ho]
  exact ⟨_, rfl⟩

/-! ### A concrete optimization -/

/-- automatic differentiation with two piecewise constant pulses with three and two bins between -1 and 2, at most `m` evaluations -/
def exAdProgram (m : ℤ) : PDict :=
  exSettings [("algorithm_name", .str "AD"), ("max_eval_total", .num m), ("FoM_goal", .num (1 / 10))]
    [.dict (mkDict [("pulse_name", .str "p"), ("time_name", .str "t"), ("bins_number", .num 3), ("lower_limit", .num (-1)),
      ("upper_limit", .num 2), ("amplitude_variation", .num 1), ("basis", .dict (mkDict [("basis_name", .str "PiecewiseBasis")]))]),
     .dict (mkDict [("pulse_name", .str "q"), ("time_name", .str "t"), ("bins_number", .num 2), ("lower_limit", .num (-1)),
      ("upper_limit", .num 2), ("amplitude_variation", .num 1), ("basis", .dict (mkDict [("basis_name", .str "PiecewiseBasis")]))])]
    [] [exTime]

/-- a stand-in for L-BFGS-B: steps along the gradient -/
def exAdDescent (size : ℚ) {n : ℕ} : ℕ → Vec ℚ n → AdMinimizer (Vec ℚ n) ℚ
  | 0, _ => .stop
  | k + 1, x => .value x fun _ => .gradient x fun g => exAdDescent size k fun i => x i - size * g i

/-- the gradient of the sum of the squares -/
def exAdLib : AdProgramLib := { minimize := fun _ _ _ _ _ x => exAdDescent (1 / 4) 4 x, gradient := fun _ _ x i => 2 * x i }

/-- what is checked in the examples: the calls (for a gradient?, value), how the run ended, figure of merit and the best pulses -/
def adShown (r : Option (Py AdOutcome)) : Option (List (Bool × Option ℚ) × Bool × ℚ × Option (List (List ℚ))) :=
  match r with
  | some (.ok r) => some (r.calls.map fun c => (c.forGradient, c.seen.value), r.ended.isOk, r.fom,
      match r.best with | .ok c => some c.pulses | .error _ => none)
  | _ => none

set_option synthInstance.maxSize 1000 in
/-- **C99 is violated for the budget by the calls for gradients**: two evaluations are allowed, but the user's function is called six
times, and goes on being called for gradients at new controls after the budget is used up. -/
theorem C99_gradients_exceed_budget : adShown (optimizeAD exGrapeAround exAdLib (exAdProgram 2)) =
    some ([(false, some (1049 / 900)), (true, some (1049 / 900)), (false, some (1049 / 3600)), (true, some (1049 / 3600)),
      (true, some (1049 / 14400)), (true, some (1049 / 57600))], true, 1049 / 3600,
      some [[0, 1 / 6, 1 / 4], [3 / 10, 1 / 3, 0]]) := by decide +kernel

set_option synthInstance.maxSize 1000 in
/-- **C99 is violated for the goal by the calls for gradients**: the fifth call, an evaluation, reaches the goal 1/10, and two calls for
gradients follow. -/
theorem C99_gradients_after_goal : adShown (optimizeAD exGrapeAround exAdLib (exAdProgram 50)) =
    some ([(false, some (1049 / 900)), (true, some (1049 / 900)), (false, some (1049 / 3600)), (true, some (1049 / 3600)),
      (false, some (1049 / 14400)), (true, some (1049 / 14400)), (true, some (1049 / 57600))], true, 1049 / 14400,
      some [[0, 1 / 12, 1 / 8], [3 / 20, 1 / 6, 0]]) := by decide +kernel

set_option synthInstance.maxSize 1000 in
/-- Without an allowed evaluation the optimization fails (the last case of `C99_failures`). -/
example : adShown (optimizeAD exGrapeAround exAdLib (exAdProgram 0)) =
    some ([(true, some (1049 / 900)), (true, some (1049 / 3600)), (true, some (1049 / 14400)), (true, some (1049 / 57600))], false,
      10 ^ 10, some [[0, 0, 0], [0, 0, 0]]) := by decide +kernel

/-- The hypotheses of the theorems above are met by this dictionary and these surroundings. -/
theorem exAdProgram_plain (m : ℤ) : PlainControls exLib (exAdProgram m) ∧ exGrapeAround.Draws (exAdProgram m) ∧
    StandardDictionary (exAdProgram m) ∧ ¬ Maximizes (exAdProgram m) ∧
    setting (exAdProgram m) ["algorithm_settings", "super_iteration_number"] (.num 1) = .num 1 ∧
    entry (exAdProgram m) ["algorithm_settings", "max_eval_total"] = some (.num m) ∧
    entry (exAdProgram m) ["algorithm_settings", "FoM_goal"] = some (.num (1 / 10)) := by
  have hp : itemsAt (exAdProgram m) "pulses" = [mkDict [("pulse_name", .str "p"), ("time_name", .str "t"), ("bins_number", .num 3),
      ("lower_limit", .num (-1)), ("upper_limit", .num 2), ("amplitude_variation", .num 1),
      ("basis", .dict (mkDict [("basis_name", .str "PiecewiseBasis")]))], mkDict [("pulse_name", .str "q"), ("time_name", .str "t"),
      ("bins_number", .num 2), ("lower_limit", .num (-1)), ("upper_limit", .num 2), ("amplitude_variation", .num 1),
      ("basis", .dict (mkDict [("basis_name", .str "PiecewiseBasis")]))]] := rfl
  have ht : itemsAt (exAdProgram m) "times" = [mkDict [("time_name", .str "t"), ("initial_value", .num 3)]] := rfl
  have hq : itemsAt (exAdProgram m) "parameters" = [] := rfl
  refine ⟨⟨.inl (by rw [hp]; simp), fun p h => ?_, fun t h => ?_⟩, fun k i p n h hn => ?_, ⟨fun p h => ?_, fun p h => ?_⟩, ?_, rfl, rfl, rfl⟩
  · rw [hp] at h
    simp only [List.mem_cons, List.not_mem_nil, or_false] at h
    rcases h with rfl | rfl
    · refine ⟨⟨3, by norm_num, rfl, ⟨_, .inl ⟨.inl rfl, rfl⟩⟩, ⟨_, .inl ⟨.inl rfl, rfl⟩⟩⟩, ⟨1, le_refl _, rfl⟩, ?_⟩
      rw [ht]
      exact ⟨_, List.mem_singleton.2 rfl, rfl⟩
    · refine ⟨⟨2, by norm_num, rfl, ⟨_, .inl ⟨.inl rfl, rfl⟩⟩, ⟨_, .inl ⟨.inl rfl, rfl⟩⟩⟩, ⟨1, le_refl _, rfl⟩, ?_⟩
      rw [ht]
      exact ⟨_, List.mem_singleton.2 rfl, rfl⟩
  · rw [ht, List.mem_singleton] at h
    subst h
    exact .inr (.inl rfl)
  · have hm := List.mem_of_getElem? h
    rw [hp] at hm
    simp only [List.mem_cons, List.not_mem_nil, or_false] at hm
    have key : setting p ["basis", "basis_vector_number"] (.num 1) = .num 1 := by rcases hm with rfl | rfl <;> rfl
    rw [key] at hn
    have : (1 : ℚ) = n := PVal_num_inj hn
    have : n = 1 := by exact_mod_cast this.symm
    subst this
    exact le_refl _
  · rw [hp] at h
    simp only [List.mem_cons, List.not_mem_nil, or_false] at h
    rcases h with rfl | rfl
    · exact ⟨.inl (.inl rfl), .inr (.inl rfl)⟩
    · exact ⟨.inl (.inl rfl), .inr (.inl rfl)⟩
  · rw [hq] at h; cases h
  · intro h
    have : setting (exAdProgram m) ["algorithm_settings", "optimization_direction"] (.str "minimization") = .str "minimization" := rfl
    unfold Maximizes at h
    rw [this] at h
    simp [PVal.str] at h

theorem exAdProgram_documented (m : ℤ) : Documented exLib "AD" (exAdProgram m) where
  algorithm := by
    refine ⟨_, rfl, by simp, ⟨.inl rfl, rfl⟩, ?_, doc_numbers (ks := ["max_eval_total"]) rfl _ (by simp),
      doc_numbers (ks := ["total_time_lim"]) rfl _ (by simp), .inr (doc_numbers (ks := ["FoM_goal"]) rfl _ (by simp)),
      doc_numbers (ks := ["super_iteration_number"]) rfl _ (by simp), ?_, fun h => by simp at h, fun h => by simp at h, ?_⟩
    · intro v hv; cases hv
    · intro v hv; cases hv
    · intro _ v hv; cases hv
  pulses := by
    refine ⟨[_, _], rfl, fun p hp => ?_⟩
    simp only [List.mem_cons, List.not_mem_nil, or_false] at hp
    rcases hp with rfl | rfl
    · refine ⟨⟨_, rfl⟩, ?_, ⟨3, by norm_num, rfl⟩, doc_numbers rfl, ⟨"PiecewiseBasis", ⟨_, rfl, ?_⟩, fun _ h => by cases h⟩, .inl (.inl rfl),
        .inl (.inl rfl), .inl (.inl rfl), ?_⟩
      · intro v hv; cases hv; exact ⟨_, rfl⟩
      · exact ⟨by simp, ⟨.inl rfl, rfl⟩, ⟨1, le_refl _, rfl⟩, doc_numbers rfl, fun h => by simp at h⟩
      · decide
    · refine ⟨⟨_, rfl⟩, ?_, ⟨2, by norm_num, rfl⟩, doc_numbers rfl, ⟨"PiecewiseBasis", ⟨_, rfl, ?_⟩, fun _ h => by cases h⟩, .inl (.inl rfl),
        .inl (.inl rfl), .inl (.inl rfl), ?_⟩
      · intro v hv; cases hv; exact ⟨_, rfl⟩
      · exact ⟨by simp, ⟨.inl rfl, rfl⟩, ⟨1, le_refl _, rfl⟩, doc_numbers rfl, fun h => by simp at h⟩
      · decide
  params := ⟨[], rfl, fun p hp => by cases hp⟩
  times := by
    refine ⟨[_], rfl, fun p hp => ?_⟩
    rw [List.mem_singleton] at hp
    subst hp
    exact doc_exTime
  grape := fun _ h => by cases h

/-- The theorems above apply to this dictionary with any L-BFGS-B, any gradients and any budget. -/
example (L : AdProgramLib) (m : ℤ) : ∃ r, optimizeAD exGrapeAround L (exAdProgram m) = some (.ok r) ∧
    (r.evaluations.length : ℤ) ≤ max 0 m ∧ (¬ NoneBetter (exAdProgram m) r.evaluations → r.ended = .ok () ∧
      (IsStart (exAdProgram m) r.fom ∨ ∃ c ∈ r.all, c.value = some r.fom ∧ r.best = .ok c.1)) := by
  obtain ⟨h1, h2, h3, _, h4, h5, _⟩ := exAdProgram_plain m
  obtain ⟨r, hr⟩ := C99_runs (w := exGrapeAround) (L := L) exLib_installed (exAdProgram_documented m)
  refine ⟨r, hr, C99_budget_partial hr h5, fun hb => ?_⟩
  have hc := C99_completes hr h1 h2 (fun h c => ⟨_, _, rfl, rfl⟩) (fun n => by simp [exGrapeAround, exAround]) hb
  exact ⟨hc, C99_best_controls_partial hr h1 h2 h3 h4 hc⟩

end QuOCS

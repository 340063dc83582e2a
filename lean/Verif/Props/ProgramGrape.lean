/-
Property C98: what the dictionary asks for is what happens with GRAPE, from the dictionary to the results.
-/
import Verif.Spec.ProgramMean
import Verif.Model.ProgramGrape
import Verif.Props.Accepted
import Verif.Props.UsableGrape
import Verif.Props.Continue

set_option linter.unusedSectionVars false
set_option linter.unusedVariables false

namespace QuOCS

variable {w : Surroundings} {L : GrapeLib} {d : PDict} {r : Outcome}

/-! ### Specification -/

/-- The start value of the best figure of merit: `1e10`, or `-1e10` for a maximization. -/
def IsStart (d : PDict) (v : ℚ) : Prop := (Maximizes d ∧ v = -10 ^ 10) ∨ (¬ Maximizes d ∧ v = 10 ^ 10)

/-- No call returned a figure of merit better than the start value of the best one. -/
def NoneBetter (d : PDict) (calls : List Seen) : Prop :=
  ∀ c ∈ calls, ∀ f, c.value = some f → ∀ v, IsStart d v → ¬ BetterFor d f v

/-- A pulse with the basis for piecewise constant pulses. -/
structure PiecewisePulse (p : PDict) : Prop where
  basis : entry p ["basis", "basis_name"] = some (.str "PiecewiseBasis")
  noAttribute : entry p ["basis", "basis_attribute"] = none

/-- The controls for which GRAPE computes a gradient: one piecewise constant pulse, no parameters. -/
structure GrapeControls (d : PDict) : Prop where
  pulse : ∃ p, itemsAt d "pulses" = [p] ∧ PiecewisePulse p
  params : itemsAt d "parameters" = []

/-! ### The parts of an optimization with GRAPE -/

/-- the search variables of a created optimizer -/
abbrev GradientSettings.vars (s : GradientSettings) : ℕ := searchDim s.controls.pulses s.controls.params

/-- the controls of GRAPE -/
abbrev gOps (w : Surroundings) (s : GradientSettings) := grapeOps w.lib.M (w.draws (n := s.vars) 0)

/-- the run of a created optimizer -/
abbrev grapeRun (w : Surroundings) (L : GrapeLib) (s : GradientSettings) (cfg : AlgCfg ℚ ℚ) (o : Controls ℚ) :=
  execute cfg (w.env s.vars) (gOps w s) (s.search L s.vars) o

/-- the parts of an optimization -/
structure GrapeParts (w : Surroundings) (L : GrapeLib) (d : PDict) (r : Outcome) (s : GradientSettings) (cfg : AlgCfg ℚ ℚ)
    (o : Controls ℚ) : Prop where
  created : ∃ c, (createOptimizer w.lib d).1 = .ok c ∧ c.alg = .grape s
  hcfg : s.cfg = some cfg
  hcontrols : mkControls w.lib.M s.controls.pulses s.controls.times s.controls.params = .ok o
  calls : r.calls = (grapeRun w L s cfg o).2.log.map fun k => (k.ctl, k.ans)
  ended : r.ended = (grapeRun w L s cfg o).1
  fom : r.fom = finalFoM cfg (grapeRun w L s cfg o).2
  best : r.best = bestControls (gOps w s) (grapeRun w L s cfg o).2
  foms : r.foms = (grapeRun w L s cfg o).2.fomList
  numbers : r.numbers = (grapeRun w L s cfg o).2.iterList
  told : r.told = (grapeRun w L s cfg o).2.signals
  saved : ∃ c, (createOptimizer w.lib d).1 = .ok c ∧ c.alg = .grape s ∧
    ∀ n, r.saved n = resultsFile cfg.kind c.dumpFormat s.core ((grapeRun w L s cfg o).2.dumps.filter fun k => k.calls ≤ n)

theorem grape_parts (h : optimizeGrape w L d = some (.ok r)) : ∃ s cfg o, GrapeParts w L d r s cfg o := by
  unfold optimizeGrape at h
  rcases hc : (createOptimizer w.lib d).1 with e | c
  · rw [hc] at h; cases h
  rw [hc] at h
  dsimp only at h
  rcases ha : c.alg with s | s | s
  · rw [ha] at h; cases h
  · rw [ha] at h
    dsimp only at h
    rcases hm : mkControls w.lib.M s.controls.pulses s.controls.times s.controls.params with e | o
    · rw [hm] at h
      rcases hs : s.cfg with _ | cfg <;> rw [hs] at h <;> cases h
    · rcases hs : s.cfg with _ | cfg
      · rw [hs, hm] at h; cases h
      · rw [hs, hm] at h
        dsimp only at h
        split at h
        · simp only [Option.some.injEq, Except.ok.injEq] at h
          subst h
          exact ⟨s, cfg, o, ⟨c, hc, ha⟩, hs, hm, rfl, rfl, rfl, rfl, rfl, rfl, rfl, c, hc, ha, fun _ => rfl⟩
        · cases h
  · rw [ha] at h; cases h

theorem Minimizer.onlyEvals {K V F : Type} (g : V → V) (m : Minimizer V F) (x : V) (f : F) :
    (m.calls g x f : Strat K V F _).OnlyEvals := by
  induction m generalizing x f with
  | stop => trivial
  | ask y k ih => exact ⟨⟨y, 0, rfl⟩, fun f' => ih f' (g y) y f'⟩

theorem Strat.OnlyEvals.noDrift {K V F α : Type} {m : Strat K V F α} (h : m.OnlyEvals) : m.NoDrift := by
  induction m with
  | ret a => trivial
  | op o k ih =>
    obtain ⟨⟨x, it, rfl⟩, h⟩ := h
    exact ⟨(fun x it v e => by cases e), fun r => ih r (h r)⟩

section
variable {s : GradientSettings} {cfg : AlgCfg ℚ ℚ} {o : Controls ℚ}

theorem GrapeParts.uses (h : GrapeParts w L d r s cfg o) : UsesGradient w.lib .grape d s := by
  obtain ⟨c, h1, h2⟩ := h.created
  have := (create_use w.lib h1).alg
  rw [h2] at this
  exact this.2

theorem grape_cfg (h : s.cfg = some cfg) : cfg.kind = .grape ∧ cfg.fomMax = 10 ^ 10 ∧ cfg.maxEvalTotal = s.core.maxEvalTotal ∧
    cfg.maximize = s.core.maximize ∧ s.core.goal.goal? = some cfg.userGoal ∧ cfg.driftAfterSI = false := by
  unfold GradientSettings.cfg at h
  simp only [bind, Option.bind_eq_some_iff, pure, Option.some.injEq] at h
  obtain ⟨_, _, _, h2, h⟩ := h
  rw [← h]
  exact ⟨rfl, rfl, rfl, rfl, h2, rfl⟩

theorem GrapeParts.maximize (h : GrapeParts w L d r s cfg o) : cfg.maximize = true ↔ Maximizes d := by
  have := h.uses.core.direction
  rw [(grape_cfg h.hcfg).2.2.2.1]
  unfold Maximizes
  rw [this]
  cases s.core.maximize
  · simp
  · simp

theorem GrapeParts.better (h : GrapeParts w L d r s cfg o) (x y : ℚ) : Better cfg.maximize x y ↔ BetterFor d x y := by
  unfold Better BetterFor
  rw [← h.maximize]
  cases cfg.maximize <;> simp

theorem GrapeParts.noDrift (h : GrapeParts w L d r s cfg o) : NoDriftRun cfg (s.search L s.vars) :=
  ⟨(grape_cfg h.hcfg).2.2.2.2.2, fun i x sim sg => (Minimizer.onlyEvals _ _ _ _).noDrift⟩

theorem GrapeParts.mem (h : GrapeParts w L d r s cfg o) {c : Seen} (hc : c ∈ r.calls) :
    ∃ k ∈ (grapeRun w L s cfg o).2.log, c = (k.ctl, k.ans) ∧ k.value = c.value := by
  rw [h.calls] at hc
  obtain ⟨k, hk, rfl⟩ := List.mem_map.1 hc
  exact ⟨k, hk, rfl, (seen_value k).symm⟩

theorem GrapeParts.start (h : GrapeParts w L d r s cfg o) :
    IsStart d (dirMul cfg.maximize cfg.fomMax) ∧ ∀ v, IsStart d v → v = dirMul cfg.maximize cfg.fomMax := by
  rw [(grape_cfg h.hcfg).2.1]
  unfold dirMul IsStart
  rw [← h.maximize]
  cases cfg.maximize <;> simp

theorem GrapeParts.nothing (h : GrapeParts w L d r s cfg o) (hn : NothingBetter cfg (grapeRun w L s cfg o).2.log) :
    NoneBetter d r.calls := by
  intro c hc f hf v hstart
  obtain ⟨k, hk, rfl, hv⟩ := h.mem hc
  rw [hf] at hv
  rw [← h.better, h.start.2 v hstart, ← dirMul_lt, dirMul_dirMul]
  unfold Call.value at hv
  rcases ha : k.ans with e | a
  · rw [ha] at hv; cases hv
  · rw [ha] at hv
    exact hn k hk a f ha hv

/-- the controls of GRAPE -/
theorem grape_get {M : MathFns ℚ} {n : ℕ} {u : Vec ℚ n} {c : Controls ℚ} {x : Vec ℚ n} :
    (grapeOps M u).getControls c x = c.getControls M (List.ofFn x) := by
  show getControlsFor .grape M c (List.ofFn x) = _
  unfold getControlsFor
  rcases c.getControls M (List.ofFn x) with e | p
  · rfl
  · simp only [bind, Except.bind, reduceCtorEq, false_and, if_false]

theorem grape_reach_kept {M : MathFns ℚ} {n : ℕ} {u : Vec ℚ n} {pd : List (PulseDict ℚ)} {td : List (TimeDict ℚ)}
    {rd : List (ParamDict ℚ)} : KeptByOps (grapeOps M u) (ControlsReach M pd td rd) := by
  refine ⟨fun o x o' c h1 h2 => ?_, fun _ _ _ h1 h2 => ?_, fun _ _ _ h1 h2 => .base h1 h2⟩
  · rw [grape_get] at h2
    exact .get h1 h2
  · cases h2; exact h1

theorem grape_faultless {M : MathFns ℚ} {pd : List (PulseDict ℚ)} {td : List (TimeDict ℚ)} {rd : List (ParamDict ℚ)}
    (hu : Usable pd td rd) (u : Vec ℚ (searchDim pd rd)) :
    Faultless (grapeOps M u) (Ready M pd td rd) (fun _ => True) where
  get c x h := by
    obtain ⟨c', o, h1, h2⟩ := h.get hu (x := List.ofFn x) (by simp)
    exact ⟨c', o, by rw [grape_get]; exact h1, h2⟩
  mean c h := by
    obtain ⟨v, h1, h2⟩ := h.mean
    obtain ⟨w, h3⟩ := vecOfList_exists h2
    exact ⟨w, by show (do vecOfList _ (← c.mean)) = _; rw [h1]; exact h3⟩
  sigma c h := by
    obtain ⟨v, h1, h2⟩ := h.sigma hu
    obtain ⟨w, h3⟩ := vecOfList_exists h2
    exact ⟨w, by show (do vecOfList _ (← c.sigma)) = _; rw [h1]; exact h3⟩
  update c x h := h.update hu (x := List.ofFn x) (by simp)
  select k c h := ⟨c, rfl, h⟩
  simplex k x y := ⟨_, rfl, trivial⟩

theorem enough_zeros (pd : List (PulseDict ℚ)) :
    EnoughRandom pd fun i => List.replicate ((pd[i]?.map fun x => basisSuper x.basis).getD 0) (0 : ℚ) := by
  intro i x hx
  simp [hx]

theorem grape_reproducible {M : MathFns ℚ} {pd : List (PulseDict ℚ)} {td : List (TimeDict ℚ)} {rd : List (ParamDict ℚ)}
    (hS : StandardControls M pd td rd) (hu : Usable pd td rd) (u : Vec ℚ (searchDim pd rd)) :
    Reproducible (grapeOps M u) (Ready M pd td rd) := by
  have R := system_reproducible (M := M) (sqrt := id) (draws := fun _ => u) hS hu (fun _ => enough_zeros pd)
  have hg : ∀ (c : Controls ℚ) (x : Vec ℚ (searchDim pd rd)), (systemOps .dcrab M id (fun _ i => List.replicate
      ((pd[i]?.map fun x => basisSuper x.basis).getD 0) (0 : ℚ)) (fun _ => u)).getControls c x = (grapeOps M u).getControls c x := by
    intro c x
    rw [grape_get]
    show getControlsFor .dcrab M c (List.ofFn x) = _
    unfold getControlsFor
    rcases c.getControls M (List.ofFn x) with e | p
    · rfl
    · simp only [bind, Except.bind, reduceCtorEq, false_and, if_false]
  have hs : ∀ o x c, Shows (systemOps .dcrab M id (fun _ i => List.replicate
      ((pd[i]?.map fun x => basisSuper x.basis).getD 0) (0 : ℚ)) (fun _ => u)) o x c ↔ Shows (grapeOps M u) o x c := by
    intro o x c
    unfold Shows
    rw [hg]
  have hm : ∀ o c, ShowsMean (systemOps .dcrab M id (fun _ i => List.replicate
      ((pd[i]?.map fun x => basisSuper x.basis).getD 0) (0 : ℚ)) (fun _ => u)) o c ↔ ShowsMean (grapeOps M u) o c := by
    intro o c
    unfold ShowsMean
    exact exists_congr fun x => and_congr Iff.rfl (hs o x c)
  refine ⟨fun o x o' c h1 h2 => ?_, fun o x o' h1 h2 => ?_, fun k o o' h1 h2 => ?_⟩
  · obtain ⟨a, b⟩ := R.build o x o' c h1 (by rw [hg]; exact h2)
    exact ⟨a, fun y c' h => (hs _ _ _).1 (b y c' ((hs _ _ _).2 h))⟩
  · obtain ⟨a, b⟩ := R.base o x o' h1 h2
    exact ⟨a, fun c h => (hm _ _).1 (b c ((hs _ _ _).2 h))⟩
  · cases h2
    exact ⟨h1, fun _ h => h⟩

end

/-! ### The property -/

/-- **C98.** With GRAPE, the calls of an optimization are calls of the user's function: each recorded answer is what the function does
with these controls after the earlier calls. -/
theorem C98_calls (h : optimizeGrape w L d = some (.ok r)) (before after : List Seen) (c : Seen) (hc : r.calls = before ++ c :: after) :
    c.2 = w.user before c.1 := by
  obtain ⟨s, cfg, o, h⟩ := grape_parts h
  rw [h.calls] at hc
  obtain ⟨l1, l2, hl, hb, ha⟩ := List.map_eq_append_iff.1 hc
  obtain ⟨k, l3, rfl, rfl, rfl⟩ := List.map_eq_cons_iff.1 ha
  have := execute_answered _ o l1 k l3 hl
  rw [← hb]
  exact this

/-- **C98.** With the entry `max_eval_total = n` (of `algorithm_settings`) GRAPE calls the user's function at most `n` times, whatever
L-BFGS-B asks for. -/
theorem C98_budget (h : optimizeGrape w L d = some (.ok r)) {n : ℤ}
    (hn : entry d ["algorithm_settings", "max_eval_total"] = some (.num n)) : (r.calls.length : ℤ) ≤ max 0 n := by
  obtain ⟨s, cfg, o, h⟩ := grape_parts h
  rw [h.calls, List.length_map]
  have hb := C01_budget cfg (w.env s.vars) (gOps w s) (s.search L s.vars) o
  rw [(grape_cfg h.hcfg).2.2.1] at hb
  have hm := h.uses.core.budget
  unfold setting at hm
  rw [hn] at hm
  rw [hm.int] at hb
  exact hb

/-- **C98.** With the entry `FoM_goal = g`: a call that returns a figure of merit at least as good as `g` (for the direction in the
dictionary) is the last one. -/
theorem C98_goal (h : optimizeGrape w L d = some (.ok r)) {g : ℚ}
    (hg : entry d ["algorithm_settings", "FoM_goal"] = some (.num g)) (before after : List Seen) (c : Seen) (f : ℚ)
    (hc : r.calls = before ++ c :: after) (hf : c.value = some f) (hgood : ¬ BetterFor d g f) : after = [] := by
  obtain ⟨s, cfg, o, h⟩ := grape_parts h
  obtain ⟨hk, _, _, _, hgo, _⟩ := grape_cfg h.hcfg
  rw [h.calls] at hc
  obtain ⟨l1, l2, hl, hb, ha⟩ := List.map_eq_append_iff.1 hc
  obtain ⟨k, l3, rfl, rfl, rfl⟩ := List.map_eq_cons_iff.1 ha
  have hgoal : cfg.userGoal = some g := by
    rw [h.uses.core.goal] at hgo
    unfold setting at hgo
    rw [hg] at hgo
    have : (PVal.num g).goal? = some (some g) := rfl
    rw [Option.getD_some, this] at hgo
    exact (Option.some.inj hgo).symm
  have := C03_goal_stops cfg (w.env s.vars) (gOps w s) (.inl hk)
    (fun h => h) _ h.noDrift o g hgoal l1 l3 k f hl ((seen_value k).symm.trans hf) ?_
  · rw [this]; rfl
  · rw [← h.better] at hgood
    unfold Better at hgood
    unfold AtLeastAsGood
    split at hgood <;> rename_i hm
    · rw [if_pos hm]; exact not_lt.1 hgood
    · rw [if_neg hm]; exact not_lt.1 hgood

/-- **C98.** No call returned a figure of merit that is better, for the direction in the dictionary, than the one GRAPE reports, and the
reported one was returned by a call or is the start value. -/
theorem C98_best (h : optimizeGrape w L d = some (.ok r)) :
    (∀ c ∈ r.calls, ∀ f, c.value = some f → ¬ BetterFor d f r.fom) ∧
    ((∃ c ∈ r.calls, c.value = some r.fom) ∨ IsStart d r.fom) := by
  obtain ⟨s, cfg, o, h⟩ := grape_parts h
  obtain ⟨hk, hmax, _⟩ := grape_cfg h.hcfg
  obtain ⟨e1, _, e2⟩ := C04_best_is_optimum_partial cfg (w.env s.vars) (gOps w s) (.inl hk) (fun h => h) _ h.noDrift o
  refine ⟨fun c hc f hf => ?_, ?_⟩
  · obtain ⟨k, hk, rfl, hv⟩ := h.mem hc
    rw [← h.better, h.fom]
    exact e1 k hk f (hv.trans hf)
  · rcases e2 with e2 | ⟨k, hk, hv⟩
    · exact .inr (by rw [h.fom, e2]; exact h.start.1)
    · refine .inl ⟨(k.ctl, k.ans), ?_, ?_⟩
      · rw [h.calls]; exact List.mem_map.2 ⟨k, hk, rfl⟩
      · rw [h.fom]; exact (seen_value k).trans hv

/-- **C98.** All controls that GRAPE passes to the user's function, and the best controls (also after a failed or interrupted run), fit to
the dictionary. -/
theorem C98_limits (h : optimizeGrape w L d = some (.ok r)) :
    (∀ c ∈ r.calls, FitTo d c.1) ∧ ∀ b, r.best = .ok b → FitTo d b := by
  obtain ⟨s, cfg, o, h⟩ := grape_parts h
  have hb := execute_built (cfg := cfg) (env := w.env s.vars) (grape_reach_kept (M := w.lib.M) (u := w.draws (n := s.vars) 0))
    (s.search L s.vars) (.create h.hcontrols)
  have hA : ∀ {o1 o2 : Controls ℚ} {x : Vec ℚ s.vars} {c : ControlsOut ℚ},
      ControlsReach w.lib.M s.controls.pulses s.controls.times s.controls.params o1 →
      (gOps w s).getControls o1 x = .ok (o2, c) → FitTo d c := by
    intro o1 o2 x c h1 h2
    rw [grape_get] at h2
    exact fits_of_admissible h.uses.controls (delivered_admissible h1 h2)
  refine ⟨fun c hc => ?_, fun b hbest => ?_⟩
  · obtain ⟨k, hk, rfl, _⟩ := h.mem hc
    obtain ⟨o1, o2, h1, h2⟩ := hb.log k hk
    exact hA h1 h2
  · rw [h.best] at hbest
    obtain ⟨x, _, hbest⟩ := py_bind_ok.1 hbest
    obtain ⟨⟨o', c'⟩, hg, hbest⟩ := py_bind_ok.1 hbest
    cases hbest
    exact hA hb.ctl hg

/-- **C98.** If a GRAPE optimization with plain controls raises, then the last call of the user's function raised this exception or
returned no figure of merit; or the user pressed Ctrl-C (`AttributeError`); or no call returned a figure of merit that is better than the
start value, for instance because no call was allowed (`AttributeError`). -/
theorem C98_failures (h : optimizeGrape w L d = some (.ok r)) (hp : PlainControls w.lib d) {e : PyErr} (he : r.ended = .error e) :
    LastCallFailed r.calls e ∨ (e = .attributeError ∧ ∃ n, w.async n = .sigint) ∨ (e = .attributeError ∧ NoneBetter d r.calls) := by
  obtain ⟨s, cfg, o, h⟩ := grape_parts h
  obtain ⟨hk, _⟩ := grape_cfg h.hcfg
  obtain ⟨hu, hf⟩ := usable_controls h.uses.controls hp
  rw [h.ended] at he
  obtain ⟨o', h1, h2⟩ := mkControls_exists (M := w.lib.M) hu
  obtain rfl : o' = o := by rw [h.hcontrols] at h1; cases h1; rfl
  rcases GrapeSound.execute_fails hk (grape_faultless (M := w.lib.M) hu _) (s.search L s.vars) (fun i x sim sg => Minimizer.onlyEvals _ _ _ _) h2 he with
    ⟨before, c, h3, _, h4⟩ | h3 | ⟨h3, h4⟩
  · refine .inl ⟨before.map fun k => (k.ctl, k.ans), (c.ctl, c.ans), ?_, h4⟩
    rw [h.calls, h3, List.map_append]
    rfl
  · exact .inr (.inl h3)
  · exact .inr (.inr ⟨h3, h.nothing h4⟩)

/-- **C98.** A GRAPE optimization with plain controls completes if the user's function always returns a figure of merit, the user does not
press Ctrl-C, and some call returns a figure of merit better than the start value. -/
theorem C98_completes (h : optimizeGrape w L d = some (.ok r)) (hp : PlainControls w.lib d) (ha : w.Answers) (hs : ∀ n, w.async n ≠ .sigint)
    (hb : ¬ NoneBetter d r.calls) : r.ended = .ok () := by
  rcases he : r.ended with e | u
  · rcases C98_failures h hp he with ⟨before, c, h1, h2⟩ | ⟨_, n, h1⟩ | ⟨_, h1⟩
    · obtain ⟨a, f, h3, h4⟩ := ha before c.1
      have := C98_calls h before [] c h1
      rw [h3] at this
      rw [this] at h2
      rcases h2 with h2 | ⟨_, a', h2, h5⟩
      · cases h2
      · cases h2; rw [h4] at h5; cases h5
    · exact absurd h1 (hs n)
    · exact absurd h1 hb
  · rfl

/-- **C98.** A completed GRAPE optimization with plain and standard controls: if the reported figure of merit is not the start value, a
call returned it for exactly the controls that are reported as the best ones. -/
theorem C98_best_controls (h : optimizeGrape w L d = some (.ok r)) (hp : PlainControls w.lib d) (hst : StandardDictionary d)
    (he : r.ended = .ok ()) :
    IsStart d r.fom ∨ ∃ c ∈ r.calls, c.value = some r.fom ∧ r.best = .ok c.1 := by
  obtain ⟨s, cfg, o, h⟩ := grape_parts h
  obtain ⟨hk, hmax, _⟩ := grape_cfg h.hcfg
  obtain ⟨hu, hf⟩ := usable_controls h.uses.controls hp
  have hS : StandardControls w.lib.M s.controls.pulses s.controls.times s.controls.params := by
    refine ⟨fun x hx => ?_, fun x hx => ?_, fun x hx => ?_, hf, fun x hx => ?_⟩
    · obtain ⟨p, hpm, hU⟩ := forall2_mem h.uses.controls.pulses hx
      exact standard_shaping hU (hst.pulses p hpm)
    · obtain ⟨p, hpm, hU⟩ := forall2_mem h.uses.controls.pulses hx
      exact hU.overwrite.2 (hst.pulses p hpm).overwrite
    · obtain ⟨p, hpm, hU⟩ := forall2_mem h.uses.controls.pulses hx
      exact zeroUpdate_usable (hu.pulses x hx) (library_basis hU)
    · obtain ⟨p, hpm, hU⟩ := forall2_mem h.uses.controls.params hx
      exact hst.limits p hpm _ _ hU.lower hU.upper
  obtain ⟨o', h1, h2⟩ := mkControls_exists (M := w.lib.M) hu
  obtain rfl : o' = o := by rw [h.hcontrols] at h1; cases h1; rfl
  rw [h.ended] at he
  have hb := BetweenSI.execute (env := w.env s.vars) (grape_reproducible hS hu (w.draws 0)).repro (.inl hk)
    (by rw [hk]; simp) _ h.noDrift o' h2 () he
  rcases hb.best with e | ⟨k, hk', f, hf', h3, ⟨x, hx, hs⟩, _⟩
  · left
    rw [h.fom]
    unfold finalFoM
    rw [e]
    exact h.start.1
  · refine .inr ⟨(k.ctl, k.ans), ?_, ?_, ?_⟩
    · rw [h.calls]; exact List.mem_map.2 ⟨k, hk', rfl⟩
    · rw [h.fom]
      refine (seen_value k).trans ?_
      unfold finalFoM
      rw [h3, dirMul_dirMul]; exact hf'
    · rw [h.best]
      unfold bestControls
      simp only [hx, bind, Except.bind]
      unfold Shows at hs
      rcases hg : (gOps w s).getControls (grapeRun w L s cfg o').2.ctl x with e | p
      · rw [hg] at hs; cases hs
      · rw [hg] at hs
        exact hs

/-- a pulse with the basis for GRAPE has as many coefficients as bins -/
theorem piecewise_basis {lib : PyLib} {p : PDict} {x : PulseDict ℚ} (h : UsesPulse lib p x) (hp : PiecewisePulse p) :
    x.basis = .piecewise := by
  obtain ⟨s, hs, hB⟩ := h.basis
  have hn := hp.basis
  have hna := hp.noAttribute
  rw [entry_nested hs] at hn hna
  have key : ∀ m c : String, chosen lib "basis" (entry s ["basis_attribute"]) (entry s ["basis_module"]) (entry s ["basis_class"])
      (entry s ["basis_name"]) = some (m, c) → m = "quocslib.pulses.basis.PiecewiseBasis" := by
    intro m c h
    rw [hna, hn] at h
    simp only [chosen, Spec.resolve, Spec.target, Spec.builtin, text] at h
    simp at h
    exact h.2.1.symm
  unfold UsesBasis at hB
  cases hx : x.basis <;> rw [hx] at hB <;> simp only at hB
  case fourier n => obtain ⟨⟨c, hc⟩, _⟩ := hB; exact absurd (key _ _ hc) (by decide)
  case chebyshev n => obtain ⟨⟨c, hc⟩, _⟩ := hB; exact absurd (key _ _ hc) (by decide)
  case sinc n m => obtain ⟨⟨c, hc⟩, _⟩ := hB; exact absurd (key _ _ hc) (by decide)
  case sigmoid n a b => obtain ⟨⟨c, hc⟩, _⟩ := hB; exact absurd (key _ _ hc) (by decide)
  case walsh n => obtain ⟨⟨c, hc⟩, _⟩ := hB; exact absurd (key _ _ hc) (by decide)
  case sigmoidTimeDep => obtain ⟨⟨c, hc⟩, _⟩ := hB; exact absurd (key _ _ hc) (by decide)
  case sigmoidSigmas => obtain ⟨⟨c, hc⟩, _⟩ := hB; exact absurd (key _ _ hc) (by decide)
  case sigmoidAllParas => obtain ⟨⟨c, hc⟩, _⟩ := hB; exact absurd (key _ _ hc) (by decide)

/-- **C98.** With a dictionary of the documented form for GRAPE, with one pulse, which is piecewise constant, and no parameters, the
optimization is carried out: neither the creation nor the preparation of the run raises. -/
theorem C98_runs (hi : Installed w.lib) (h : Documented w.lib "GRAPE" d) (hq : GrapeControls d) :
    ∃ r, optimizeGrape w L d = some (.ok r) := by
  obtain ⟨c, hc, hcl⟩ := C97_accepted hi h
  obtain ⟨s, hs⟩ : ∃ s, c.alg = .grape s := by
    rcases ha : c.alg with s | s | s
    · have := (create_use w.lib hc).alg
      rw [ha] at this hcl
      rcases this.2 with ⟨hk, _⟩ | ⟨hk, _⟩ <;> simp [AlgSettings.className, hk] at hcl
    · exact ⟨s, rfl⟩
    · rw [ha] at hcl
      simp [AlgSettings.className] at hcl
  have hU := (create_use w.lib hc).alg
  rw [hs] at hU
  obtain ⟨a, ha, hA⟩ := h.algorithm
  have ha' : d.get? "algorithm_settings" = some (.dict a) := ha
  obtain ⟨tl, htl⟩ := number_entry (10 ^ 10) hA.timeLimit
  obtain ⟨go, hgo⟩ := goal_entry hA.goal
  have e1 : s.core.totalTimeLim.num? = some tl := by rw [hU.2.core.timeLimit, setting_cons ha']; exact htl
  have e2 : s.core.goal.goal? = some go := by rw [hU.2.core.goal, setting_cons ha']; exact hgo
  obtain ⟨cfg, hcfg⟩ : ∃ cfg, s.cfg = some cfg := by
    unfold GradientSettings.cfg
    simp only [e1, e2, bind, Option.bind_some]
    exact ⟨_, rfl⟩
  obtain ⟨o, ho⟩ := search_controls h hU.2.controls
  unfold optimizeGrape
  rw [hc]
  simp only [hs, hcfg, ho]
  rw [if_pos]
  swap
  · obtain ⟨p, hp, hP⟩ := hq.pulse
    have h1 := hU.2.controls.pulses
    have h2 := hU.2.controls.params
    rw [hp] at h1
    rw [hq.params] at h2
    obtain ⟨x, l, hx, hl, e⟩ := List.forall₂_cons_left_iff.1 h1
    have hl : l = [] := List.forall₂_nil_left_iff.1 hl
    subst hl
    unfold ControlDicts.dim
    rw [e, List.forall₂_nil_left_iff.1 h2]
    simp [basisParams, piecewise_basis hx hP]
  exact ⟨_, rfl⟩

/-! ### A concrete optimization -/

/-- GRAPE with one piecewise constant pulse with three bins between -1 and 2, at most `m` evaluations -/
def exGrapeProgram (m : ℤ) : PDict :=
  exSettings [("algorithm_name", .str "GRAPE"), ("max_eval_total", .num m), ("FoM_goal", .num (1 / 100))]
    [.dict (mkDict [("pulse_name", .str "p"), ("time_name", .str "t"), ("bins_number", .num 3), ("lower_limit", .num (-1)),
      ("upper_limit", .num 2), ("amplitude_variation", .num 1), ("basis", .dict (mkDict [("basis_name", .str "PiecewiseBasis")]))])]
    [] [exTime]

/-- a stand-in for L-BFGS-B: steps along the gradient -/
def exDescent (size : ℚ) {n : ℕ} : ℕ → Vec ℚ n → Minimizer (Vec ℚ n) ℚ
  | 0, _ => .stop
  | k + 1, x => .ask x fun _ g => exDescent size k fun i => x i - size * g i

/-- the gradient of the sum of the squares -/
def exGrapeLib : GrapeLib := { minimize := fun _ _ _ _ _ x => exDescent (1 / 4) 9 x, gradient := fun x i => 2 * x i }

/-- figure of merit and random numbers of the example -/
def exGrapeAround : Surroundings := { exAround 0 with draws := fun _ i => 1 / (2 + i.val) }

/-- Three evaluations are allowed: all of them are used, and the best value is the last one. -/
theorem exGrapeProgram_uses_budget : shownOf (optimizeGrape exGrapeAround exGrapeLib (exGrapeProgram 3)) =
    some (3, true, [some (13 / 36), some (13 / 144), some (13 / 576)], 13 / 576, true) := by decide +kernel

/-- With more evaluations the fourth one reaches the goal and is the last one, although the search would go on. -/
theorem exGrapeProgram_reaches_goal : shownOf (optimizeGrape exGrapeAround exGrapeLib (exGrapeProgram 50)) =
    some (4, true, [some (13 / 36), some (13 / 144), some (13 / 576), some (13 / 2304)], 13 / 2304, true) := by decide +kernel

/-- Without an allowed evaluation the optimization fails (the last case of `C98_failures`). -/
example : shownOf (optimizeGrape exGrapeAround exGrapeLib (exGrapeProgram 0)) = some (0, false, [], 10 ^ 10, true) := by decide +kernel

theorem exGrapeProgram_plain (m : ℤ) : PlainControls exLib (exGrapeProgram m) ∧ StandardDictionary (exGrapeProgram m) ∧
    GrapeControls (exGrapeProgram m) ∧ ¬ Maximizes (exGrapeProgram m) ∧
    entry (exGrapeProgram m) ["algorithm_settings", "max_eval_total"] = some (.num m) ∧
    entry (exGrapeProgram m) ["algorithm_settings", "FoM_goal"] = some (.num (1 / 100)) := by
  have hp : itemsAt (exGrapeProgram m) "pulses" = [mkDict [("pulse_name", .str "p"), ("time_name", .str "t"), ("bins_number", .num 3),
      ("lower_limit", .num (-1)), ("upper_limit", .num 2), ("amplitude_variation", .num 1),
      ("basis", .dict (mkDict [("basis_name", .str "PiecewiseBasis")]))]] := rfl
  have ht : itemsAt (exGrapeProgram m) "times" = [mkDict [("time_name", .str "t"), ("initial_value", .num 3)]] := rfl
  have hq : itemsAt (exGrapeProgram m) "parameters" = [] := rfl
  refine ⟨⟨.inl (by rw [hp]; simp), fun p h => ?_, fun t h => ?_⟩, ⟨fun p h => ?_, fun p h => ?_⟩, ⟨⟨_, hp, rfl, rfl⟩, hq⟩, ?_, rfl, rfl⟩
  · rw [hp, List.mem_singleton] at h
    subst h
    refine ⟨⟨3, by norm_num, rfl, ⟨_, .inl ⟨.inl rfl, rfl⟩⟩, ⟨_, .inl ⟨.inl rfl, rfl⟩⟩⟩, ⟨1, le_refl _, rfl⟩, ?_⟩
    rw [ht]
    exact ⟨_, List.mem_singleton.2 rfl, rfl⟩
  · rw [ht, List.mem_singleton] at h
    subst h
    exact .inr (.inl rfl)
  · rw [hp, List.mem_singleton] at h
    subst h
    exact ⟨.inl (.inl rfl), .inr (.inl rfl)⟩
  · rw [hq] at h; cases h
  · intro h
    have : setting (exGrapeProgram m) ["algorithm_settings", "optimization_direction"] (.str "minimization") = .str "minimization" := rfl
    unfold Maximizes at h
    rw [this] at h
    simp [PVal.str] at h

theorem exGrapeProgram_documented (m : ℤ) : Documented exLib "GRAPE" (exGrapeProgram m) where
  algorithm := by
    refine ⟨_, rfl, by simp, ⟨.inl rfl, rfl⟩, ?_, doc_numbers (ks := ["max_eval_total"]) rfl _ (by simp),
      doc_numbers (ks := ["total_time_lim"]) rfl _ (by simp), .inr (doc_numbers (ks := ["FoM_goal"]) rfl _ (by simp)),
      doc_numbers (ks := ["super_iteration_number"]) rfl _ (by simp), ?_, fun h => by simp at h, fun h => by simp at h, ?_⟩
    · intro v hv; cases hv
    · intro v hv; cases hv
    · intro _ v hv; cases hv
  pulses := by
    refine ⟨[_], rfl, fun p hp => ?_⟩
    rw [List.mem_singleton] at hp
    subst hp
    refine ⟨⟨_, rfl⟩, ?_, ⟨3, by norm_num, rfl⟩, doc_numbers rfl, ⟨"PiecewiseBasis", ⟨_, rfl, ?_⟩, fun _ h => by cases h⟩, .inl (.inl rfl),
      .inl (.inl rfl), .inl (.inl rfl), ?_⟩
    · intro v hv; cases hv; exact ⟨_, rfl⟩
    · exact ⟨by simp, ⟨.inl rfl, rfl⟩, ⟨1, le_refl _, rfl⟩, doc_numbers rfl, fun h => by simp at h⟩
    · decide
  params := ⟨[], rfl, fun p hp => by cases hp⟩
  times := by
    refine ⟨[_], rfl, fun p hp => ?_⟩
    rw [List.mem_singleton] at hp
    subst hp
    exact doc_exTime
  grape := fun _ h => by cases h

/-- The theorems above apply to this dictionary with any L-BFGS-B and any budget: the optimization is carried out, and if its first
call, and so the best one, is below the start value, it completes. -/
example (L : GrapeLib) (m : ℤ) : ∃ r, optimizeGrape exGrapeAround L (exGrapeProgram m) = some (.ok r) ∧
    (r.calls.length : ℤ) ≤ max 0 m ∧ (¬ NoneBetter (exGrapeProgram m) r.calls → r.ended = .ok ()) := by
  obtain ⟨h1, h2, h3, _, h4, _⟩ := exGrapeProgram_plain m
  obtain ⟨r, hr⟩ := C98_runs (w := exGrapeAround) (L := L) exLib_installed (exGrapeProgram_documented m) h3
  exact ⟨r, hr, C98_budget hr h4, C98_completes hr h1 (fun h c => ⟨_, _, rfl, rfl⟩) (fun n => by simp [exGrapeAround, exAround])⟩

end QuOCS

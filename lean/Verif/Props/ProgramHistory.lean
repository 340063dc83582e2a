/-
C109 for whole optimizations, from the dictionary: the lists of figures of merit and iteration numbers the user reads from the algorithm
object, and what a graphical interface is told.
-/
import Verif.Props.History
import Verif.Props.ProgramAD
set_option linter.unusedSectionVars false
set_option linter.unusedVariables false

namespace QuOCS

/-- The value a plot is told: for a maximization the negative of the value of the user's function. -/
def PlotSign (d : PDict) (sign : ℚ → ℚ) : Prop := (Maximizes d → ∀ f, sign f = -f) ∧ (¬ Maximizes d → ∀ f, sign f = f)

/-- What a graphical interface was told about the calls: the controls before each call, number and value after each usable call, and at
most the controls of one more point. -/
def ToldOf (d : PDict) (calls : List Seen) (told : List (Signal (ControlsOut ℚ) ℚ)) : Prop :=
  ∃ sign t, PlotSign d sign ∧ told = signalsOf sign 0 calls ++ t ∧ (t = [] ∨ ∃ c, t = [.controls c])

theorem plotSign_of {d : PDict} {b : Bool} (h : b = true ↔ Maximizes d) : PlotSign d (inSign b) := by
  refine ⟨fun hm f => ?_, fun hm f => ?_⟩
  · rw [h.2 hm]; rfl
  · have : b = false := by rcases b with _ | _ <;> simp_all
    rw [this]; rfl

theorem usable_value {c : Seen} {f : ℚ} (h : usable c = some f) : c.value = some f := by
  unfold usable at h
  unfold Seen.value
  rcases c with ⟨x, e | a⟩
  · cases h
  · dsimp only at h ⊢
    split at h
    · exact h
    · cases h

variable {w : Surroundings} {d : PDict} {r : Outcome}

/-- **C109.** For any dictionary, figure of merit, clock and stop requests: the list of iteration numbers has the numbers of the calls that
returned a value with status code zero, counted from one. -/
theorem C109_program_numbers (h : optimize w d = some (.ok r)) : r.numbers = usableNumbers 0 r.calls := by
  obtain ⟨s, cfg, dsm, o, hp⟩ := optimize_parts h
  rw [hp.numbers, hp.calls]
  exact C109_iteration_numbers _ _ _ dsm o

/-- **C109.** There is one figure of merit in the list for each of these calls. -/
theorem C109_program_length (h : optimize w d = some (.ok r)) : r.foms.length = (r.calls.filterMap usable).length := by
  obtain ⟨s, cfg, dsm, o, hp⟩ := optimize_parts h
  rw [hp.foms, hp.calls]
  exact C109_fom_list_length _ _ _ dsm o

/-- **C109.** Without repeated measurements the list of figures of merit has the values of these calls in order, and a graphical interface is
told the controls of each call and the number and value of each of these calls. -/
theorem C109_program_partial (h : optimize w d = some (.ok r)) (hs : SingleMeasurements d) :
    r.foms = r.calls.filterMap usable ∧ ToldOf d r.calls r.told := by
  obtain ⟨s, cfg, dsm, o, hp⟩ := optimize_parts h
  have hr := (hp.single hs).1
  refine ⟨?_, ?_⟩
  · rw [hp.foms, hp.calls]
    exact C109_fom_list_partial _ _ _ (.inl hr) dsm o
  · obtain ⟨t, h1, h2⟩ := C109_signals (cfg := cfg) (env := w.env s.vars) (ops := systemOps cfg.kind w.lib.M w.sqrt w.rnd w.draws) (.inr hr) dsm o
    refine ⟨inSign cfg.maximize, t, plotSign_of hp.maximize, ?_, h2⟩
    rw [hp.told, hp.calls]
    exact h1

/-- **C109.** Then no figure of merit in the list is better than the one reported. -/
theorem C109_program_best (h : optimize w d = some (.ok r)) (hs : SingleMeasurements d) : ∀ f ∈ r.foms, ¬ BetterFor d f r.fom := by
  intro f hf
  rw [(C109_program_partial h hs).1] at hf
  obtain ⟨c, hc, hu⟩ := List.mem_filterMap.1 hf
  exact (C96_best h hs).1 c hc f (usable_value hu)

/-- **C109 (GRAPE).** -/
theorem C109_program_grape {L : GrapeLib} (h : optimizeGrape w L d = some (.ok r)) :
    r.numbers = usableNumbers 0 r.calls ∧ r.foms = r.calls.filterMap usable ∧ ToldOf d r.calls r.told := by
  obtain ⟨s, cfg, o, hp⟩ := grape_parts h
  have hk := (grape_cfg hp.hcfg).1
  refine ⟨?_, ?_, ?_⟩
  · rw [hp.numbers, hp.calls]
    exact C109_iteration_numbers _ _ _ (s.search L s.vars) o
  · rw [hp.foms, hp.calls]
    exact C109_fom_list_partial _ _ _ (.inr hk) (s.search L s.vars) o
  · obtain ⟨t, h1, h2⟩ := C109_signals (cfg := cfg) (env := w.env s.vars) (ops := gOps w s) (.inl (by rw [hk]; decide))
      (s.search L s.vars) o
    refine ⟨inSign cfg.maximize, t, plotSign_of hp.maximize, ?_, h2⟩
    rw [hp.told, hp.calls]
    exact h1

/-- the calls for values of a run with automatic differentiation -/
theorem AdParts.values {L : AdProgramLib} {r : AdOutcome} {s : GradientSettings} {cfg : AlgCfg ℚ ℚ} {o : Controls ℚ}
    (h : AdParts w L d r s cfg o) :
    r.evaluations = (valueCalls (adRun w L s cfg o).2.gradAt (adRun w L s cfg o).2.alg.log).map Call.seen := by
  unfold AdOutcome.evaluations valueCalls
  rw [h.calls]
  unfold AdState.calls
  rw [List.filter_map, List.map_map, List.map_map]
  congr 1
  refine List.filter_congr fun k _ => ?_
  simp

/-- **C109 (automatic differentiation).** The calls for gradients leave no trace. -/
theorem C109_program_ad {L : AdProgramLib} {r : AdOutcome} (h : optimizeAD w L d = some (.ok r)) :
    r.numbers = usableNumbers 0 r.evaluations ∧ r.foms = r.evaluations.filterMap usable ∧ ToldOf d r.evaluations r.told := by
  obtain ⟨s, cfg, o, hp⟩ := ad_parts h
  obtain ⟨h1, h2, t, h3, h4⟩ := C109_ad (cfg := cfg) (env := w.env s.vars) (ops := aOps w s) (s.adLib w L s.vars) o
  rw [hp.values, hp.numbers, hp.foms, hp.told]
  exact ⟨h1, h2, inSign cfg.maximize, t, plotSign_of hp.maximize, h3, h4⟩

/-- what is checked in the examples: the lists, and the plotted values -/
def listsOf (r : Option (Py Outcome)) : Option (List ℚ × List ℕ × List (ℕ × ℚ) × ℕ) :=
  match r with
  | some (.ok r) => some (r.foms, r.numbers, r.told.filterMap Signal.plotted?, r.told.length)
  | _ => none

/-- The maximization of a sum of squares: the values are listed as the user's function returned them, and plotted with the other sign. -/
example : listsOf (optimize (exAround 0) exProgram) =
    some ([0, 75 / 49, 300 / 49, 12, 12], [1, 2, 3, 4, 5], [(1, 0), (2, -75 / 49), (3, -300 / 49), (4, -12), (5, -12)], 10) := by
  decide +kernel

/-- A minimization with GRAPE. -/
example : listsOf (optimizeGrape exGrapeAround exGrapeLib (exGrapeProgram 3)) =
    some ([13 / 36, 13 / 144, 13 / 576], [1, 2, 3], [(1, 13 / 36), (2, 13 / 144), (3, 13 / 576)], 6) := by decide +kernel

/-- the same for automatic differentiation -/
def adListsOf (r : Option (Py AdOutcome)) : Option (List Bool × List ℚ × List ℕ × List (ℕ × ℚ) × ℕ) :=
  match r with
  | some (.ok r) => some (r.calls.map (·.forGradient), r.foms, r.numbers, r.told.filterMap Signal.plotted?, r.told.length)
  | _ => none

set_option synthInstance.maxSize 1000 in
/-- Automatic differentiation with two evaluations: the calls for gradients are not listed. -/
example : adListsOf (optimizeAD exGrapeAround exAdLib (exAdProgram 2)) =
    some ([false, true, false, true, true, true], [1049 / 900, 1049 / 3600], [1, 2], [(1, 1049 / 900), (2, 1049 / 3600)], 4) := by
  decide +kernel

end QuOCS

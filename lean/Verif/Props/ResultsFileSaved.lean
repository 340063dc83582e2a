/-
C110: saving the best controls never fails, in any optimization, also with re-evaluation and drift compensation.
-/
import Verif.Props.ResultsFileAD
import Verif.Props.ProgramMean

set_option linter.unusedSectionVars false
set_option linter.unusedVariables false

namespace QuOCS

/-! ### Proof -/

/-- Controls for which there are names. -/
def NamedBy (pn qn : List String) (c : ControlsOut ℚ) : Prop :=
  c.pulses.length = pn.length ∧ c.timegrids.length = pn.length ∧ c.parameters.length = qn.length

section
variable {kind : AlgKind} {fmt : PVal} {core : CoreSettings} {pn qn : List String}

/-- The report of a record without controls. -/
theorem save_empty (hP : core.pulseNames.mapM nameKey = .ok pn) (hQ : core.paramNames.mapM nameKey = .ok qn) (old : Option ResultsDict)
    (f : ℚ) (k m : ℕ) : ∃ file, saveReport kind fmt core old ⟨none, true, f, k, m⟩ = .ok (some file) := by
  have e : ∀ a b : Option (List String), dumpDict ([] : List Stored) [] [] a b (reportEntries kind core f k) =
      .ok (dictMerge [] (reportEntries kind core f k)) := fun a b => rfl
  unfold saveReport
  rw [hP, hQ]
  simp only [bind, Except.bind, Option.getD_none, dumpControlsFile, Bool.not_true, Bool.false_eq_true, if_false, List.map_nil, e]
  refine ⟨_, if_neg ?_⟩
  rw [Bool.and_eq_true]
  rintro ⟨_, h⟩
  revert h
  unfold reportEntries
  split
  · simp [dictMerge, dictSet, dictHas]
  · simp [dictMerge, dictSet, dictHas]

theorem save_any (hP : core.pulseNames.mapM nameKey = .ok pn) (hQ : core.paramNames.mapM nameKey = .ok qn) (hn : DistinctNames pn qn)
    (old : Option ResultsDict) {r : DumpCall (ControlsOut ℚ) ℚ} (hr : ∀ c, r.ctl = some c → NamedBy pn qn c) :
    ∃ file, saveReport kind fmt core old r = .ok file := by
  obtain ⟨ctl, rec, f, k, m⟩ := r
  rcases rec
  · refine ⟨old, ?_⟩
    unfold saveReport
    rw [hP, hQ]
    rfl
  · rcases ctl with _ | c
    · obtain ⟨t, e⟩ := save_empty (kind := kind) (fmt := fmt) hP hQ old f k m
      exact ⟨_, e⟩
    · obtain ⟨h1, h2, h3⟩ := hr c rfl
      obtain ⟨t, e, _⟩ := save_record (kind := kind) (fmt := fmt) hP hQ hn old h1 h2 h3 f k m
      exact ⟨_, e⟩

theorem file_any (hP : core.pulseNames.mapM nameKey = .ok pn) (hQ : core.paramNames.mapM nameKey = .ok qn) (hn : DistinctNames pn qn)
    (l : List (DumpCall (ControlsOut ℚ) ℚ)) (hl : ∀ r ∈ l, ∀ c, r.ctl = some c → NamedBy pn qn c) :
    ∃ file, resultsFile kind fmt core l = .ok file := by
  unfold resultsFile
  generalize (none : Option ResultsDict) = old
  induction l generalizing old with
  | nil => exact ⟨old, rfl⟩
  | cons r l ih =>
    obtain ⟨t, e⟩ := save_any (kind := kind) (fmt := fmt) hP hQ hn old (hl r List.mem_cons_self)
    rw [List.foldlM_cons, e]
    exact ih (fun r hr => hl r (List.mem_cons_of_mem _ hr)) t

end

variable {w : Surroundings} {d : PDict} {r : Outcome} {pn qn : List String}

theorem named_admissible {lib : PyLib} {x : ControlDicts} (hx : UsesControls lib d x) (hN : Named d pn qn) {c : ControlsOut ℚ}
    (h : Admissible x.pulses x.times x.params c) : NamedBy pn qn c := by
  have e1 : x.pulses.length = pn.length := hx.pulses.length_eq.symm.trans hN.pulses.length_eq
  have e2 : x.params.length = qn.length := hx.params.length_eq.symm.trans hN.params.length_eq
  have hn := h.number
  exact ⟨hn.1.trans e1, hn.2.1.trans e1, hn.2.2.trans e2⟩

/-- **C110.** In every optimization whose pulses and parameters have different names, also with re-evaluation and drift compensation and however it ends, every
report could be saved. -/
theorem C110_saved (h : optimize w d = some (.ok r)) (hN : Named d pn qn) (hD : DistinctNames pn qn) (n : ℕ) : ∃ file, r.saved n = .ok file := by
  obtain ⟨s, cfg, dsm, o, h⟩ := optimize_parts h
  obtain ⟨c, hc, ha, hsv⟩ := h.saved
  have hcore : UsesCore w.lib d s.core := by
    rcases h.search with ⟨_, h⟩ | ⟨_, h⟩ <;> exact h.core
  have hb := execute_built (cfg := cfg) (env := w.env s.vars)
    (system_reach_kept (kind := cfg.kind) (M := w.lib.M) (sqrt := w.sqrt) (rnd := w.rnd) (draws := w.draws)) dsm (.create h.hcontrols)
  rw [hsv n]
  refine file_any (names_ok hcore.pulseNames hN.pulses) (names_ok hcore.paramNames hN.params) hD _ fun k hk c hc => ?_
  obtain ⟨x, o1, o2, h1, h2⟩ := hb.dumps k (List.mem_filter.1 hk).1 c hc
  obtain ⟨r, hr, h2⟩ := py_bind_ok.1 h2
  split at h2
  · cases h2
  · cases h2
    exact named_admissible h.usesControls hN (delivered_admissible h1 hr)

/-- **C110 (GRAPE).** -/
theorem C110_saved_grape {L : GrapeLib} (h : optimizeGrape w L d = some (.ok r)) (hN : Named d pn qn) (hD : DistinctNames pn qn) (n : ℕ) :
    ∃ file, r.saved n = .ok file := by
  obtain ⟨file, e, _⟩ := C110_file_grape h hN hD n
  exact ⟨file, e⟩

/-- **C110 (C96_completes, with saving).** The program completes, and nothing that is written to the file of the best controls makes it fail. -/
theorem C110_completes (h : optimize w d = some (.ok r)) (hp : PlainControls w.lib d) (hs : SingleMeasurements d) (hm : UsablePopulation d)
    (hb : BuildsControls d) (ha : w.Answers) (hr : w.Draws d) (hl : w.Log) (hN : Named d pn qn) (hD : DistinctNames pn qn) :
    r.ended = .ok () ∧ ∀ n, ∃ file, r.saved n = .ok file :=
  ⟨C96_completes h hp hs hm hb ha hr hl, C110_saved h hN hD⟩

/-- **C110 (C96_completes_repeated, with saving).** -/
theorem C110_completes_repeated (h : optimize w d = some (.ok r)) (hp : PlainControls w.lib d) (hs : HasSteps w.lib d)
    (hav : AveragesSomething d) (hm : UsablePopulation d) (hb : BuildsControls d) (ha : w.Answers) (hr : w.Draws d) (hl : w.Log)
    (hc : r.calls ≠ []) (hN : Named d pn qn) (hD : DistinctNames pn qn) : r.ended = .ok () ∧ ∀ n, ∃ file, r.saved n = .ok file :=
  ⟨C96_completes_repeated h hp hs hav hm hb ha hr hl hc, C110_saved h hN hD⟩

/-- **C110 (C98_completes, with saving).** -/
theorem C110_completes_grape {L : GrapeLib} (h : optimizeGrape w L d = some (.ok r)) (hp : PlainControls w.lib d) (ha : w.Answers)
    (hs : ∀ n, w.async n ≠ .sigint) (hb : ¬ NoneBetter d r.calls) (hN : Named d pn qn) (hD : DistinctNames pn qn) :
    r.ended = .ok () ∧ ∀ n, ∃ file, r.saved n = .ok file :=
  ⟨C98_completes h hp ha hs hb, C110_saved_grape h hN hD⟩

/-- **C110 (C99_completes, with saving).** Missing: the format `json`, with which saving fails (`C110_json_ad`). -/
theorem C110_completes_ad_partial {L : AdProgramLib} {r : AdOutcome} (h : optimizeAD w L d = some (.ok r)) (hp : PlainControls w.lib d) (hd : w.Draws d)
    (ha : w.Answers) (hs : ∀ n, w.async n ≠ .sigint) (hb : ¬ NoneBetter d r.evaluations) (hN : Named d pn qn) (hD : DistinctNames pn qn)
    (hj : setting d ["dump_format"] (.str "npz") ≠ .str "json") : r.ended = .ok () ∧ ∀ n, ∃ file, r.saved n = .ok file :=
  ⟨C99_completes h hp hd ha hs hb, fun n => by
    obtain ⟨file, e, _⟩ := C110_file_ad_partial h hp hd hN hD hj n
    exact ⟨file, e⟩⟩

/-! ### Examples -/

/-- The hypotheses of `C110_saved` are met with re-evaluation steps in the dictionary, too. -/
example (alg : List (String × PVal)) : Named (exSettings alg [exPulse (exBasis "Fourier" []) [("bins_number", .num 5)]] [exParam []] [exTime]) ["p"] ["a"] :=
  ⟨.cons rfl .nil, .cons rfl .nil⟩

end QuOCS

/-
C110 for automatic differentiation.
-/
import Verif.Lemmas.ReportsAD
import Verif.Props.ResultsFile

set_option linter.unusedSectionVars false
set_option linter.unusedVariables false

namespace QuOCS

/-! ### Proof -/

section
variable {fmt : PVal} {core : CoreSettings}

/-- The number of calls at a report does not matter. -/
theorem file_byNumber (l : List (DumpCall (ControlsOut ℚ) ℚ)) : resultsFileAD fmt core (l.map byNumber) = resultsFileAD fmt core l := by
  unfold resultsFileAD
  generalize (none : Option ResultsDict) = old
  induction l generalizing old with
  | nil => rfl
  | cons r l ih =>
    rw [List.map_cons, List.foldlM_cons, List.foldlM_cons]
    have e : saveReportAD fmt core old (byNumber r) = saveReportAD fmt core old r := rfl
    rw [e]
    congr 1
    funext t
    exact ih t

theorem filter_byNumber (n : ℕ) (l : List (DumpCall (ControlsOut ℚ) ℚ)) :
    (l.filter fun k => k.iteration ≤ n).map byNumber = (l.map byNumber).filter fun k => k.calls ≤ n := by
  rw [List.filter_map]
  rfl

/-- Without the format `json` the files are as with the other algorithms. -/
theorem file_npz (hj : strOpt (some fmt) ≠ some "json") (l : List (DumpCall (ControlsOut ℚ) ℚ)) :
    resultsFileAD fmt core l = resultsFile .grape fmt core l := by
  unfold resultsFileAD resultsFile
  congr 1
  funext old r
  unfold saveReportAD
  simp only [hj, false_and, if_false]
  rcases saveReport .grape fmt core old r with e | t <;> rfl

theorem save_not_record {kind : AlgKind} {old file : Option ResultsDict} {r : DumpCall (ControlsOut ℚ) ℚ} (hr : r.isRecord = false)
    (h : saveReport kind fmt core old r = .ok file) : file = old := by
  unfold saveReport at h
  obtain ⟨pn, _, h⟩ := py_bind_ok.1 h
  obtain ⟨qn, _, h⟩ := py_bind_ok.1 h
  unfold dumpControlsFile at h
  rw [hr] at h
  simp at h
  exact h.symm

/-- With the format `json` saving the first record fails. -/
theorem file_json (hj : strOpt (some fmt) = some "json") (l : List (DumpCall (ControlsOut ℚ) ℚ))
    (hl : ∀ r ∈ l, ∃ c, r.ctl = some c ∧ (c.pulses ≠ [] ∨ c.parameters ≠ [])) {old file : Option ResultsDict}
    (h : l.foldlM (saveReport .grape fmt core) old = .ok file) :
    file = old ∨ l.foldlM (saveReportAD fmt core) old = .error .typeError := by
  induction l generalizing old with
  | nil => cases h; exact .inl rfl
  | cons r l ih =>
    rw [List.foldlM_cons] at h
    obtain ⟨t, h1, h2⟩ := py_bind_ok.1 h
    obtain ⟨c, hc, hne⟩ := hl r List.mem_cons_self
    rw [List.foldlM_cons]
    have e : saveReportAD fmt core old r = if r.isRecord then .error .typeError else .ok t := by
      unfold saveReportAD
      rw [h1, hc]
      simp only [hj, hne, bind, Except.bind, Option.getD_some, true_and, and_true]
    by_cases hr : r.isRecord = true
    · rw [e, if_pos hr]; exact .inr rfl
    · rw [e, if_neg hr]
      have := save_not_record (by simpa using hr) h1
      subst this
      exact ih (fun r hr => hl r (List.mem_cons_of_mem _ hr)) h2

end

theorem reportsOf_controls {C F G : Type} [LT G] [DecidableLT G] (sign : F → G) (b : G) (k : ℕ) (l : List (C × Py (Answer F))) :
    ∀ r ∈ reportsOf sign b k l, ∃ c ∈ l, r.ctl = some c.1 := by
  induction l generalizing b k with
  | nil => simp [reportsOf]
  | cons a l ih =>
    intro r hr
    rw [reportsOf, List.mem_append] at hr
    rcases hr with hr | hr
    · obtain ⟨f, _, rfl⟩ := List.mem_map.1 hr
      exact ⟨a, List.mem_cons_self, rfl⟩
    · obtain ⟨c, hc, e⟩ := ih _ _ r hr
      exact ⟨c, List.mem_cons_of_mem _ hc, e⟩

variable {w : Surroundings} {L : AdProgramLib} {d : PDict} {r : AdOutcome} {pn qn : List String}

/-- The numbers of pulses, time grids and parameters of the calls. -/
theorem ad_numbers (h : optimizeAD w L d = some (.ok r)) (hp : PlainControls w.lib d) (hd : w.Draws d) :
    ∀ c ∈ r.evaluations, c.1.pulses.length = (itemsAt d "pulses").length ∧ c.1.timegrids.length = (itemsAt d "pulses").length ∧
      c.1.parameters.length = (itemsAt d "parameters").length := by
  obtain ⟨x, hx, hA⟩ := ad_controls h hp hd
  intro c hc
  have hall : c ∈ r.all := by
    unfold AdOutcome.evaluations at hc
    obtain ⟨k, hk, rfl⟩ := List.mem_map.1 hc
    exact List.mem_map_of_mem (List.mem_filter.1 hk).1
  obtain ⟨c0, _, ⟨_, ⟨n, _, _, e1, e2⟩, e3⟩, _, ha⟩ := hA c.1 (.inl (List.mem_map_of_mem hall))
  have hn := ha.number
  rw [e1, e2, e3, List.length_map, List.length_map, hx.pulses.length_eq, hx.params.length_eq]
  exact hn

/-- What is common to the two formats. -/
theorem ad_file (h : optimizeAD w L d = some (.ok r)) (hp : PlainControls w.lib d) (hd : w.Draws d) (hN : Named d pn qn) (hD : DistinctNames pn qn) (n : ℕ) :
    ∃ fmt core m file, fmt = setting d ["dump_format"] (.str "npz") ∧ (m = true ↔ Maximizes d) ∧
      r.saved n = resultsFileAD fmt core (reportsOf (inSign m) (10 ^ 10) 0 (r.evaluations.take n)) ∧
      resultsFile .grape fmt core (reportsOf (inSign m) (10 ^ 10) 0 (r.evaluations.take n)) = .ok file ∧
      ShowsBest d pn qn (r.evaluations.take n) file := by
  have hlen := ad_numbers h hp hd
  obtain ⟨s, cfg, o, h⟩ := ad_parts h
  obtain ⟨c, hc, ha, hsv⟩ := h.saved
  have hcore : UsesCore w.lib d s.core := h.uses.core
  have hrep := adExecute_reports (cfg := cfg) (env := w.env s.vars) (ops := aOps w s) (s.adLib w L s.vars) o
  unfold AdReported at hrep
  obtain ⟨file, a, b⟩ := file_best (kind := .grape) (fmt := c.dumpFormat) (names_ok hcore.pulseNames hN.pulses) (names_ok hcore.paramNames hN.params) hD
    (inSign cfg.maximize) (10 ^ 10) (r.evaluations.take n) fun c hc => by
      rw [← hN.pulses.length_eq, ← hN.params.length_eq]
      exact hlen c (List.mem_of_mem_take hc)
  refine ⟨c.dumpFormat, s.core, cfg.maximize, file, (create_use w.lib hc).dumpFormat, h.maximize, ?_, a, b.shows h.maximize⟩
  rw [hsv n, ← file_byNumber, filter_byNumber]
  rw [show (adRun w L s cfg o).2.alg.dumps.map byNumber = _ from hrep, h.values]
  have e : (adCfg cfg).fomMax = 10 ^ 10 := (ad_cfg h.hcfg).2.1
  rw [e]
  have := reportsOf_take (sign := inSign (adCfg cfg).maximize) (10 ^ 10 : ℚ) 0 n
    ((valueCalls (adRun w L s cfg o).2.gradAt (adRun w L s cfg o).2.alg.log).map Call.seen)
  rw [Nat.zero_add] at this
  rw [this]
  rfl

/-- **C110 (automatic differentiation).** With another format than `json`; `n` is the number of calls that were made for a figure of merit. -/
theorem C110_file_ad_partial (h : optimizeAD w L d = some (.ok r)) (hp : PlainControls w.lib d) (hd : w.Draws d) (hN : Named d pn qn) (hD : DistinctNames pn qn)
    (hj : setting d ["dump_format"] (.str "npz") ≠ .str "json") (n : ℕ) :
    ∃ file, r.saved n = .ok file ∧ ShowsBest d pn qn (r.evaluations.take n) file := by
  obtain ⟨fmt, core, m, file, e1, hm, e2, e3, e4⟩ := ad_file h hp hd hN hD n
  refine ⟨file, ?_, e4⟩
  rw [e2, file_npz, e3]
  rw [e1]
  intro hbad
  refine hj ?_
  generalize setting d ["dump_format"] (.str "npz") = v at hbad
  revert hbad
  unfold strOpt
  split
  · rename_i s hs
    intro h
    cases h
    cases hs
    rfl
  · intro h; cases h

/-- **C110 (automatic differentiation).** -/
theorem C110_final_ad_partial (h : optimizeAD w L d = some (.ok r)) (hp : PlainControls w.lib d) (hd : w.Draws d) (hN : Named d pn qn) (hD : DistinctNames pn qn)
    (hj : setting d ["dump_format"] (.str "npz") ≠ .str "json") (ha : ∀ c ∈ r.evaluations, c.value = usable c) :
    ∃ file, r.saved r.evaluations.length = .ok file ∧ (file = none → IsStart d r.fom) ∧
      ∀ t, file = some t → ∃ f, t.lookup "FoM" = some (.num f) ∧ (Maximizes d → f = -r.fom) ∧ (¬ Maximizes d → f = r.fom) := by
  obtain ⟨file, h1, h2⟩ := C110_file_ad_partial h hp hd hN hD hj r.evaluations.length
  rw [List.take_length] at h2
  refine ⟨file, h1, file_final (C99_best h).1 (C99_best h).2 (fun b hb => ?_) ha h2⟩
  obtain ⟨s, cfg, o, h⟩ := ad_parts h
  rw [← h.better, h.start.2 b hb, h.fom]
  unfold finalFoM
  rw [← dirMul_lt, dirMul_dirMul, dirMul_dirMul]
  exact not_lt.2 h.inv.init

/-- **C110 is violated with automatic differentiation and the format `json`.** The first call with a value better than the start value makes the program
fail with `TypeError` when its controls are to be saved. -/
theorem C110_json_ad (h : optimizeAD w L d = some (.ok r)) (hp : PlainControls w.lib d) (hd : w.Draws d) (hN : Named d pn qn) (hD : DistinctNames pn qn)
    (hj : setting d ["dump_format"] (.str "npz") = .str "json") (hne : itemsAt d "pulses" ≠ [] ∨ itemsAt d "parameters" ≠ []) {n : ℕ} {c : Seen} {v b : ℚ}
    (hc : c ∈ r.evaluations.take n) (hv : usable c = some v) (hb : IsStart d b) (hlt : BetterFor d v b) :
    r.saved n = .error .typeError := by
  have hlen := ad_numbers h hp hd
  obtain ⟨fmt, core, m, file, e1, hm, e2, e3, e4⟩ := ad_file h hp hd hN hD n
  rw [hj] at e1
  subst e1
  have := file_json (fmt := .str "json") (core := core) rfl (reportsOf (inSign m) (10 ^ 10) 0 (r.evaluations.take n)) (fun k hk => by
    obtain ⟨c, hc, e⟩ := reportsOf_controls _ _ _ _ k hk
    obtain ⟨l1, _, l3⟩ := hlen c (List.mem_of_mem_take hc)
    refine ⟨c.1, e, ?_⟩
    rcases hne with h | h
    · left; intro h0; rw [h0] at l1; exact h (List.length_eq_zero_iff.1 l1.symm)
    · right; intro h0; rw [h0] at l3; exact h (List.length_eq_zero_iff.1 l3.symm)) e3
  rcases this with rfl | h
  · exact absurd hlt (e4 c hc v hv b hb)
  · rw [e2]; exact h

/-! ### Examples -/

example (m : ℤ) : Named (exAdProgram m) ["p", "q"] [] := ⟨.cons rfl (.cons rfl .nil), .nil⟩
example : DistinctNames ["p", "q"] [] := by unfold DistinctNames; decide
example (m : ℤ) : setting (exAdProgram m) ["dump_format"] (.str "npz") ≠ .str "json" := by
  have : setting (exAdProgram m) ["dump_format"] (.str "npz") = .str "npz" := rfl
  rw [this]
  intro h
  have : "npz" = "json" := by injection h with h; injection h
  revert this
  decide

/-- the example with the format `json` -/
def exAdJson : PDict := .cons "dump_format" (.str "json") (exAdProgram 2)

/-- what is checked in the examples: the pulses, figure of merit and number in the file after `n` calls for a figure of merit -/
def adFileAfter (n : ℕ) (r : Option (Py AdOutcome)) : Option (Py (Option (List (List ℚ) × List ℚ))) :=
  match r with
  | some (.ok r) => some ((r.saved n).map fun f => f.map fun t =>
      (["p", "time_grid_for_p", "q", "time_grid_for_q"].filterMap (fun k => match t.lookup k with | some (.row u) => some u | _ => none),
        ["FoM", "iteration_number", "status_code"].filterMap fun k => match t.lookup k with | some (.num u) => some u | _ => none))
  | _ => none

set_option synthInstance.maxSize 1000 in
/-- The shorter pulse and its time grid are filled up with zeros. -/
example : adFileAfter 0 (optimizeAD exGrapeAround exAdLib (exAdProgram 2)) = some (.ok none) ∧
    adFileAfter 2 (optimizeAD exGrapeAround exAdLib (exAdProgram 2)) =
      some (.ok (some ([[0, 1 / 6, 1 / 4], [0, 3 / 2, 3], [3 / 10, 1 / 3, 0], [0, 3, 0]], [1049 / 3600, 2, 0]))) := by decide +kernel

set_option synthInstance.maxSize 1000 in
/-- With the format `json` nothing can be saved. -/
example : adFileAfter 0 (optimizeAD exGrapeAround exAdLib exAdJson) = some (.ok none) ∧
    adFileAfter 1 (optimizeAD exGrapeAround exAdLib exAdJson) = some (.error .typeError) := by decide +kernel

end QuOCS

/-
C110: what the user finds in the file with the best controls, for whole optimizations, from the dictionary.
-/
import Verif.Lemmas.Reports
import Verif.Props.Dump
import Verif.Props.ProgramHistory

set_option linter.unusedSectionVars false
set_option linter.unusedVariables false

namespace QuOCS

/-! ### Specification -/

/-- The names of the pulses and the parameters in the dictionary are the texts `pn`, `qn`. -/
structure Named (d : PDict) (pn qn : List String) : Prop where
  pulses : List.Forall₂ (fun p s => p.get? "pulse_name" = some (.str s)) (itemsAt d "pulses") pn
  params : List.Forall₂ (fun p s => p.get? "parameter_name" = some (.str s)) (itemsAt d "parameters") qn

/-- The names of the entries QuOCS adds to the file, and the name of the first parameter of `numpy.savez`. -/
def addedEntries : List String :=
  ["pulse_names", "parameter_names", "time_names", "FoM", "iteration_number", "super_it", "status_code", "file"]

/-- All entries of the file have different names. -/
def DistinctNames (pn qn : List String) : Prop := (pn ++ pn.map ("time_grid_for_" ++ ·) ++ qn ++ addedEntries).Nodup

/-- The file shows the controls `c` under their names, the figure of merit `f` and the number `k` of the call. -/
structure FileShows (pn qn : List String) (file : ResultsDict) (c : ControlsOut ℚ) (f : ℚ) (k : ℕ) : Prop where
  pulses : pn.map (fun s => file.lookup s) = c.pulses.map fun u => some (.row u)
  grids : pn.map (fun s => file.lookup ("time_grid_for_" ++ s)) = c.timegrids.map fun t => some (.row t)
  params : qn.map (fun s => file.lookup s) = c.parameters.map fun v => some (.num v)
  fom : file.lookup "FoM" = some (.num f)
  number : file.lookup "iteration_number" = some (.num k)

/-- The file (if there is one) after the calls: it shows the first one among the calls that count with the best value; the value is
in the sign of a minimization. Without a file no call that counts was better than the start value. -/
def ShowsBest (d : PDict) (pn qn : List String) (calls : List Seen) : Option ResultsDict → Prop
  | none => ∀ c ∈ calls, ∀ v, usable c = some v → ∀ b, IsStart d b → ¬ BetterFor d v b
  | some file => ∃ k c v f, calls[k]? = some c ∧ usable c = some v ∧ (Maximizes d → f = -v) ∧ (¬ Maximizes d → f = v) ∧
      FileShows pn qn file c.1 f (k + 1) ∧
      (∀ b, IsStart d b → BetterFor d v b) ∧
      (∀ c' ∈ calls, ∀ v', usable c' = some v' → ¬ BetterFor d v' v) ∧
      (∀ c' ∈ calls.take k, ∀ v', usable c' = some v' → BetterFor d v v')

/-! ### Proof -/

open QuOCS.Spec QuOCS.Dump

section
variable {kind : AlgKind} {fmt : PVal} {core : CoreSettings} {pn qn : List String}

theorem names_ok {l : List PDict} {k : String} {vs : List PVal} {ns : List String} (h1 : List.Forall₂ (fun p v => p.get? k = some v) l vs)
    (h2 : List.Forall₂ (fun p s => p.get? k = some (.str s)) l ns) : vs.mapM nameKey = .ok ns := by
  induction h1 generalizing ns with
  | nil => cases h2; rfl
  | cons h _ ih =>
    cases h2 with
    | cons h' h2 =>
      rw [h] at h'
      cases h'
      rw [List.mapM_cons, ih h2]
      rfl

theorem entries_sub (kind : AlgKind) (core : CoreSettings) (f : ℚ) (k : ℕ) :
    ((reportEntries kind core f k).map Prod.fst ++ ["file"]).Sublist addedEntries := by
  unfold reportEntries addedEntries
  split
  · simp
  · simp

theorem distinct_report (hn : DistinctNames pn qn) (f : ℚ) (k : ℕ) :
    (pn ++ pn.map timeName ++ qn ++ (reportEntries kind core f k).map Prod.fst ++ ["file"]).Nodup := by
  refine hn.sublist ?_
  rw [List.append_assoc _ _ ["file"]]
  exact (List.Sublist.refl _).append (entries_sub kind core f k)

/-- A record is saved under the names. -/
theorem save_record (hP : core.pulseNames.mapM nameKey = .ok pn) (hQ : core.paramNames.mapM nameKey = .ok qn) (hn : DistinctNames pn qn)
    (old : Option ResultsDict) {c : ControlsOut ℚ} (h1 : c.pulses.length = pn.length) (h2 : c.timegrids.length = pn.length)
    (h3 : c.parameters.length = qn.length) (f : ℚ) (k m : ℕ) :
    ∃ file, saveReport kind fmt core old ⟨some c, true, f, k, m⟩ = .ok (some file) ∧ FileShows pn qn file c f k := by
  have hd := distinct_report (kind := kind) (core := core) hn f k
  obtain ⟨e1, e2⟩ := Dump.distinct (names := pn) (qnames := qn) (pulses := c.pulses.map Stored.row) (grids := c.timegrids.map Stored.row)
    (params := c.parameters.map Stored.num) (kwargs := reportEntries kind core f k) (by simp [h1, h2]) (by simp [h1]) (by simp [h3])
    (List.nodup_append.1 hd).1
  obtain ⟨e3, e4, e5, _⟩ := kept (ks := pn) (qk := qn) (kwargs := reportEntries kind core f k) (by simp [h1, h2]) (by simp [h1]) (by simp [h3]) e2
  refine ⟨pulseEntries pn ((c.pulses.map Stored.row).zip (c.timegrids.map Stored.row)) ++ qn.zip (c.parameters.map Stored.num) ++
    reportEntries kind core f k, ?_, ⟨?_, ?_, ?_, ?_, ?_⟩⟩
  · unfold saveReport
    rw [hP, hQ]
    simp only [bind, Except.bind, Option.getD_some, dumpControlsFile, Bool.not_true, Bool.false_eq_true, if_false]
    have e1' : dumpDict (c.pulses.map Stored.row) (c.timegrids.map Stored.row) (c.parameters.map Stored.num) (some pn) (some qn)
      (reportEntries kind core f k) = _ := e1
    rw [e1']
    dsimp only
    rw [if_neg]
    rw [Bool.and_eq_true, dictHas_iff]
    rintro ⟨_, hm⟩
    have hk : (keys (pulseEntries pn ((c.pulses.map Stored.row).zip (c.timegrids.map Stored.row)) ++ qn.zip (c.parameters.map Stored.num) ++
        reportEntries kind core f k)) = pn.flatMap (fun k => [k, timeName k]) ++ qn ++ (reportEntries kind core f k).map Prod.fst := by
      rw [show ∀ a b e : ResultsDict, keys (a ++ b ++ e) = keys a ++ keys b ++ keys e from fun a b e => by simp [keys],
        keys_pulseEntries (by simp [h1, h2]), keys_zip (by simp [h3])]
    rw [hk, ← ((keys_perm pn qn).append_right _).mem_iff] at hm
    exact (List.nodup_append.1 hd).2.2 _ hm _ (List.mem_singleton.2 rfl) rfl
  · rw [e3, List.map_map]; rfl
  · rw [show (fun s => List.lookup ("time_grid_for_" ++ s) _) = (fun k => List.lookup k _) ∘ timeName from rfl, ← List.map_map, e4, List.map_map]; rfl
  · rw [e5, List.map_map]; rfl
  · exact lookup_of_mem e2 (by simp [reportEntries])
  · exact lookup_of_mem e2 (by simp [reportEntries])

/-- The file after the reports of a list of calls. -/
def FileBest (sign : ℚ → ℚ) (b : ℚ) (pn qn : List String) (l : List Seen) : Option ResultsDict → Prop
  | none => bestAfter sign b l = b ∧ ∀ c ∈ l, ∀ v, usable c = some v → ¬ sign v < b
  | some file => ∃ k c v, l[k]? = some c ∧ usable c = some v ∧ FileShows pn qn file c.1 (sign v) (k + 1) ∧ sign v < b ∧ bestAfter sign b l = sign v ∧
      (∀ c' ∈ l, ∀ v', usable c' = some v' → ¬ sign v' < sign v) ∧ (∀ c' ∈ l.take k, ∀ v', usable c' = some v' → sign v < sign v')

theorem file_best (hP : core.pulseNames.mapM nameKey = .ok pn) (hQ : core.paramNames.mapM nameKey = .ok qn) (hn : DistinctNames pn qn)
    (sign : ℚ → ℚ) (b : ℚ) (l : List Seen) (hl : ∀ c ∈ l, c.1.pulses.length = pn.length ∧ c.1.timegrids.length = pn.length ∧
      c.1.parameters.length = qn.length) :
    ∃ file, resultsFile kind fmt core (reportsOf sign b 0 l) = .ok file ∧ FileBest sign b pn qn l file := by
  induction l using List.reverseRecOn with
  | nil => exact ⟨none, rfl, rfl, by simp⟩
  | append_singleton l c ih =>
    obtain ⟨file, h1, h2⟩ := ih fun c hc => hl c (List.mem_append_left _ hc)
    rw [reportsOf_append]
    unfold resultsFile at h1 ⊢
    rw [List.foldlM_append, h1]
    rcases hu : usable c with _ | v
    · refine ⟨file, rfl, ?_⟩
      have hb : bestAfter sign b (l ++ [c]) = bestAfter sign b l := by
        rw [bestAfter_append]; generalize bestAfter sign b l = z; simp [bestAfter, hu]
      have hcase : ∀ c' ∈ l ++ [c], ∀ v', usable c' = some v' → c' ∈ l := by
        intro c' hc' v' hv'
        rcases List.mem_append.1 hc' with h | h
        · exact h
        · rw [List.mem_singleton.1 h, hu] at hv'; cases hv'
      rcases file with _ | t
      · exact ⟨hb.trans h2.1, fun c' hc' v' hv' => h2.2 c' (hcase c' hc' v' hv') v' hv'⟩
      · obtain ⟨k, c0, v0, a1, a2, a3, a4, a5, a6, a7⟩ := h2
        have hk : k < l.length := (List.getElem?_eq_some_iff.1 a1).1
        refine ⟨k, c0, v0, by rw [List.getElem?_append_left hk]; exact a1, a2, a3, a4, hb.trans a5,
          fun c' hc' v' hv' => a6 c' (hcase c' hc' v' hv') v' hv', ?_⟩
        rw [List.take_append_of_le_length hk.le]
        exact a7
    · have hb : bestAfter sign b (l ++ [c]) = if sign v < bestAfter sign b l then sign v else bestAfter sign b l := by
        rw [bestAfter_append]; generalize bestAfter sign b l = z; simp [bestAfter, hu]
      obtain ⟨l1, l2, l3⟩ := hl c (List.mem_append_right _ List.mem_cons_self)
      by_cases hlt : sign v < bestAfter sign b l
      · obtain ⟨t, e, hs⟩ := save_record (kind := kind) (fmt := fmt) hP hQ hn file l1 l2 l3 (sign v) (0 + l.length + 1) (0 + l.length + 1)
        refine ⟨some t, ?_, l.length, c, v, by simp, hu, by rw [Nat.zero_add] at hs; exact hs, ?_, by rw [hb, if_pos hlt], ?_, ?_⟩
        · show (do let s ← (Except.ok file : Py _); List.foldlM (saveReport kind fmt core) s [_]) = _
          dsimp only
          rw [decide_eq_true hlt]
          simp only [bind, Except.bind, List.foldlM_cons, List.foldlM_nil, e]
          rfl
        · rcases file with _ | t
          · rw [h2.1] at hlt; exact hlt
          · obtain ⟨k, c0, v0, a1, a2, a3, a4, a5, a6, a7⟩ := h2
            rw [a5] at hlt
            exact hlt.trans a4
        · intro c' hc' v' hv'
          rcases List.mem_append.1 hc' with h | h
          · rcases file with _ | t
            · rw [h2.1] at hlt
              exact fun h' => h2.2 c' h v' hv' (h'.trans hlt)
            · obtain ⟨k, c0, v0, a1, a2, a3, a4, a5, a6, a7⟩ := h2
              rw [a5] at hlt
              exact fun h' => a6 c' h v' hv' (h'.trans hlt)
          · rw [List.mem_singleton.1 h, hu] at hv'; cases hv'
            exact lt_irrefl _
        · intro c' hc' v' hv'
          rw [List.take_left] at hc'
          rcases file with _ | t
          · rw [h2.1] at hlt
            exact hlt.trans_le (not_lt.1 (h2.2 c' hc' v' hv'))
          · obtain ⟨k, c0, v0, a1, a2, a3, a4, a5, a6, a7⟩ := h2
            rw [a5] at hlt
            exact hlt.trans_le (not_lt.1 (a6 c' hc' v' hv'))
      · refine ⟨file, ?_, ?_⟩
        · show (do let s ← (Except.ok file : Py _); List.foldlM (saveReport kind fmt core) s [_]) = _
          dsimp only
          rw [decide_eq_false hlt]
          simp only [bind, Except.bind, List.foldlM_cons, List.foldlM_nil, saveReport, hP, hQ]
          rfl
        · rw [if_neg hlt] at hb
          rcases file with _ | t
          · refine ⟨hb.trans h2.1, fun c' hc' v' hv' => ?_⟩
            rcases List.mem_append.1 hc' with h | h
            · exact h2.2 c' h v' hv'
            · rw [List.mem_singleton.1 h, hu] at hv'; cases hv'
              rw [h2.1] at hlt; exact hlt
          · obtain ⟨k, c0, v0, a1, a2, a3, a4, a5, a6, a7⟩ := h2
            have hk : k < l.length := (List.getElem?_eq_some_iff.1 a1).1
            refine ⟨k, c0, v0, by rw [List.getElem?_append_left hk]; exact a1, a2, a3, a4, hb.trans a5, fun c' hc' v' hv' => ?_, ?_⟩
            · rcases List.mem_append.1 hc' with h | h
              · exact a6 c' h v' hv'
              · rw [List.mem_singleton.1 h, hu] at hv'; cases hv'
                rw [a5] at hlt; exact hlt
            · rw [List.take_append_of_le_length hk.le]
              exact a7

end

theorem sign_lt {d : PDict} {m : Bool} (h : m = true ↔ Maximizes d) (x y : ℚ) : inSign m x < inSign m y ↔ BetterFor d x y := by
  unfold inSign BetterFor
  rw [← h]
  cases m <;> simp

theorem sign_start {d : PDict} {m : Bool} (h : m = true ↔ Maximizes d) {b : ℚ} (hb : IsStart d b) : inSign m b = 10 ^ 10 := by
  unfold IsStart at hb
  rw [← h] at hb
  unfold inSign
  cases m <;> simp_all

theorem start_exists (d : PDict) : ∃ b, IsStart d b := by
  by_cases h : Maximizes d
  · exact ⟨_, .inl ⟨h, rfl⟩⟩
  · exact ⟨_, .inr ⟨h, rfl⟩⟩

theorem FileBest.shows {d : PDict} {m : Bool} (h : m = true ↔ Maximizes d) {pn qn : List String} {l : List Seen} {file : Option ResultsDict}
    (hf : FileBest (inSign m) (10 ^ 10) pn qn l file) : ShowsBest d pn qn l file := by
  rcases file with _ | t
  · intro c hc v hv b hb
    rw [← sign_lt h, sign_start h hb]
    exact hf.2 c hc v hv
  · obtain ⟨k, c, v, a1, a2, a3, a4, a5, a6, a7⟩ := hf
    refine ⟨k, c, v, inSign m v, a1, a2, fun hm => (plotSign_of h).1 hm v, fun hm => (plotSign_of h).2 hm v, a3, fun b hb => ?_, fun c' hc' v' hv' => ?_, fun c' hc' v' hv' => ?_⟩
    · rw [← sign_lt h, sign_start h hb]; exact a4
    · rw [← sign_lt h]; exact a6 c' hc' v' hv'
    · rw [← sign_lt h]; exact a7 c' hc' v' hv'

variable {w : Surroundings} {d : PDict} {r : Outcome} {pn qn : List String}

/-- What is common to the algorithms. -/
theorem file_shows {kind : AlgKind} {fmt : PVal} {core : CoreSettings} {m : Bool} {lib : PyLib} {x : ControlDicts} (hm : m = true ↔ Maximizes d)
    (hc : UsesControls lib d x) (h1 : List.Forall₂ (fun p v => p.get? "pulse_name" = some v) (itemsAt d "pulses") core.pulseNames)
    (h2 : List.Forall₂ (fun p v => p.get? "parameter_name" = some v) (itemsAt d "parameters") core.paramNames)
    (hN : Named d pn qn) (hD : DistinctNames pn qn) (l : List Seen) (hl : ∀ c ∈ l, Admissible x.pulses x.times x.params c.1) :
    ∃ file, resultsFile kind fmt core (reportsOf (inSign m) (10 ^ 10) 0 l) = .ok file ∧ ShowsBest d pn qn l file := by
  have e1 : x.pulses.length = pn.length := hc.pulses.length_eq.symm.trans hN.pulses.length_eq
  have e2 : x.params.length = qn.length := hc.params.length_eq.symm.trans hN.params.length_eq
  obtain ⟨file, a, b⟩ := file_best (kind := kind) (fmt := fmt) (names_ok h1 hN.pulses) (names_ok h2 hN.params) hD (inSign m) (10 ^ 10) l fun c hc =>
    have hn := (hl c hc).number
    ⟨hn.1.trans e1, hn.2.1.trans e1, hn.2.2.trans e2⟩
  exact ⟨file, a, b.shows hm⟩

theorem admissible_calls (h : optimize w d = some (.ok r)) : ∃ x, UsesControls w.lib d x ∧ ∀ c ∈ r.calls, Admissible x.pulses x.times x.params c.1 := by
  obtain ⟨s, cfg, dsm, o, h⟩ := optimize_parts h
  refine ⟨s.controls, h.usesControls, fun c hc => ?_⟩
  have hb := execute_built (cfg := cfg) (env := w.env s.vars)
    (system_reach_kept (kind := cfg.kind) (M := w.lib.M) (sqrt := w.sqrt) (rnd := w.rnd) (draws := w.draws)) dsm (.create h.hcontrols)
  obtain ⟨k, hk, rfl, _⟩ := h.mem hc
  obtain ⟨o1, o2, h1, h2⟩ := hb.log k hk
  obtain ⟨r, hr, h2⟩ := py_bind_ok.1 h2
  split at h2
  · cases h2
  · cases h2
    exact delivered_admissible h1 hr

theorem admissible_calls_grape {L : GrapeLib} (h : optimizeGrape w L d = some (.ok r)) :
    ∃ x, UsesControls w.lib d x ∧ ∀ c ∈ r.calls, Admissible x.pulses x.times x.params c.1 := by
  obtain ⟨s, cfg, o, h⟩ := grape_parts h
  refine ⟨s.controls, h.uses.controls, fun c hc => ?_⟩
  have hb := execute_built (cfg := cfg) (env := w.env s.vars) (grape_reach_kept (M := w.lib.M) (u := w.draws (n := s.vars) 0))
    (s.search L s.vars) (.create h.hcontrols)
  obtain ⟨k, hk, rfl, _⟩ := h.mem hc
  obtain ⟨o1, o2, h1, h2⟩ := hb.log k hk
  have h2 : (gOps w s).getControls o1 k.vec = .ok (o2, k.ctl) := h2
  rw [grape_get] at h2
  exact delivered_admissible h1 h2

/-- **C110.** For any dictionary without repeated measurements whose pulses and parameters have different names, any figure of merit, clock and
stop requests: after each number `n` of calls of the user's function the report could be saved, and the file with the best controls shows the best call so far: its
pulses, time grids and parameters under their names, its value (with the other sign for a maximization), and its number. -/
theorem C110_file_partial (h : optimize w d = some (.ok r)) (hs : SingleMeasurements d) (hN : Named d pn qn) (hD : DistinctNames pn qn) (n : ℕ) :
    ∃ file, r.saved n = .ok file ∧ ShowsBest d pn qn (r.calls.take n) file := by
  obtain ⟨x, hx, hA⟩ := admissible_calls h
  obtain ⟨s, cfg, dsm, o, h⟩ := optimize_parts h
  obtain ⟨h1, h2, h3⟩ := h.single hs
  obtain ⟨c, hc, ha, hsv⟩ := h.saved
  have hrep := execute_reports (cfg := cfg) (env := w.env s.vars) (ops := systemOps cfg.kind w.lib.M w.sqrt w.rnd w.draws) (.inr h1) dsm
    ((h.library h3.le).noDrift h2) o
  have hcore : UsesCore w.lib d s.core := by
    rcases h.search with ⟨_, h⟩ | ⟨_, h⟩ <;> exact h.core
  unfold Reported at hrep
  rw [hsv n]
  have e : ((theRun w s cfg dsm o).2.dumps.filter fun k => k.calls ≤ n) = reportsOf (inSign cfg.maximize) (10 ^ 10) 0 (r.calls.take n) := by
    rw [show (theRun w s cfg dsm o).2.dumps = _ from hrep, ← reportsOf_take, h.kind.2, h.calls, Nat.zero_add]
    rfl
  rw [e]
  exact file_shows h.maximize hx hcore.pulseNames hcore.paramNames hN hD _ fun c hc => hA c (List.mem_of_mem_take hc)

/-- **C110 (GRAPE).** -/
theorem C110_file_grape {L : GrapeLib} (h : optimizeGrape w L d = some (.ok r)) (hN : Named d pn qn) (hD : DistinctNames pn qn) (n : ℕ) :
    ∃ file, r.saved n = .ok file ∧ ShowsBest d pn qn (r.calls.take n) file := by
  obtain ⟨x, hx, hA⟩ := admissible_calls_grape h
  obtain ⟨s, cfg, o, h⟩ := grape_parts h
  obtain ⟨c, hc, ha, hsv⟩ := h.saved
  have hrep := execute_reports (cfg := cfg) (env := w.env s.vars) (ops := gOps w s) (.inl (grape_cfg h.hcfg).1) (s.search L s.vars) h.noDrift o
  have hcore : UsesCore w.lib d s.core := h.uses.core
  unfold Reported at hrep
  rw [hsv n]
  have e : ((grapeRun w L s cfg o).2.dumps.filter fun k => k.calls ≤ n) = reportsOf (inSign cfg.maximize) (10 ^ 10) 0 (r.calls.take n) := by
    rw [show (grapeRun w L s cfg o).2.dumps = _ from hrep, ← reportsOf_take, (grape_cfg h.hcfg).2.1, h.calls, Nat.zero_add]
    rfl
  rw [e]
  exact file_shows h.maximize hx hcore.pulseNames hcore.paramNames hN hD _ fun c hc => hA c (List.mem_of_mem_take hc)

theorem better_total {x y : ℚ} (h1 : ¬ BetterFor d x y) (h2 : ¬ BetterFor d y x) : x = y := by
  unfold BetterFor at h1 h2
  by_cases h : Maximizes d
  · simp only [h, true_and, not_true, false_and, or_false, not_lt] at h1 h2
    exact le_antisymm h1 h2
  · simp only [h, false_and, not_false_eq_true, true_and, false_or, not_lt] at h1 h2
    exact le_antisymm h2 h1

theorem start_unique {a b : ℚ} (ha : IsStart d a) (hb : IsStart d b) : a = b := by
  unfold IsStart at ha hb
  rcases ha with ⟨h, rfl⟩ | ⟨h, rfl⟩ <;> rcases hb with ⟨h', rfl⟩ | ⟨h', rfl⟩
  · rfl
  · exact absurd h h'
  · exact absurd h' h
  · rfl

/-- The last file and the reported figure of merit. -/
theorem file_final {l : List Seen} {fom : ℚ} (h1 : ∀ c ∈ l, ∀ f, c.value = some f → ¬ BetterFor d f fom)
    (h2 : (∃ c ∈ l, c.value = some fom) ∨ IsStart d fom) (h3 : ∀ b, IsStart d b → ¬ BetterFor d b fom) (ha : ∀ c ∈ l, c.value = usable c) {file : Option ResultsDict}
    (hf : ShowsBest d pn qn l file) :
    (file = none → IsStart d fom) ∧ ∀ t, file = some t → ∃ f, t.lookup "FoM" = some (.num f) ∧ (Maximizes d → f = -fom) ∧ (¬ Maximizes d → f = fom) := by
  obtain ⟨b, hb⟩ := start_exists d
  rcases file with _ | t
  · refine ⟨fun _ => ?_, fun t h => by cases h⟩
    rcases h2 with ⟨c, hc, hv⟩ | h2
    · have e1 : ¬ BetterFor d fom b := hf c hc fom (by rw [← ha c hc]; exact hv) b hb
      rw [better_total e1 (h3 b hb)]
      exact hb
    · exact h2
  · refine ⟨fun h => (by cases h), fun t' ht => ?_⟩
    cases ht
    obtain ⟨k, c, v, f, a1, a2, m1, m2, a3, a4, a5, a6⟩ := hf
    have hc : c ∈ l := List.mem_of_getElem? a1
    have e : v = fom := by
      refine better_total (h1 c hc v (by rw [ha c hc]; exact a2)) ?_
      rcases h2 with ⟨c', hc', hv⟩ | h2
      · exact a5 c' hc' fom (by rw [← ha c' hc']; exact hv)
      · intro hbad
        exact h1 c hc v (by rw [ha c hc]; exact a2) (a4 fom h2)
    rw [e] at m1 m2
    exact ⟨f, a3.fom, m1, m2⟩

/-- **C110.** After the last call, if all calls that returned a value had status code zero: the figure of merit in the file is the reported one, with the other
sign for a maximization; there is no file if the reported one is the start value. -/
theorem C110_final_partial (h : optimize w d = some (.ok r)) (hs : SingleMeasurements d) (hN : Named d pn qn) (hD : DistinctNames pn qn)
    (ha : ∀ c ∈ r.calls, c.value = usable c) :
    ∃ file, r.saved r.calls.length = .ok file ∧ (file = none → IsStart d r.fom) ∧
      ∀ t, file = some t → ∃ f, t.lookup "FoM" = some (.num f) ∧ (Maximizes d → f = -r.fom) ∧ (¬ Maximizes d → f = r.fom) := by
  obtain ⟨file, h1, h2⟩ := C110_file_partial h hs hN hD r.calls.length
  rw [List.take_length] at h2
  refine ⟨file, h1, file_final (C96_best h hs).1 (C96_best h hs).2 (fun b hb => ?_) ha h2⟩
  obtain ⟨s, cfg, dsm, o, h⟩ := optimize_parts h
  obtain ⟨k1, k2, k3⟩ := h.single hs
  have := (C04_best_is_optimum_partial cfg (w.env s.vars) (systemOps cfg.kind w.lib.M w.sqrt w.rnd w.draws) (.inr k1) (fun h => h) dsm
    ((h.library k3.le).noDrift k2) o).2.1
  rw [h.better, h.kind.2] at this
  rw [h.fom]
  have e : dirMul cfg.maximize (10 ^ 10 : ℚ) = b := by
    refine start_unique (d := d) ?_ hb
    unfold IsStart dirMul
    rw [← h.maximize]
    cases cfg.maximize <;> simp
  rw [e] at this
  exact this

/-- **C110 (GRAPE).** -/
theorem C110_final_grape {L : GrapeLib} (h : optimizeGrape w L d = some (.ok r)) (hN : Named d pn qn) (hD : DistinctNames pn qn)
    (ha : ∀ c ∈ r.calls, c.value = usable c) :
    ∃ file, r.saved r.calls.length = .ok file ∧ (file = none → IsStart d r.fom) ∧
      ∀ t, file = some t → ∃ f, t.lookup "FoM" = some (.num f) ∧ (Maximizes d → f = -r.fom) ∧ (¬ Maximizes d → f = r.fom) := by
  obtain ⟨file, h1, h2⟩ := C110_file_grape h hN hD r.calls.length
  rw [List.take_length] at h2
  refine ⟨file, h1, file_final (C98_best h).1 (C98_best h).2 (fun b hb => ?_) ha h2⟩
  obtain ⟨s, cfg, o, h⟩ := grape_parts h
  have := (C04_best_is_optimum_partial cfg (w.env s.vars) (gOps w s) (.inl (grape_cfg h.hcfg).1) (fun h => h) _ h.noDrift o).2.1
  rw [h.better, ← h.start.2 b hb] at this
  rw [h.fom]
  exact this

/-! ### Examples -/

/-- what is checked in the examples: pulse, time grid, figure of merit and number in the file after `n` calls -/
def savedAfter (n : ℕ) (r : Option (Py Outcome)) : Option (Bool × List (List ℚ) × List ℚ) :=
  match r with
  | some (.ok r) =>
    match r.saved n with
    | .ok (some t) => some (true,
        ["p", "time_grid_for_p"].filterMap (fun k => match t.lookup k with | some (.row u) => some u | _ => none),
        ["FoM", "iteration_number", "status_code"].filterMap fun k => match t.lookup k with | some (.num u) => some u | _ => none)
    | .ok none => some (false, [], [])
    | .error _ => none
  | _ => none

example : Named exProgram ["p"] [] := ⟨.cons rfl .nil, .nil⟩
example : Named (exGrapeProgram 3) ["p"] [] := ⟨.cons rfl .nil, .nil⟩
example : DistinctNames ["p"] [] := by unfold DistinctNames; decide
example : DistinctNames ["x", "y"] ["a"] := by unfold DistinctNames; decide

/-- The maximization of a sum of squares: five calls, the fourth is the best one; the file has the value with the other sign. -/
example : savedAfter 0 (optimize (exAround 0) exProgram) = some (false, [], []) ∧
    savedAfter 3 (optimize (exAround 0) exProgram) = some (true, [[10 / 7, 10 / 7, 10 / 7], [0, 3 / 2, 3]], [-300 / 49, 3, 0]) ∧
    savedAfter 5 (optimize (exAround 0) exProgram) = some (true, [[2, 2, 2], [0, 3 / 2, 3]], [-12, 4, 0]) := by decide +kernel

/-- A minimization with GRAPE. -/
example : savedAfter 3 (optimizeGrape exGrapeAround exGrapeLib (exGrapeProgram 3)) =
    some (true, [[0, 1 / 12, 1 / 8], [0, 3 / 2, 3]], [13 / 576, 3, 0]) := by decide +kernel

/-- the optimization of the example with another name of the pulse -/
def exProgramNamed (name : String) : PDict :=
  exSettings ([("max_eval_total", .num 5), ("FoM_goal", .num 20)] ++ exAlg)
    [.dict (mkDict [("pulse_name", .str name), ("upper_limit", .num 2), ("time_name", .str "t"), ("basis", exBasis "Sinc" []),
      ("bins_number", .num 3), ("lower_limit", .num (-1))])] [] [exTime]

/-- what is under a name in the file after `n` calls: whether it is an array; an error if saving failed -/
def arrayUnder (name : String) (n : ℕ) (r : Option (Py Outcome)) : Option (ℕ × Py Bool) :=
  match r with
  | some (.ok r) => some (r.calls.length, (r.saved n).map fun t =>
      match t.bind (List.lookup name) with | some (.row _) => true | _ => false)
  | _ => none

/-- **C110 is violated for names used by QuOCS itself.** The pulse called `FoM` is not in the file, which has the figure of merit under this name;
with a pulse called `file` the first report cannot be saved (`TypeError`). -/
theorem C110_names_violated :
    arrayUnder "FoM" 5 (optimize (exAround 0) (exProgramNamed "FoM")) = some (5, .ok false) ∧
    arrayUnder "file" 1 (optimize (exAround 0) (exProgramNamed "file")) = some (5, .error .typeError) ∧
    arrayUnder "p" 5 (optimize (exAround 0) (exProgramNamed "p")) = some (5, .ok true) := by decide +kernel

end QuOCS

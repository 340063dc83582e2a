/-
Properties C96, C98 and C99, continued: the samples and the time grids of all controls of an optimization.
-/
import Verif.Props.ProgramAD
import Verif.Props.Accepted
import Verif.Spec.ProgramSamples

set_option linter.unusedSectionVars false
set_option linter.unusedVariables false

namespace QuOCS

variable {w : Surroundings} {d : PDict}

theorem sampled_of_admissible {x : ControlDicts} (hU : UsesControls w.lib d x) (hp : PlainControls w.lib d) {c : ControlsOut ℚ}
    (hA : Admissible x.pulses x.times x.params c) : SampledAs d c := by
  obtain ⟨hu, hf⟩ := usable_controls hU hp
  refine ⟨hA.number.2.1.trans hU.pulses.length_eq.symm, fun i p u t b hi hu' ht hb hb2 => ?_⟩
  obtain ⟨y, hy, hV⟩ := forall2_at hU.pulses hi
  obtain rfl := count_unique hV.bins hb
  have hP := hA.pulses i y u t hy hu' ht
  refine ⟨hP.samples hb2 ?_, hP.grid.1, fun T hT k hk => ?_⟩
  · obtain ⟨b', _, hb', _, f, hs⟩ := (hp.pulses p (List.mem_of_getElem? hi)).bins
    obtain ⟨s1, _⟩ := samples_used hV.scaling hs
    intro g hg
    rcases s1 with e | ⟨qs, e, _⟩ <;> rw [e] at hg <;> cases hg
  · obtain ⟨time, T', h1, h2, h3⟩ := hP.grid.2
    have hm : time ∈ x.times := by simpa using List.mem_of_find?_eq_some h1
    have hname : time.name = y.timeName := by simpa using List.find?_some h1
    obtain ⟨t, htm, hUt⟩ := forall2_mem hU.times hm
    have hval := hUt.value
    rw [hT t htm (by rw [hUt.name, hname, hV.time])] at hval
    rw [h3 k hk, h2.1 (hf _ hm), hval.num]

/-- **C96.** With plain controls, all pulses passed to the user's function, and those of the best controls (also after a failed or
interrupted run), have as many samples as the dictionary asks for, on the equidistant times from zero to the duration in the dictionary. -/
theorem C96_samples {r : Outcome} (h : optimize w d = some (.ok r)) (hp : PlainControls w.lib d) :
    (∀ c ∈ r.calls, SampledAs d c.1) ∧ ∀ b, r.best = .ok b → SampledAs d b := by
  obtain ⟨s, cfg, dsm, o, h⟩ := optimize_parts h
  have hb := execute_built (cfg := cfg) (env := w.env s.vars)
    (system_reach_kept (kind := cfg.kind) (M := w.lib.M) (sqrt := w.sqrt) (rnd := w.rnd) (draws := w.draws)) dsm (.create h.hcontrols)
  have hA : ∀ {o1 o2 : Controls ℚ} {x : Vec ℚ s.vars} {c : ControlsOut ℚ},
      ControlsReach w.lib.M s.controls.pulses s.controls.times s.controls.params o1 →
      (systemOps cfg.kind w.lib.M w.sqrt w.rnd (w.draws (n := s.vars))).getControls o1 x = .ok (o2, c) → SampledAs d c := by
    intro o1 o2 x c h1 h2
    obtain ⟨r, hr, h2⟩ := py_bind_ok.1 h2
    split at h2
    · cases h2
    · cases h2
      exact sampled_of_admissible h.usesControls hp (delivered_admissible h1 hr)
  refine ⟨fun c hc => ?_, fun b hbest => ?_⟩
  · obtain ⟨k, hk, rfl, _⟩ := h.mem hc
    obtain ⟨o1, o2, h1, h2⟩ := hb.log k hk
    exact hA h1 h2
  · rw [h.best] at hbest
    obtain ⟨x, _, hbest⟩ := py_bind_ok.1 hbest
    obtain ⟨⟨o', c'⟩, hg, hbest⟩ := py_bind_ok.1 hbest
    cases hbest
    exact hA hb.ctl hg

/-- **C98.** The same for GRAPE. -/
theorem C98_samples {L : GrapeLib} {r : Outcome} (h : optimizeGrape w L d = some (.ok r)) (hp : PlainControls w.lib d) :
    (∀ c ∈ r.calls, SampledAs d c.1) ∧ ∀ b, r.best = .ok b → SampledAs d b := by
  obtain ⟨s, cfg, o, h⟩ := grape_parts h
  have hb := execute_built (cfg := cfg) (env := w.env s.vars) (grape_reach_kept (M := w.lib.M) (u := w.draws (n := s.vars) 0))
    (s.search L s.vars) (.create h.hcontrols)
  have hA : ∀ {o1 o2 : Controls ℚ} {x : Vec ℚ s.vars} {c : ControlsOut ℚ},
      ControlsReach w.lib.M s.controls.pulses s.controls.times s.controls.params o1 →
      (gOps w s).getControls o1 x = .ok (o2, c) → SampledAs d c := by
    intro o1 o2 x c h1 h2
    rw [grape_get] at h2
    exact sampled_of_admissible h.uses.controls hp (delivered_admissible h1 h2)
  refine ⟨fun c hc => ?_, fun b hbest => ?_⟩
  · obtain ⟨k, hk, rfl, _⟩ := h.mem hc
    obtain ⟨o1, o2, h1, h2⟩ := hb.log k hk
    exact hA h1 h2
  · rw [h.best] at hbest
    obtain ⟨x, _, hbest⟩ := py_bind_ok.1 hbest
    obtain ⟨⟨o', c'⟩, hg, hbest⟩ := py_bind_ok.1 hbest
    cases hbest
    exact hA hb.ctl hg

/-- **C99.** The same with automatic differentiation, before the rows are filled up with zeros (for pulses of the same length nothing is
filled up). -/
theorem C99_samples {L : AdProgramLib} {r : AdOutcome} (h : optimizeAD w L d = some (.ok r)) (hp : PlainControls w.lib d) (hd : w.Draws d) :
    (∀ c ∈ r.all, ∃ c0, FitTo d c0 ∧ SampledAs d c0 ∧ FilledUp c0 c.1) ∧
    ∀ b, r.best = .ok b → ∃ c0, FitTo d c0 ∧ SampledAs d c0 ∧ FilledUp c0 b := by
  obtain ⟨x, hU, hx⟩ := ad_controls h hp hd
  refine ⟨fun c hc => ?_, fun b hb => ?_⟩
  · obtain ⟨c0, h1, h2, _, h3⟩ := hx c.1 (.inl (List.mem_map_of_mem hc))
    exact ⟨c0, h1, sampled_of_admissible hU hp h3, h2⟩
  · obtain ⟨c0, h1, h2, _, h3⟩ := hx b (.inr hb)
    exact ⟨c0, h1, sampled_of_admissible hU hp h3, h2⟩

/-- **C99.** If all pulses have the same number of bins, at least two, nothing is filled up. -/
theorem C99_samples_same_bins {L : AdProgramLib} {r : AdOutcome} (h : optimizeAD w L d = some (.ok r)) (hp : PlainControls w.lib d)
    (hd : w.Draws d) {b : ℕ} (hb : ∀ p ∈ itemsAt d "pulses", setting p ["bins_number"] (.num 101) = .num b) (h2 : 2 ≤ b) :
    (∀ c ∈ r.all, FitTo d c.1 ∧ SampledAs d c.1) ∧ ∀ c, r.best = .ok c → FitTo d c ∧ SampledAs d c := by
  have key : ∀ c c0, FitTo d c0 → SampledAs d c0 → FilledUp c0 c → FitTo d c ∧ SampledAs d c := by
    intro c c0 h1 h3 h4
    rw [h4.same (b := b) fun u hu => ?_]
    · exact ⟨h1, h3⟩
    · obtain ⟨i, hi, e⟩ := List.getElem_of_mem hu
      have hi2 : i < (itemsAt d "pulses").length := by rw [← h1.pulseNumber]; exact hi
      have hi3 : i < c0.timegrids.length := by rw [h3.gridNumber]; exact hi2
      exact (h3.samples i _ u _ b (List.getElem?_eq_getElem hi2) (by rw [List.getElem?_eq_getElem hi, e]) (List.getElem?_eq_getElem hi3)
        (hb _ (List.getElem_mem hi2)) h2).1
  obtain ⟨h3, h4⟩ := C99_samples h hp hd
  refine ⟨fun c hc => ?_, fun c hc => ?_⟩
  · obtain ⟨c0, a, b, e⟩ := h3 c hc
    exact key _ _ a b e
  · obtain ⟨c0, a, b, e⟩ := h4 c hc
    exact key _ _ a b e

/-! ### A concrete optimization -/

/-- In the optimization `exProgram` each call has three samples, at the times 0, 3/2 and 3. -/
example (a : ℚ) : ∃ r, optimize (exAround a) exProgram = some (.ok r) ∧ ∀ c ∈ r.calls, ∀ u t, c.1.pulses[0]? = some u → c.1.timegrids[0]? = some t →
    u.length = 3 ∧ t[0]? = some 0 ∧ t[1]? = some (3 / 2) ∧ t[2]? = some 3 := by
  obtain ⟨h1, _, h3, _, h5, h6, _⟩ := exProgram_plain
  obtain ⟨g1, g2, g3⟩ := exAround_usable a
  obtain ⟨r, e1, _⟩ := C97_completes (w := exAround a) exLib_installed exProgram_documented (.inl rfl) h1 h3 h5 g1 g2 g3
  refine ⟨r, e1, fun c hc u t hu ht => ?_⟩
  obtain ⟨l1, l2, l3⟩ := ((C96_samples e1 h1).1 c hc).samples 0 _ u t 3 rfl hu ht rfl (by norm_num)
  have := l3 3 (by
    intro t ht _
    have ht : t ∈ [mkDict [("time_name", .str "t"), ("initial_value", .num 3)]] := ht
    rw [List.mem_singleton] at ht
    subst ht
    rfl)
  refine ⟨l1, ?_, ?_, ?_⟩
  · rw [this 0 (by norm_num)]; norm_num
  · rw [this 1 (by norm_num)]; norm_num
  · rw [this 2 (by norm_num)]; norm_num

end QuOCS

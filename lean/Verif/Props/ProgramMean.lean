/-
C37 for the search methods of the library and C96 with repeated measurements: re-evaluation and drift compensation after
super-iterations.
-/
import Verif.Props.Program
import Verif.Props.BestMean
import Verif.Spec.ProgramMean

set_option linter.unusedSectionVars false
set_option linter.unusedVariables false

namespace QuOCS

section
variable {K F : Type} [Field K] [LinearOrder K] [IsStrictOrderedRing K] [FloorRing K]
variable {M : MathFns K} {pd : List (PulseDict K)} {td : List (TimeDict K)} {rd : List (ParamDict K)}
variable {sqrt : K → K} {rnd : ℕ → ℕ → List K} {draws : ℕ → Vec K (searchDim pd rd)}

/-- The controls object with vectors of fixed length, with evaluations at the mean. -/
theorem system_reproMean (hS : StandardControls M pd td rd) (hu : Usable pd td rd) (hr : ∀ k, EnoughRandom pd (rnd k)) :
    ReproMean (systemOps .dcrab M sqrt rnd draws) (Ready M pd td rd) (Shows (systemOps .dcrab M sqrt rnd draws))
      (ShowsMean (systemOps .dcrab M sqrt rnd draws)) (fun c x => AtMean pd c (List.ofFn x)) := by
  have R := reproMean_standard (rnd := rnd) (simplex := fun _ _ _ => .ok []) hS
  refine { (system_reproducible (sqrt := sqrt) (draws := draws) hS hu hr).repro with atMean := ?_, keepMean := ?_, showMean := ?_ }
  · intro c x hc hx
    have hx : (do vecOfList _ (← c.mean)) = .ok x := hx
    obtain ⟨l, hl, hv⟩ := py_bind_ok.1 hx
    rw [vecOfList_ofFn hv]
    exact R.atMean c l hc.reach hl
  · intro c x c' w hc hm hg
    have hg : getControlsFor .dcrab M c (List.ofFn x) = .ok (c', w) := hg
    unfold getControlsFor at hg
    obtain ⟨r, h1, hg⟩ := py_bind_ok.1 hg
    rw [if_neg (by simp)] at hg
    cases hg
    exact R.keepMean c (List.ofFn x) c' w hc.reach hm h1
  · intro c x w hc hm hs
    rw [system_shows] at hs
    obtain ⟨l, hl, hw⟩ := R.showMean c (List.ofFn x) w hc.reach hm hs
    obtain ⟨l2, h4, h5⟩ := hc.mean
    rw [show c.mean = .ok l from hl] at h4
    cases h4
    obtain ⟨v, h6⟩ := vecOfList_exists h5
    refine ⟨v, ?_, ?_⟩
    · show (do vecOfList _ (← c.mean)) = _
      rw [show c.mean = .ok l from hl]; exact h6
    · rw [system_shows, vecOfList_ofFn h6]; exact hw

variable [Field F] [LinearOrder F] [IsStrictOrderedRing F]

/-- the best controls and the reported figure of merit after a run -/
theorem mean_reported (hS : StandardControls M pd td rd) (hu : Usable pd td rd) (hr : ∀ k, EnoughRandom pd (rnd k)) {cfg : AlgCfg K F}
    {run : AlgState (Vec K (searchDim pd rd)) (ControlsOut K) (Controls K) F}
    (hb : BetweenMean cfg True (Ready M pd td rd) (ShowsMean (systemOps .dcrab M sqrt rnd draws)) run) :
    finalFoM cfg run = dirMul cfg.maximize cfg.fomMax ∨
    MeanOfCalls cfg (fun c => bestControls (systemOps .dcrab M sqrt rnd draws) run = .ok c.ctl) run.log (finalFoM cfg run) := by
  refine hb.best.imp (fun h1 => by unfold finalFoM; rw [h1]) fun hm => hm.mono (List.prefix_refl _) ?_
  rintro c ⟨⟨x, hx, hs⟩, _⟩
  obtain ⟨best, hbest⟩ := system_best (F := F) (V := Unit) (sqrt := sqrt) (draws := draws) hu hr hb.inv
  obtain ⟨x', hx', hs'⟩ := showsMean_of_best hbest
  rw [hx] at hx'; cases hx'
  unfold Shows at hs hs'
  rw [hs] at hs'; cases hs'
  exact hbest

/-- **C37, partial.** After a completed dCRAB run with Nelder-Mead or CMA-ES in the standard configuration and with a usable dictionary,
with or without re-evaluation (at least one threshold), with or without drift compensation after super-iterations: the reported
figure of merit is the initial value, or the mean over a group of successive evaluations, all of exactly the controls that
`get_best_controls` returns.
Missing: drift compensation by minutes; the violations for `overwrite_base_pulse` and optimized times. -/
theorem C37_best_controls_mean_library_partial (hS : StandardControls M pd td rd) (hu : Usable pd td rd)
    (hr : ∀ k, EnoughRandom pd (rnd k)) {dsm : Dsm K (Vec K (searchDim pd rd)) F}
    (hd : ∀ i x sim sg, (dsm i x sim sg).NoDrift) (cfg : AlgCfg K F)
    (env : Env (Vec K (searchDim pd rd)) (ControlsOut K) F) (hk : cfg.kind = .dcrab) (hre : cfg.reEval ≠ some [])
    (o : Controls K) (ho : mkControls M pd td rd = .ok o)
    (h : (execute cfg env (systemOps .dcrab M sqrt rnd draws) dsm o).1 = .ok ()) :
    let run := (execute cfg env (systemOps .dcrab M sqrt rnd draws) dsm o).2
    finalFoM cfg run = dirMul cfg.maximize cfg.fomMax ∨
    MeanOfCalls cfg (fun c => bestControls (systemOps .dcrab M sqrt rnd draws) run = .ok c.ctl) run.log (finalFoM cfg run) := by
  intro run
  obtain ⟨o1, h1, h2⟩ := mkControls_exists (M := M) hu
  obtain rfl : o1 = o := by rw [ho] at h1; cases h1; rfl
  have hR := system_reproMean (sqrt := sqrt) (draws := draws) hS hu hr
  have hb := BetweenMean.execute (env := env) (D := True) hR hk hre
    (fun _ => trivial) dsm (fun i x sim sg => InMean.interp hR hk hre _ (hd i x sim sg)) o1 h2 h
  exact mean_reported hS hu hr hb

end

section
variable {w : Surroundings} {d : PDict} {r : Outcome}

theorem Parts.repeated {s : SearchSettings} {cfg : AlgCfg ℚ ℚ} {dsm : Dsm ℚ (Vec ℚ s.vars) ℚ} {o : Controls ℚ}
    (h : Parts w d r s cfg dsm o) (hs : HasSteps w.lib d) : cfg.reEval ≠ some [] := by
  intro hr
  have hu := h.uses.reEval
  rw [hr] at hu
  rcases hu with ⟨_, h⟩ | ⟨q, h1, ⟨_, h⟩ | ⟨v, qs, h2, h3, h4⟩⟩
  · cases h
  · cases h
  · cases h4
    refine hs v ?_ h3
    simp only [entry] at h1 h2 ⊢
    rcases ha : d.get? "algorithm_settings" with _ | a
    · rw [ha] at h1; cases h1
    · rw [ha] at h1
      cases a <;> simp_all

/-- the mean over calls in terms of what the user sees -/
theorem Parts.mean_over_calls {s : SearchSettings} {cfg : AlgCfg ℚ ℚ} {dsm : Dsm ℚ (Vec ℚ s.vars) ℚ} {o : Controls ℚ}
    (h : Parts w d r s cfg dsm o) (hK : cfg.kind = .dcrab)
    (hmean : let run := (execute cfg (w.env s.vars) (systemOps .dcrab w.lib.M w.sqrt w.rnd (w.draws (n := s.vars))) dsm o).2
      finalFoM cfg run = dirMul cfg.maximize cfg.fomMax ∨
      MeanOfCalls cfg (fun c => bestControls (systemOps .dcrab w.lib.M w.sqrt w.rnd (w.draws (n := s.vars))) run = .ok c.ctl) run.log
        (finalFoM cfg run)) :
    ((Maximizes d ∧ r.fom = -10 ^ 10) ∨ (¬ Maximizes d ∧ r.fom = 10 ^ 10)) ∨
    ∃ best, r.best = .ok best ∧ MeanOverCalls d r.calls best r.fom := by
  have hfom := h.fom
  have hbest := h.best
  have hcalls := h.calls
  unfold theRun at hfom hbest hcalls
  rw [hK] at hfom hbest hcalls
  have hmax := h.maximize
  have h10 := h.kind.2
  rcases hmean with
    e | ⟨group, fs, ⟨k, hk⟩, hin, hall, hct, hv⟩
  · left
    rw [← hmax, hfom, e, h10]
    unfold dirMul
    cases cfg.maximize <;> simp
  · refine .inr ⟨k.ctl, hbest.trans (hall k hk), group.map (Option.map fun k => (k.ctl, k.ans)), fs, ⟨_, List.mem_map.2 ⟨_, hk, rfl⟩⟩,
      ?_, ?_, ?_, hfom.trans hv⟩
    · rw [hcalls, List.reduceOption_map]
      exact hin.map _
    · intro c hc
      obtain ⟨k', hk', e⟩ := List.mem_map.1 hc
      obtain ⟨k'', rfl, rfl⟩ := Option.map_eq_some_iff.1 e
      have := (hall k'' hk').symm.trans (hall k hk)
      exact Except.ok.inj this
    · rw [List.forall₂_map_left_iff]
      refine hct.imp ?_
      rintro (_ | k') f hc
      · have hc : f = if cfg.maximize then -cfg.fomMax else cfg.fomMax := hc
        rw [h10] at hc
        subst hc
        by_cases hm : cfg.maximize = true
        · rw [if_pos hm]; exact .skippedMax (hmax.1 hm)
        · rw [if_neg hm]; exact .skippedMin (fun hh => hm (hmax.2 hh))
      · exact .made ((seen_value k').trans hc)

/-- **C96.** A completed dCRAB optimization with plain and standard controls, with or without re-evaluation, with or without drift
compensation after super-iterations: if the reported figure of merit is not the start value, it is the mean over a group of successive
calls, all with exactly the controls that are reported as the best ones. -/
theorem C96_best_mean (h : optimize w d = some (.ok r)) (hk : IsDcrab d) (hp : PlainControls w.lib d) (hst : StandardDictionary d)
    (hs : RepeatedMeasurements w.lib d) (hr : w.Draws d) (he : r.ended = .ok ()) :
    ((Maximizes d ∧ r.fom = -10 ^ 10) ∨ (¬ Maximizes d ∧ r.fom = 10 ^ 10)) ∨
    ∃ best, r.best = .ok best ∧ MeanOverCalls d r.calls best r.fom := by
  obtain ⟨s, cfg, dsm, o, h⟩ := optimize_parts h
  have h1 := h.repeated hs.steps
  have h3 := hs.minutes _ h.uses.minutes
  obtain ⟨hu, hf⟩ := usable_controls h.usesControls hp
  have hR := fun k => enough_random h.usesControls hp hr k
  have hK := h.dcrab hk
  have hS := h.standard hu hf hst
  have he' := he
  rw [h.ended] at he'
  unfold theRun at he'
  rw [hK] at he'
  have hnd : ∀ i x sim sg, (dsm i x sim sg).NoDrift := by
    intro i x sim sg
    rcases h.library h3 with ⟨c, fuel, h1, rfl⟩ | ⟨lib, p, fuel, rfl⟩
    · exact nelderMead_noDrift c h1 fuel i x sim sg
    · exact cmaes_noDrift lib p fuel i x sim sg
  exact h.mean_over_calls hK (C37_best_controls_mean_library_partial hS hu hR hnd cfg (w.env s.vars) hK h1 o h.hcontrols he')

/-- **C96.** A dictionary with plain controls, with dCRAB or without pulses, and with a usable population; with or without re-evaluation
and drift compensation: if the run raises an exception, the last call raised it or returned no figure of merit, or the dictionary asks for
re-evaluation or for drift compensation by minutes and the run was stopped before the first call (C84). -/
theorem C96_only_user_errors (h : optimize w d = some (.ok r)) (hp : PlainControls w.lib d) (hs : HasSteps w.lib d)
    (hav : AveragesSomething d) (hm : UsablePopulation d) (hb : BuildsControls d) (hr : w.Draws d) (hl : w.Log) {e : PyErr}
    (he : r.ended = .error e) :
    LastCallFailed r.calls e ∨
    (e = .attributeError ∧ r.calls = [] ∧ MeasuresAgain d) := by
  obtain ⟨s, cfg, dsm, o, h⟩ := optimize_parts h
  have h1 := h.repeated hs
  obtain ⟨hu, hf⟩ := usable_controls h.usesControls hp
  have hR := fun k => enough_random h.usesControls hp hr k
  have hg : cfg.kind ≠ .grape := by rcases h.uses.algorithm with e | e <;> rw [e] <;> simp
  have hk : cfg.kind = .directSearch → s.controls.pulses = [] := by
    intro hk
    rcases hb with hb | hb
    · rw [h.dcrab hb] at hk; cases hk
    · have := h.usesControls.pulses
      rw [hb] at this
      exact List.forall₂_nil_left_iff.1 this
  have hne : cfg.driftAverage ≠ 0 := by
    intro h0
    obtain ⟨z, hz, hz'⟩ := h.uses.average
    have h1 : (1 : ℤ) ≤ z := by exact_mod_cast hav z hz
    omega
  have hre : cfg.reEval ≠ none → entry d ["algorithm_settings", "re_evaluation"] ≠ none := by
    intro hc hn
    rcases h.uses.reEval with ⟨_, h⟩ | ⟨_, h, _⟩
    · exact hc h
    · rw [hn] at h; cases h
  have hend := he
  rw [h.ended] at hend
  have hcalls := h.calls
  have key : (UserFailed (w.env s.vars) e (theRun w s cfg dsm o).2.log ∨
      (e = .attributeError ∧ (theRun w s cfg dsm o).2.log = [] ∧ (cfg.reEval ≠ none ∨ 0 < cfg.driftMinutes))) := by
    have hd := h.hdsm
    unfold SearchSettings.dsm at hd
    split at hd
    · cases hd
      exact C84_only_user_errors_nelder_mead_partial hu hg hk hR h1 (fun _ => hne) _ (fun _ => hne) _ (le_refl _) h.hcontrols hend
    · rename_i hcm
      obtain ⟨p, hpp, hd⟩ := Option.map_eq_some_iff.1 hd
      subst hd
      obtain ⟨l, hl1, hl2⟩ := h.population hu hm hl hcm hpp
      rcases C84_only_user_errors_cmaes_partial hu hg hk hR h1 (fun _ => hne) w.num p hl1 hl2 _ (le_refl _) h.hcontrols hend with
        h | ⟨h4, h5, h6⟩
      · exact .inl h
      · exact .inr ⟨h4, h5, .inl h6⟩
    · cases hd
  rcases key with ⟨before, c, hlog, _, hf⟩ | ⟨h4, h5, h6⟩
  · refine .inl ⟨before.map fun k => (k.ctl, k.ans), (c.ctl, c.ans), ?_, hf⟩
    rw [hcalls, hlog, List.map_append]
    rfl
  · exact .inr ⟨h4, by rw [hcalls, h5]; rfl, h6.imp hre fun h6 => ⟨_, h.uses.minutes, h6⟩⟩

/-- **C96.** If in addition the user's function always returns a figure of merit, and it was called at all, the run completes. -/
theorem C96_completes_repeated (h : optimize w d = some (.ok r)) (hp : PlainControls w.lib d) (hs : HasSteps w.lib d)
    (hav : AveragesSomething d) (hm : UsablePopulation d) (hb : BuildsControls d) (ha : w.Answers) (hr : w.Draws d) (hl : w.Log)
    (hc : r.calls ≠ []) : r.ended = .ok () := by
  rcases he : r.ended with e | u
  · exfalso
    rcases C96_only_user_errors h hp hs hav hm hb hr hl he with ⟨before, c, hb, hf⟩ | ⟨_, h, _⟩
    · have := C96_calls h before [] c hb
      obtain ⟨a, f, h1, h2⟩ := ha before c.1
      rw [h1] at this
      rcases hf with hf | ⟨_, a', h3, h4⟩
      · rw [this] at hf; cases hf
      · rw [this] at h3; cases h3; rw [h2] at h4; cases h4
    · exact hc h
  · rfl

end

/-! ### A concrete optimization -/

/-- the optimization `exProgram` with the default re-evaluation and at most seven evaluations -/
def exRepeated : PDict :=
  exSettings ([("max_eval_total", .num 7), ("re_evaluation", .dict (mkDict []))] ++ exAlg)
    [exPulse (exBasis "Sinc" []) [("bins_number", .num 3), ("lower_limit", .num (-1))]] [] [exTime]

/-- The third candidate is measured four times (the last four calls); the mean of the four values is reported. -/
theorem exRepeated_mean : shownOf (optimize (exAround (-1)) exRepeated) =
    some (7, true, [some 0, some (-1), some (-23 / 49), some (153 / 49), some (104 / 49), some (55 / 49), some (6 / 49)],
      (153 / 49 + 104 / 49 + 55 / 49 + 6 / 49) / 4, true) := by decide +kernel

/-- The hypotheses of `C96_best_mean` and `C96_only_user_errors` are met by this dictionary and these surroundings. -/
theorem exRepeated_hyps : IsDcrab exRepeated ∧ PlainControls exLib exRepeated ∧ StandardDictionary exRepeated ∧
    RepeatedMeasurements exLib exRepeated ∧ AveragesSomething exRepeated ∧ UsablePopulation exRepeated ∧ BuildsControls exRepeated ∧
    (exAround (-1)).Draws exRepeated := by
  have e1 : itemsAt exRepeated "pulses" = itemsAt exProgram "pulses" := rfl
  have e2 : itemsAt exRepeated "times" = itemsAt exProgram "times" := rfl
  have e3 : itemsAt exRepeated "parameters" = itemsAt exProgram "parameters" := rfl
  obtain ⟨h1, h2, _⟩ := exProgram_plain
  refine ⟨⟨.inl rfl, rfl⟩, ⟨h1.something, fun p hp => ?_, h1.times⟩, ⟨h2.pulses, h2.limits⟩, ⟨?_, ?_⟩, ?_, ?_, .inl ⟨.inl rfl, rfl⟩, (exAround_usable (-1)).2.1⟩
  · obtain ⟨a, b, c⟩ := h1.pulses p hp
    exact ⟨a, b, c⟩
  · intro v hv
    cases hv
  · intro m hm
    have : (0 : ℚ) = m := PVal_num_inj hm
    rw [← this]
  · intro q h
    have : (1 : ℚ) = q := PVal_num_inj h
    rw [← this]
  · intro q h
    cases h

end QuOCS

/-
C37 and C96 with drift compensation inside of the searches (`compensate_after_minutes`).
-/
import Verif.Props.ProgramMean
import Verif.Lemmas.DriftMinutes

set_option linter.unusedSectionVars false
set_option linter.unusedVariables false

namespace QuOCS

section
variable {K F : Type} [Field K] [LinearOrder K] [IsStrictOrderedRing K] [FloorRing K]
variable {M : MathFns K} {pd : List (PulseDict K)} {td : List (TimeDict K)} {rd : List (ParamDict K)}
variable {sqrt : K → K} {rnd : ℕ → ℕ → List K} {draws : ℕ → Vec K (searchDim pd rd)}
variable [Field F] [LinearOrder F] [IsStrictOrderedRing F]

/-- **C37, partial.** After a completed dCRAB run with Nelder-Mead (with or without drift compensation every few minutes) or CMA-ES in the
standard configuration and with a usable dictionary, without re-evaluation, with or without drift compensation after super-iterations: the
reported figure of merit is the initial value, or the mean over a group of successive evaluations, all of exactly the controls that
`get_best_controls` returns.
Missing: re-evaluation together with compensation by minutes (the value is then a mean of means over groups of different sizes); the
violations for `overwrite_base_pulse` and optimized times. -/
theorem C37_best_controls_drift_minutes_partial (hS : StandardControls M pd td rd) (hu : Usable pd td rd)
    (hr : ∀ k, EnoughRandom pd (rnd k)) {dsm : Dsm K (Vec K (searchDim pd rd)) F}
    (hd : (∃ c fuel, dsm = nelderMead c fuel) ∨ ∃ lib p fuel, dsm = cmaes lib p fuel) (cfg : AlgCfg K F)
    (env : Env (Vec K (searchDim pd rd)) (ControlsOut K) F) (hk : cfg.kind = .dcrab) (hre : cfg.reEval = none)
    (o : Controls K) (ho : mkControls M pd td rd = .ok o)
    (h : (execute cfg env (systemOps .dcrab M sqrt rnd draws) dsm o).1 = .ok ()) :
    let run := (execute cfg env (systemOps .dcrab M sqrt rnd draws) dsm o).2
    finalFoM cfg run = dirMul cfg.maximize cfg.fomMax ∨
    MeanOfCalls cfg (fun c => bestControls (systemOps .dcrab M sqrt rnd draws) run = .ok c.ctl) run.log (finalFoM cfg run) := by
  intro run
  obtain ⟨o1, h1, h2⟩ := mkControls_exists (M := M) hu
  obtain rfl : o1 = o := by rw [ho] at h1; cases h1; rfl
  have hR := system_reproMean (sqrt := sqrt) (draws := draws) hS hu hr
  refine mean_reported hS hu hr (BetweenMean.execute (env := env) (D := True) hR hk (by rw [hre]; simp) (fun _ => trivial) dsm
    (fun i x sim sg s a s' hs he => ?_) o1 h2 h)
  have ha : Announces [] (dsm i x sim sg) := by
    rcases hd with ⟨c, fuel, rfl⟩ | ⟨lib, p, fuel, rfl⟩
    · exact nelderMead_announces c fuel i x sim sg
    · exact .noDrift (cmaes_noDrift lib p fuel i x sim sg) _
  refine InMean.interp_announces hR hk hre (dsm i x sim sg) [] ha s a s' ⟨hs, ?_⟩ he
  intro before y it fs hh
  have : fs = [] := by
    rcases hh with hh | ⟨t, hh⟩
    · cases fs with
      | nil => rfl
      | cons f fs => simp [measurements] at hh
    · simp at hh
  subst this
  exact noMeasurements

end

section
variable {w : Surroundings} {d : PDict} {r : Outcome}

/-- **C96.** A completed dCRAB optimization with plain and standard controls and without re-evaluation, with or without drift compensation
after super-iterations or every few minutes: if the reported figure of merit is not the start value, it is the mean over a group of
successive calls, all with exactly the controls that are reported as the best ones. -/
theorem C96_best_mean_drift (h : optimize w d = some (.ok r)) (hk : IsDcrab d) (hp : PlainControls w.lib d) (hst : StandardDictionary d)
    (hs : entry d ["algorithm_settings", "re_evaluation"] = none) (hr : w.Draws d) (he : r.ended = .ok ()) :
    ((Maximizes d ∧ r.fom = -10 ^ 10) ∨ (¬ Maximizes d ∧ r.fom = 10 ^ 10)) ∨
    ∃ best, r.best = .ok best ∧ MeanOverCalls d r.calls best r.fom := by
  obtain ⟨s, cfg, dsm, o, h⟩ := optimize_parts h
  obtain ⟨hu, hf⟩ := usable_controls h.usesControls hp
  have hR := fun k => enough_random h.usesControls hp hr k
  have hK := h.dcrab hk
  have hre : cfg.reEval = none := by
    rcases h.uses.reEval with ⟨_, h⟩ | ⟨_, h, _⟩
    · exact h
    · rw [hs] at h; cases h
  have he' := he
  rw [h.ended] at he'
  unfold theRun at he'
  rw [hK] at he'
  have hd : (∃ c fuel, dsm = nelderMead c fuel) ∨ ∃ lib p fuel, dsm = cmaes lib p fuel := by
    have hd := h.hdsm
    unfold SearchSettings.dsm at hd
    split at hd
    · cases hd; exact .inl ⟨_, _, rfl⟩
    · obtain ⟨p, _, hp⟩ := Option.map_eq_some_iff.1 hd
      subst hp
      exact .inr ⟨_, _, _, rfl⟩
    · cases hd
  exact h.mean_over_calls hK (C37_best_controls_drift_minutes_partial (h.standard hu hf hst) hu hR hd cfg (w.env s.vars) hK hre o h.hcontrols he')

end

/-! ### A concrete optimization -/

/-- two super-iterations of at most six evaluations, drift compensation with two measurements every six seconds -/
def exMinutes : PDict :=
  exSettings [("algorithm_name", .str "dCRAB"), ("max_eval_total", .num 30),
      ("super_iteration_number", .num 2),
      ("compensate_drift", .dict (mkDict [("compensate_after_minutes", .num (1 / 10)), ("num_average", .num 2)])),
      ("dsm_settings", .dict (mkDict [("general_settings", .dict (mkDict [("dsm_algorithm_name", .str "NelderMead")])),
        ("stopping_criteria", .dict (mkDict [("max_eval", .num 6)]))]))]
    [exPulse (exBasis "Sinc" []) [("bins_number", .num 3), ("lower_limit", .num (-1))]] [] [exTime]

/-- The search of each super-iteration measures its best point twice (the last two calls); the mean of the two last values is reported. -/
theorem exMinutes_mean : shownOf (optimize (exAround (1 / 7)) exMinutes) =
    some (14, true, [some 0, some (82 / 49), some (89 / 49), some (159 / 196), some (4 / 7), some (5 / 7), some (6 / 7), some 1, some (8 / 7),
      some (138 / 49), some (145 / 49), some (383 / 196), some (12 / 7), some (13 / 7)], (12 / 7 + 13 / 7) / 2, true) := by decide +kernel

/-- The hypotheses of `C96_best_mean_drift` are met by this dictionary and these surroundings. -/
theorem exMinutes_hyps : IsDcrab exMinutes ∧ PlainControls exLib exMinutes ∧ StandardDictionary exMinutes ∧
    entry exMinutes ["algorithm_settings", "re_evaluation"] = none ∧ (exAround (1 / 7)).Draws exMinutes := by
  obtain ⟨h1, h2, _⟩ := exProgram_plain
  refine ⟨⟨.inl rfl, rfl⟩, ⟨h1.something, fun p hp => ?_, h1.times⟩, ⟨h2.pulses, h2.limits⟩, rfl, (exAround_usable (1 / 7)).2.1⟩
  obtain ⟨a, b, c⟩ := h1.pulses p hp
  exact ⟨a, b, c⟩

end QuOCS

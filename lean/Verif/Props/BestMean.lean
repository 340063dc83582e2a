/-
C37 and C38 with re-evaluation and drift compensation after super-iterations: the best figure of merit is a mean over a group of
evaluations.
-/
import Verif.Props.SuperIterations
import Verif.Lemmas.ControlsMean

set_option linter.unusedSectionVars false
set_option linter.unusedVariables false

namespace QuOCS

section
variable {K Q F : Type} [LE K] [DecidableLE K] [Field Q] [LinearOrder Q] [IsStrictOrderedRing Q]
variable [Field F] [LinearOrder F] [IsStrictOrderedRing F]
variable {M : MathFns Q} {pd : List (PulseDict Q)} {td : List (TimeDict Q)} {rd : List (ParamDict Q)}
variable (rnd : ℕ → ℕ → List Q) (simplex : ℕ → List Q → List Q → Py (List (List Q)))

/-- **C37, partial.** With re-evaluation (any thresholds, at least one) or without it, with or without drift compensation after
super-iterations: after a completed dCRAB run with the controls object of the library in its standard configuration, the reported figure
of merit is the initial value, or it is the mean over a group of successive evaluations, all of exactly the controls that
`get_best_controls` returns. Evaluations which the run skipped after a stop count with the placeholder.
Missing: drift compensation by minutes inside a search (`compensate_after_minutes` of Nelder-Mead), and the violations for
`overwrite_base_pulse` and optimized times. -/
theorem C37_best_controls_mean_partial (cfg : AlgCfg K F) (hS : StandardControls M pd td rd) (hk : cfg.kind = .dcrab)
    (hre : cfg.reEval ≠ some []) (env : Env (List Q) (ControlsOut Q) F) (dsm : Dsm K (List Q) F)
    (hdr : ∀ i x sim sg, (dsm i x sim sg).NoDrift) (o : Controls Q) (ho : mkControls M pd td rd = .ok o)
    (h : (execute cfg env (controlsOps M rnd simplex) dsm o).1 = .ok ()) :
    finalFoM cfg (execute cfg env (controlsOps M rnd simplex) dsm o).2 = dirMul cfg.maximize cfg.fomMax ∨
    MeanOfCalls cfg
      (fun c => bestControls (controlsOps M rnd simplex) (execute cfg env (controlsOps M rnd simplex) dsm o).2 = .ok c.ctl)
      (execute cfg env (controlsOps M rnd simplex) dsm o).2.log
      (finalFoM cfg (execute cfg env (controlsOps M rnd simplex) dsm o).2) := by
  have hR := reproMean_standard (rnd := rnd) (simplex := simplex) hS
  have hb := BetweenMean.execute (env := env) (D := True) hR hk hre
    (fun _ => trivial) dsm (fun i x sim sg => InMean.interp hR hk hre _ (hdr i x sim sg)) o (.create ho) h
  refine hb.best.imp (fun h1 => by unfold finalFoM; rw [h1]) fun hm => hm.mono (List.prefix_refl _) ?_
  rintro c ⟨⟨x, hx, hs⟩, _⟩
  unfold bestControls
  rw [hx]
  unfold Shows at hs
  generalize hg : (controlsOps M rnd simplex).getControls (execute cfg env (controlsOps M rnd simplex) dsm o).2.ctl x = r at hs
  simp only [bind, Except.bind]
  rw [hg]
  rcases r with e | r
  · cases hs
  · exact hs

variable {V C O : Type}

/-- **C38, partial.** The final results of a completed dCRAB run with or without re-evaluation, without drift compensation: the figure of
merit is the initial value, or the mean over a group of successive evaluations, all of them at vectors in the reported
`dcrab_para_list`. Holds for every controls object.
Missing: drift compensation; with re-evaluation the figure of merit need not be the best mean (the decision is probabilistic, C35). -/
theorem C38_final_results_mean_partial (cfg : AlgCfg K F) (env : Env V C F) (ops : CtlOps O V C) (hk : cfg.kind = .dcrab)
    (hre : cfg.reEval ≠ some []) (hsi : cfg.driftAfterSI = false) (dsm : Dsm K V F) (hdr : ∀ i x sim sg, (dsm i x sim sg).NoDrift) (o : O)
    (h : (execute cfg env ops dsm o).1 = .ok ()) :
    (finalResults cfg (execute cfg env ops dsm o).2).fom = dirMul cfg.maximize cfg.fomMax ∨
    ∃ l, (finalResults cfg (execute cfg env ops dsm o).2).paraList = some l ∧
      MeanOfCalls cfg (fun c => c.vec ∈ l) (execute cfg env ops dsm o).2.log
        (finalResults cfg (execute cfg env ops dsm o).2).fom := by
  have hb := BetweenMean.execute (env := env) (D := False) (ReproMean.triv (ops := ops)) hk hre (by simp [hsi]) dsm
    (fun i x sim sg => InMean.interp ReproMean.triv hk hre _ (hdr i x sim sg)) o trivial h
  have e1 : (finalResults cfg (execute cfg env ops dsm o).2).fom = dirMul cfg.maximize (execute cfg env ops dsm o).2.bestFoM := by
    unfold finalResults; rw [hk]
  have e2 : (finalResults cfg (execute cfg env ops dsm o).2).paraList = some (execute cfg env ops dsm o).2.paraList := by
    unfold finalResults; rw [hk]
  rw [e1]
  refine hb.best.imp (fun h1 => by rw [h1]) fun hm => ⟨_, e2, hm.mono (List.prefix_refl _) ?_⟩
  rintro c ⟨_, h1 | h1⟩
  · cases h1
  · exact h1

end

/-- a run with two super-iterations as in `siRun`, with re-evaluation and drift compensation -/
def siRunRe (re : Option (List ℚ)) (drift : Bool) (fs : List ℚ) :
    Py (ℚ × List (Option ℚ × List (List ℚ) × List (List ℚ) × List ℚ) × List (List ℚ) × List (List ℚ) × List ℚ) := do
  let o ← mkControls exFns (siPd false) exTd siRd
  let cfg := { exCfg .dcrab 100 false none re with driftAfterSI := drift, driftAverage := 2 }
  let r := execute cfg (siEnv fs) siOps siDsm o
  r.1
  let b ← bestControls siOps r.2
  pure (finalFoM cfg r.2, r.2.log.map (fun c => (c.value, c.ctl.pulses, c.ctl.timegrids, c.ctl.parameters)),
    b.pulses, b.timegrids, b.parameters)

set_option synthInstance.maxSize 1000 in
/-- The hypotheses are met with re-evaluation: the reported figure of merit 2 is the mean of the three evaluations 3, 1, 2 of the best
controls in the second super-iteration. -/
example : siRunRe (some [1/10, 1/5]) false [5, 6, 4, 3, 4, 3, 1, 2, 3] = .ok (2,
    [(some 5, [[1, 2]], [[0, 2]], [2]), (some 6, [[1, 2]], [[0, 2]], [2]),
     (some 4, [[3, 1]], [[0, 2]], [1]), (some 3, [[3, 1]], [[0, 2]], [1]), (some 4, [[3, 1]], [[0, 2]], [1]),
     (some 3, [[4, 3]], [[0, 2]], [2]), (some 1, [[4, 3]], [[0, 2]], [2]), (some 2, [[4, 3]], [[0, 2]], [2]),
     (some 3, [[5, 2]], [[0, 2]], [1])],
    [[4, 3]], [[0, 2]], [2]) := by decide +kernel

set_option synthInstance.maxSize 1000 in
/-- The hypotheses are met with drift compensation: the best controls of the first super-iteration are measured twice more, with 7 and 9;
the second super-iteration finds nothing better than the mean 8. -/
example : siRunRe none true [5, 4, 7, 9, 10, 12] = .ok (8,
    [(some 5, [[1, 2]], [[0, 2]], [2]), (some 4, [[3, 1]], [[0, 2]], [1]),
     (some 7, [[3, 1]], [[0, 2]], [1]), (some 9, [[3, 1]], [[0, 2]], [1]),
     (some 10, [[4, 3]], [[0, 2]], [2]), (some 12, [[5, 2]], [[0, 2]], [1])],
    [[3, 1]], [[0, 2]], [1]) := by decide +kernel

/-- The searches in these examples do not compensate for drift by themselves. -/
example : (∀ i x sim sg, (siDsm i x sim sg).NoDrift) ∧ StandardControls exFns (siPd false) exTd siRd :=
  ⟨fun i x sim sg => by simp [siDsm, evalPoints, Strat.NoDrift], siStandard⟩

end QuOCS

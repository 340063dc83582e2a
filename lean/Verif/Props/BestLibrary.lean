/-
C04 and C37 for the search methods of the library.
-/
import Verif.Props.Continue

set_option linter.unusedSectionVars false
set_option linter.unusedVariables false

namespace QuOCS

section
variable {K F : Type} [Field K] [LinearOrder K] [IsStrictOrderedRing K] [FloorRing K]
variable [Add F] [Sub F] [Mul F] [Div F] [Neg F] [Zero F] [One F] [NatCast F] [LE F] [LT F] [DecidableLE F]
  [DecidableLT F] [FloatOrder F]

/-- One of the search methods of the library, without `compensate_after_minutes`. -/
def LibrarySearch {n : ℕ} (dsm : Dsm K (Vec K n) F) : Prop :=
  (∃ (c : NmCfg K F n) (fuel : ℕ), c.driftMinutes ≤ 0 ∧ dsm = nelderMead c fuel) ∨ ∃ lib p fuel, dsm = cmaes lib p fuel

theorem LibrarySearch.noDrift {n : ℕ} {dsm : Dsm K (Vec K n) F} (h : LibrarySearch dsm) {cfg : AlgCfg K F}
    (hc : cfg.driftAfterSI = false) : NoDriftRun cfg dsm := by
  refine ⟨hc, fun i x sim sg => ?_⟩
  rcases h with ⟨c, fuel, h1, rfl⟩ | ⟨lib, p, fuel, rfl⟩
  · exact nelderMead_noDrift c h1 fuel i x sim sg
  · exact cmaes_noDrift lib p fuel i x sim sg

/-- **C04, partial.** A dCRAB or DirectSearch run of the library with Nelder-Mead or CMA-ES, without re-evaluation and drift
compensation, for every controls object, every user's function, all stop requests: the reported best figure of merit is not
beaten by any value that the user's function returned, and it is the initial value or one of these values.
Missing: re-evaluation and drift compensation, see C36, C91 and the counterexamples to C04. -/
theorem C04_best_is_optimum_library_partial {n : ℕ} {O C : Type} {dsm : Dsm K (Vec K n) F} (hd : LibrarySearch dsm)
    (cfg : AlgCfg K F) (env : Env (Vec K n) C F) (ops : CtlOps O (Vec K n) C) (hre : NoReEval cfg)
    (hdr : cfg.driftAfterSI = false) (hmax : ¬ FloatOrder.IsNaN cfg.fomMax) (o : O) :
    (∀ c ∈ (execute cfg env ops dsm o).2.log, ∀ f, c.value = some f →
      ¬ Better cfg.maximize f (finalFoM cfg (execute cfg env ops dsm o).2)) ∧
    (finalFoM cfg (execute cfg env ops dsm o).2 = dirMul cfg.maximize cfg.fomMax ∨
      ∃ c ∈ (execute cfg env ops dsm o).2.log, c.value = some (finalFoM cfg (execute cfg env ops dsm o).2)) :=
  let h := C04_best_is_optimum_partial cfg env ops hre hmax dsm (hd.noDrift hdr) o
  ⟨h.1, h.2.2⟩

variable {M : MathFns K} {pd : List (PulseDict K)} {td : List (TimeDict K)} {rd : List (ParamDict K)}
variable {sqrt : K → K} {rnd : ℕ → ℕ → List K} {draws : ℕ → Vec K (searchDim pd rd)}

/-- **C37, partial.** After a completed dCRAB run with Nelder-Mead or CMA-ES in the standard configuration and with a usable
dictionary: the reported best figure of merit is the initial value, or the user's function returned it for exactly the controls
that `get_best_controls` returns.
Missing: as in `C37_best_controls_reproduced_partial`. -/
theorem C37_best_controls_reproduced_library_partial (hS : StandardControls M pd td rd) (hu : Usable pd td rd)
    (hr : ∀ k, EnoughRandom pd (rnd k)) {dsm : Dsm K (Vec K (searchDim pd rd)) F} (hd : LibrarySearch dsm) (cfg : AlgCfg K F)
    (env : Env (Vec K (searchDim pd rd)) (ControlsOut K) F) (hk : cfg.kind = .dcrab) (hre : cfg.reEval = none)
    (hdr : cfg.driftAfterSI = false) (o : Controls K) (ho : mkControls M pd td rd = .ok o)
    (h : (execute cfg env (systemOps .dcrab M sqrt rnd draws) dsm o).1 = .ok ()) :
    let run := (execute cfg env (systemOps .dcrab M sqrt rnd draws) dsm o).2
    finalFoM cfg run = dirMul cfg.maximize cfg.fomMax ∨
    ∃ c ∈ run.log, c.value = some (finalFoM cfg run) ∧ bestControls (systemOps .dcrab M sqrt rnd draws) run = .ok c.ctl := by
  intro run
  obtain ⟨o1, h1, h2⟩ := mkControls_exists (M := M) hu
  obtain rfl : o1 = o := by rw [ho] at h1; cases h1; rfl
  have hb := BetweenSI.execute (env := env) (system_reproducible (sqrt := sqrt) (draws := draws) hS hu hr).repro (.inr hre)
    (by rw [hk]; simp) dsm (hd.noDrift hdr) o1 h2 () h
  rcases hb.best with h1 | ⟨c, hc, f, hf, h1, ⟨x, hx, hs⟩, _⟩
  · left; show finalFoM cfg _ = _; unfold finalFoM; rw [h1]
  · refine .inr ⟨c, hc, ?_, ?_⟩
    · show _ = some (finalFoM cfg _)
      unfold finalFoM; rw [h1, dirMul_dirMul]; exact hf
    · obtain ⟨best, hbest⟩ := system_best (F := F) (V := Unit) (sqrt := sqrt) (draws := draws) hu hr hb.inv
      obtain ⟨x', hx', hs'⟩ := showsMean_of_best hbest
      rw [hx] at hx'; cases hx'
      unfold Shows at hs hs'
      rw [hs] at hs'; cases hs'
      exact hbest

end

/-- the hypotheses are met by the run `exKRun (exKPd 1) exKRd` -/
example : LibrarySearch (cmaes exCmaLib (some 2) 5 : Dsm ℚ (Vec ℚ 2) ℚ) ∧ StandardControls exFns (exKPd 1) exTd exKRd ∧
    Usable (exKPd 1) exTd exKRd ∧ NoReEval exSCfg ∧ exSCfg.driftAfterSI = false :=
  ⟨.inr ⟨_, _, _, rfl⟩, ⟨fun d h => .inl (exK_continuable.shaping d h), by simp [exKPd, exDict], fun d h => zeroUpdate_usable (exK_continuable.usable.pulses d h) (exK_continuable.bases d h),
    exK_continuable.times, exK_continuable.limits⟩, exK_continuable.usable, .inr rfl, rfl⟩

end QuOCS

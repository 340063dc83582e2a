/-
Properties of the results of whole runs: C37 (reproducing the best controls), C38 (final results),
C39 (number of super-iterations).
-/
import Verif.Lemmas.Reproduce
import Verif.Lemmas.ControlsRepro
import Verif.Lemmas.Hoare
import Verif.Model.Results
import Verif.Props.Best
import Verif.Props.Bases

set_option linter.unusedSectionVars false
set_option linter.unusedVariables false

namespace QuOCS

variable {K V C O F : Type} [LE K] [DecidableLE K]
variable [Add F] [Sub F] [Mul F] [Div F] [Neg F] [Zero F] [One F] [NatCast F] [LE F] [LT F] [DecidableLE F]
  [DecidableLT F] [FloatOrder F]
variable (cfg : AlgCfg K F)

/-! ### C37: the best controls can be reproduced -/

section
variable {Q : Type} [Field Q] [LinearOrder Q] [IsStrictOrderedRing Q]
variable {M : MathFns Q} {pd : List (PulseDict Q)} {td : List (TimeDict Q)} {rd : List (ParamDict Q)}
variable (rnd : ℕ → ℕ → List Q) (simplex : ℕ → List Q → List Q → Py (List (List Q)))

/-- **C37, partial.** After a completed dCRAB or GRAPE run with the controls object of the library in its standard
configuration (the default shaping options or a list that adds the base pulse and then the update, accumulated base pulses, fixed times, bases that give no update at zero coefficients),
without re-evaluation and drift compensation: the reported figure of merit is the initial value, or it was returned by
the user's function for exactly the controls that `get_best_controls` returns.
Missing: the property fails for `overwrite_base_pulse`, for optimized times and for shaping options without the base pulse, see
below. -/
theorem C37_best_controls_reproduced_partial (hS : StandardControls M pd td rd) (hre : NoReEval cfg)
    (hk : cfg.kind ≠ .directSearch) (env : Env (List Q) (ControlsOut Q) F) (dsm : Dsm K (List Q) F)
    (hdr : NoDriftRun cfg dsm) (o : Controls Q) (ho : mkControls M pd td rd = .ok o)
    (h : (execute cfg env (controlsOps M rnd simplex) dsm o).1 = .ok ()) :
    finalFoM cfg (execute cfg env (controlsOps M rnd simplex) dsm o).2 = dirMul cfg.maximize cfg.fomMax ∨
    ∃ c ∈ (execute cfg env (controlsOps M rnd simplex) dsm o).2.log,
      c.value = some (finalFoM cfg (execute cfg env (controlsOps M rnd simplex) dsm o).2) ∧
      bestControls (controlsOps M rnd simplex) (execute cfg env (controlsOps M rnd simplex) dsm o).2 = .ok c.ctl := by
  have hb := BetweenSI.execute (env := env) (reproducible_standard (rnd := rnd) (simplex := simplex) hS).repro hre hk dsm hdr o (.create ho) () h
  rcases hb.best with h1 | ⟨c, hc, f, hf, h1, ⟨x, hx, hs⟩, _⟩
  · left; unfold finalFoM; rw [h1]
  · refine .inr ⟨c, hc, ?_, ?_⟩
    · unfold finalFoM; rw [h1, dirMul_dirMul]; exact hf
    · unfold bestControls
      rw [hx]
      unfold Shows at hs
      generalize hg : (controlsOps M rnd simplex).getControls
        (execute cfg env (controlsOps M rnd simplex) dsm o).2.ctl x = r at hs
      simp only [bind, Except.bind]
      rw [hg]
      rcases r with e | r
      · cases hs
      · exact hs

/-- The bases for which zero coefficients give no update, and hence a standard configuration. -/
theorem C37_zeroUpdate (d : PulseDict Q) (h : LinearBasis d.basis ∨ ∃ n, d.basis = .chebyshev n) : ZeroUpdate M d :=
  fun p hp T => C41_zero_coefficients_zero_update hp h T
end

/-! Concrete runs with the library's controls object: two super-iterations, the best evaluation is in the first. -/

/-- one piecewise-constant pulse with two samples, one parameter -/
def siPd (ow : Bool) : List (PulseDict ℚ) :=
  [{ exDict with binsNumber := 2, basis := .piecewise, guess := .array [0, 0], scaling := .array [1, 1]
                 shapingOptions := none, lowerLimit := -5, upperLimit := 5, overwrite := ow }]
def siRd : List (ParamDict ℚ) := [{ name := "a", initialValue := 1, lower := 0, upper := 2, amplitudeVariation := 1/2 }]
def siOps : CtlOps (Controls ℚ) (List ℚ) (ControlsOut ℚ) :=
  controlsOps exFns (fun _ _ => [1/2, 1/2]) (fun _ _ _ => .ok [])
def siEnv (fs : List ℚ) : Env (List ℚ) (ControlsOut ℚ) ℚ :=
  { getFoM := fun h _ => exAns fs h.length, async := fun _ => .none, clock := fun n => n, sqrt := id, cdf := id }
def siDsm : Dsm ℚ (List ℚ) ℚ := fun _ x0 _ _ => evalPoints x0 0 [[1, 2, 2], [3, 1, 1]] 0

/-- figure of merit, controls of all calls, best controls -/
def siRun (ow : Bool) (td : List (TimeDict ℚ)) (fs : List ℚ) :
    Py (ℚ × List (Option ℚ × List (List ℚ) × List (List ℚ) × List ℚ) × List (List ℚ) × List (List ℚ) × List ℚ) := do
  let o ← mkControls exFns (siPd ow) td siRd
  let cfg := exCfg .dcrab 100 false none none
  let r := execute cfg (siEnv fs) siOps siDsm o
  r.1
  let b ← bestControls siOps r.2
  pure (finalFoM cfg r.2, r.2.log.map (fun c => (c.value, c.ctl.pulses, c.ctl.timegrids, c.ctl.parameters)),
    b.pulses, b.timegrids, b.parameters)

theorem siStandard : StandardControls exFns (siPd false) exTd siRd := by
  refine ⟨?_, ?_, ?_, ?_, ?_⟩
  · intro d hd; simp [siPd] at hd; subst hd; exact .inl rfl
  · intro d hd; simp [siPd] at hd; subst hd; rfl
  · intro d hd; simp [siPd] at hd; subst hd; exact C37_zeroUpdate _ (.inl (by simp [LinearBasis]))
  · intro d hd; simp [exTd] at hd; subst hd; rfl
  · intro d hd; simp [siRd] at hd; subst hd; decide

set_option synthInstance.maxSize 1000 in
/-- The hypotheses of C37 are met by this run; the best controls are those of the third call. -/
example : siRun false exTd [3, 4, 1, 2] = .ok (1,
    [(some 3, [[1, 2]], [[0, 2]], [2]), (some 4, [[3, 1]], [[0, 2]], [1]),
     (some 1, [[2, 4]], [[0, 2]], [2]), (some 2, [[4, 3]], [[0, 2]], [1])],
    [[2, 4]], [[0, 2]], [2]) := by decide +kernel

set_option synthInstance.maxSize 1000 in
/-- **C37 is violated with `overwrite_base_pulse`**: the best figure of merit 3 was measured with the pulse `[1, 2]`, the
second super-iteration finds nothing better, overwrites the base pulse with its zero update, and `get_best_controls`
returns the pulse `[0, 0]`. -/
theorem C37_overwrite_loses_best : siRun true exTd [3, 4, 5, 6] = .ok (3,
    [(some 3, [[1, 2]], [[0, 2]], [2]), (some 4, [[3, 1]], [[0, 2]], [1]),
     (some 5, [[2, 4]], [[0, 2]], [2]), (some 6, [[4, 3]], [[0, 2]], [1])],
    [[0, 0]], [[0, 2]], [2]) := by decide +kernel

set_option synthInstance.maxSize 1000 in
/-- **C37 is violated with an optimized time**: the best figure of merit 1 was measured with the time grid up to 3,
`get_best_controls` returns the same pulse with the time grid up to 2. -/
theorem C37_optimized_time_not_reproduced : siRun false exTdOpt [3, 4, 1, 2] = .ok (1,
    [(some 3, [[1, 2]], [[0, 3]], [2]), (some 4, [[3, 1]], [[0, 3]], [1]),
     (some 1, [[2, 4]], [[0, 3]], [2]), (some 2, [[4, 3]], [[0, 3]], [1])],
    [[2, 4]], [[0, 2]], [2]) := by decide +kernel

/-- the same run with the shaping options `names` -/
def siRunS (names : List String) (fs : List ℚ) : Py (ℚ × List (Option ℚ × List (List ℚ)) × List (List ℚ)) := do
  let o ← mkControls exFns ((siPd false).map fun d => { d with shapingOptions := some names }) exTd siRd
  let cfg := exCfg .dcrab 100 false none none
  let r := execute cfg (siEnv fs) siOps siDsm o
  r.1
  let b ← bestControls siOps r.2
  pure (finalFoM cfg r.2, r.2.log.map (fun c => (c.value, c.ctl.pulses)), b.pulses)

/-- a list of shaping options that meets the hypothesis: limits first, no scaling, an unknown name at the end -/
example : StandardControls exFns ((siPd false).map fun d =>
    { d with shapingOptions := some ["limit_pulse", "add_base_pulse", "add_new_update_pulse", "add_initial_guess", "sharpen"] }) exTd siRd := by
  refine ⟨?_, ?_, ?_, siStandard.times, siStandard.limits⟩
  · intro d hd; simp [siPd] at hd; subst hd
    exact .inr ⟨["limit_pulse"], ["add_initial_guess", "sharpen"], rfl, by decide⟩
  · intro d hd; simp [siPd] at hd; subst hd; rfl
  · intro d hd; simp [siPd] at hd; subst hd; exact C37_zeroUpdate _ (.inl (by simp [LinearBasis]))

set_option synthInstance.maxSize 1000 in
example : siRunS ["limit_pulse", "add_base_pulse", "add_new_update_pulse", "add_initial_guess", "sharpen"] [3, 4, 5, 6] =
    .ok (3, [(some 3, [[1, 2]]), (some 4, [[3, 1]]), (some 5, [[2, 4]]), (some 6, [[4, 3]])], [[1, 2]]) := by decide +kernel

set_option synthInstance.maxSize 1000 in
/-- **C37 is violated by shaping options without `add_base_pulse`**: the best figure of merit 3 was measured with the pulse `[1, 2]`,
`get_best_controls` returns the initial guess `[0, 0]`. -/
theorem C37_no_base_pulse_loses_best :
    siRunS ["add_initial_guess", "add_new_update_pulse", "scale_pulse", "limit_pulse"] [3, 4, 5, 6] =
    .ok (3, [(some 3, [[1, 2]]), (some 4, [[3, 1]]), (some 5, [[1, 2]]), (some 6, [[3, 1]])], [[0, 0]]) := by decide +kernel

/-! ### C38: final results -/

variable (env : Env V C F) (ops : CtlOps O V C)

/-- **C38, partial.** The final results of a completed dCRAB run without re-evaluation and drift compensation: the
figure of merit is not beaten by any measured one, and it is the initial value or was measured at a vector that is in the
reported `dcrab_para_list`. Holds for every controls object.
Missing: DirectSearch reports the wrong parameters, see below; GRAPE reports no parameters. -/
theorem C38_final_results_partial (hre : NoReEval cfg) (hmax : ¬ FloatOrder.IsNaN cfg.fomMax) (hk : cfg.kind = .dcrab)
    (dsm : Dsm K V F) (hdr : NoDriftRun cfg dsm) (o : O) (h : (execute cfg env ops dsm o).1 = .ok ()) :
    (∀ c ∈ (execute cfg env ops dsm o).2.log, ∀ f, c.value = some f →
      ¬ Better cfg.maximize f (finalResults cfg (execute cfg env ops dsm o).2).fom) ∧
    ((finalResults cfg (execute cfg env ops dsm o).2).fom = dirMul cfg.maximize cfg.fomMax ∨
      ∃ c ∈ (execute cfg env ops dsm o).2.log, ∃ l, (finalResults cfg (execute cfg env ops dsm o).2).paraList = some l ∧
        c.value = some (finalResults cfg (execute cfg env ops dsm o).2).fom ∧ c.vec ∈ l) := by
  have hfom : (finalResults cfg (execute cfg env ops dsm o).2).fom = finalFoM cfg (execute cfg env ops dsm o).2 := by
    unfold finalResults; rw [hk]; rfl
  have hl : (finalResults cfg (execute cfg env ops dsm o).2).paraList = some (execute cfg env ops dsm o).2.paraList := by
    unfold finalResults; rw [hk]
  rw [hfom, hl]
  refine ⟨(C04_best_is_optimum_partial cfg env ops hre hmax dsm hdr o).1, ?_⟩
  have hb := BetweenSI.execute (env := env) (Repro.triv (ops := ops)) hre (by rw [hk]; decide) dsm hdr o trivial () h
  rcases hb.best with h1 | ⟨c, hc, f, hf, h1, _, hv⟩
  · left; unfold finalFoM; rw [h1]
  · exact .inr ⟨c, hc, _, rfl, by unfold finalFoM; rw [h1, dirMul_dirMul]; exact hf, hv⟩

/-- The hypotheses are met; the best point 2 is listed, with the best point of the other super-iteration. -/
example : ((execute (exCfg .dcrab 100 false none none) (exEnv (exAns [5, 3, 4, 1]) (fun _ => .none)) exOps
      (exDsm [1, 2]) ()).1.toOption = some ()) ∧
    (finalResults (exCfg .dcrab 100 false none none) (execute (exCfg .dcrab 100 false none none)
      (exEnv (exAns [5, 3, 4, 1]) (fun _ => .none)) exOps (exDsm [1, 2]) ()).2).paraList = some [2, 2] := by
  decide +kernel

/-- **C38** (number of evaluations). The reported number of evaluations is the number of calls of the user's function;
it is one more only if a stop request or an exception came between counting and calling. -/
theorem C38_reported_evaluations (dsm : Dsm K V F) (o : O) (n : ℕ)
    (hn : (finalResults cfg (execute cfg env ops dsm o).2).evaluations = some n) :
    n = (execute cfg env ops dsm o).2.log.length ∨
    n = (execute cfg env ops dsm o).2.log.length + 1 ∧
      ((∃ k, env.async k ≠ .none) ∨ ∃ e, (execute cfg env ops dsm o).1 = .error e) := by
  have hn' : n = (execute cfg env ops dsm o).2.iter := by
    unfold finalResults at hn
    rcases hkind : cfg.kind <;> rw [hkind] at hn
    · exact (Option.some.inj hn).symm
    · cases hn
    · exact (Option.some.inj hn).symm
  have hinv := execute_inv (cfg := cfg) (env := env) (ops := ops) (d := true)
    (fun s => s.iter = s.log.length ∨ s.iter = s.log.length + 1 ∧ s.running = false ∧ ∃ k, env.async k ≠ .none)
    (fun s => s.iter = s.log.length ∨ s.iter = s.log.length + 1) dsm o (.inl rfl) (.inl rfl)
  refine (fun h => ?_) (hinv ?_ ?_ (fun s h => h.imp_right fun h => h.1))
  · obtain ⟨h1, h2⟩ := h
    subst hn'
    rcases hr : (execute cfg env ops dsm o).1 with e | u
    · rcases h1 with h | h
      · exact .inl h
      · exact .inr ⟨h, .inr ⟨e, rfl⟩⟩
    · rcases h2 (by rw [hr]; rfl) with h | h
      · exact .inl h
      · exact .inr ⟨h.1, .inl h.2.2⟩
  · intro s s' ha hs
    cases ha.eff with
    | still hl hi _ hr _ => rw [hl, hi]; exact hs.imp_right fun h => ⟨h.1, hr h.2.1, h.2.2⟩
    | counted hl hi _ hr _ hs' =>
      rcases hs with h | h
      · exact .inr ⟨by rw [hi, hl, h], hs' rfl⟩
      · rw [h.2.1] at hr; cases hr
    | measured c hl hi _ hr _ _ _ _ _ _ =>
      rcases hs with h | h
      · exact .inl (by rw [hi, hl, h, List.length_append]; rfl)
      · rw [h.2.1] at hr; cases hr
  · intro s s' ha hs
    cases ha.eff with
    | still hl hi _ hr _ => rw [hl, hi]; exact hs.imp_right fun h => h.1
    | counted hl hi _ hr _ hs' =>
      rcases hs with h | h
      · exact .inr (by rw [hi, hl, h])
      · rw [h.2.1] at hr; cases hr
    | measured c hl hi _ hr _ _ _ _ _ _ =>
      rcases hs with h | h
      · exact .inl (by rw [hi, hl, h, List.length_append]; rfl)
      · rw [h.2.1] at hr; cases hr

/-- Both cases occur: all three calls counted; a stop request between counting and calling. -/
example : (finalResults (exCfg .dcrab 3 false none none) (execute (exCfg .dcrab 3 false none none)
      (exEnv (exAns [5, 3, 4, 1]) (fun _ => .none)) exOps (exDsm [1, 2]) ()).2).evaluations = some 3 ∧
    (let r := execute (exCfg .dcrab 3 false none none) (exEnv (exAns [5, 3, 4, 1])
      (fun n => if n = 6 then .guiStop else .none)) exOps (exDsm [1, 2]) ()
     r.2.iter = 2 ∧ r.2.log.length = 1) := by
  decide +kernel

/-- **C38 is violated by DirectSearch**: the reported figure of merit 3 belongs to the point 1, the reported parameters
are those of the last evaluation, 2. -/
theorem C38_directSearch_reports_last_point :
    ∃ (cfg : AlgCfg ℚ ℚ) (env : Env ℚ ℚ ℚ) (dsm : Dsm ℚ ℚ ℚ), NoReEval cfg ∧ NoDriftRun cfg dsm ∧
      cfg.kind = .directSearch ∧ (finalResults cfg (execute cfg env exOps dsm ()).2).fom = 3 ∧
      (finalResults cfg (execute cfg env exOps dsm ()).2).parameters = some (some 2) ∧
      (execute cfg env exOps dsm ()).2.log.map (fun c => (c.value, c.vec)) = [(some 3, 1), (some 4, 2)] :=
  ⟨exCfg .directSearch 100 false none none, exEnv (exAns [3, 4]) (fun _ => .none), exDsm [1, 2], .inr rfl,
    ⟨rfl, fun i x sim sg => by simp [exDsm, evalPoints, Strat.NoDrift]⟩, rfl, by decide +kernel, by decide +kernel,
    by decide +kernel⟩

/-! ### C39: super-iterations -/

omit [FloatOrder F] in
theorem drawn_stable (l : List ℕ) :
    Stable (recording ops) (fun s : AlgState V C (O × List ℕ) F => s.ctl.2 = l) := by
  refine ⟨fun s s' h _ hc _ => by rw [hc]; exact h, ?_⟩
  intro s x o c h hg
  simp only [recording] at hg
  rcases hr : ops.getControls s.ctl.1 x with e | r
  · rw [hr] at hg; cases hg
  · rw [hr] at hg
    cases hg
    exact h

omit [FloatOrder F] in
theorem drawn_update (l : List ℕ) (s : AlgState V C (O × List ℕ) F) (x : V) (o : O × List ℕ) (h : s.ctl.2 = l)
    (hu : (recording ops).updateBase s.ctl x = .ok o) : o.2 = l := by
  simp only [recording] at hu
  rcases hr : ops.updateBase s.ctl.1 x with e | r
  · rw [hr] at hu; cases hu
  · rw [hr] at hu
    cases hu
    exact h

omit [FloatOrder F] in
/-- A super-iteration draws one basis. -/
theorem superIteration_draws (dsm : Dsm K V F) (k : ℕ) (s : AlgState V C (O × List ℕ) F) :
    ((superIteration cfg env (recording ops) dsm k s).2.ctl.2 = s.ctl.2 ∧
      ∃ e, (superIteration cfg env (recording ops) dsm k s).1 = .error e) ∨
    (superIteration cfg env (recording ops) dsm k s).2.ctl.2 = s.ctl.2 ++ [k] := by
  have hE : Errs env (recording ops) (fun _ => True) := .all
  have hP := drawn_stable (F := F) ops s.ctl.2
  have hQ := drawn_stable (F := F) ops (s.ctl.2 ++ [k])
  have hrest : Safe (fun s' : AlgState V C (O × List ℕ) F => s'.ctl.2 = s.ctl.2 ++ [k]) (fun _ => True) (do
      dsmBuild cfg env (recording ops) dsm
      updateBasePulses (recording ops)) :=
    .bind (hQ.dsmBuild hE dsm fun i x sim sg => hQ.interp hE (fun s b h => h) (fun _ => trivial) _) fun _ =>
      hQ.updateBasePulses hE (fun s x o h hu => drawn_update ops _ s x o h hu)
  unfold superIteration
  rw [Prog.bind_apply]
  unfold readClock withSc
  dsimp only
  rw [Prog.modify_bind, Prog.modify_bind, Prog.bind_apply]
  generalize hs1 : ({ s with ticks := s.ticks + 1, sc := { s.sc with startTime := env.clock s.ticks, track := [] }, superIt := k } : AlgState V C (O × List ℕ) F) = s1
  have h1 : s1.ctl.2 = s.ctl.2 := by rw [← hs1]
  obtain ⟨h2, -⟩ := hP.driftStep (cfg := cfg) hE k s1 h1
  rcases hd : driftStep cfg env (recording ops) k s1 with ⟨e | u, s2⟩
  · rw [hd] at h2
    exact .inl ⟨h2, e, rfl⟩
  · rw [hd] at h2
    dsimp only at h2 ⊢
    rw [Prog.get_bind, Prog.bind_apply, Prog.lift_apply]
    rcases ho : (recording ops).selectBasis k s2.ctl with e | o
    · exact .inl ⟨h2, e, rfl⟩
    · dsimp only
      rw [Prog.modify_bind]
      refine .inr (hrest _ ?_).1
      simp only [recording] at ho
      rcases hr : ops.selectBasis k s2.ctl.1 with e | r
      · rw [hr] at ho; cases ho
      · rw [hr] at ho
        cases ho
        simp [h2]

omit [FloatOrder F] in
theorem dcrabLoop_draws (dsm : Dsm K V F) (n k : ℕ) (s : AlgState V C (O × List ℕ) F) :
    ∃ m ≤ n, (dcrabLoop cfg env (recording ops) dsm n k s).2.ctl.2 = s.ctl.2 ++ List.range' k m ∧
      ((dcrabLoop cfg env (recording ops) dsm n k s).1 = .ok () →
        m = n ∨ (dcrabLoop cfg env (recording ops) dsm n k s).2.running = false) := by
  induction n generalizing k s with
  | zero => exact ⟨0, le_rfl, by simp [dcrabLoop, pure, Prog.pure], fun _ => .inl rfl⟩
  | succ n ih =>
    unfold dcrabLoop
    rw [Prog.bind_apply]
    have hp := (drawn_stable (F := F) ops s.ctl.2).poll (cfg := cfg) (env := env) (E := fun _ => True) .all s rfl
    rcases hs : poll cfg env s with ⟨e | u, s1⟩
    · rw [hs] at hp
      exact ⟨0, by omega, by simpa using hp.1, fun h => by cases h⟩
    · rw [hs] at hp
      dsimp only at hp ⊢
      rw [Prog.get_bind]
      by_cases hr : s1.running = false
      · rw [if_pos hr]
        exact ⟨0, by omega, by simpa using hp.1, fun _ => .inr hr⟩
      · rw [if_neg hr, Prog.bind_apply]
        have hd := superIteration_draws cfg env ops dsm k s1
        rcases hsi : superIteration cfg env (recording ops) dsm k s1 with ⟨e | u, s2⟩
        · rw [hsi] at hd
          rcases hd with hd | hd
          · exact ⟨0, by omega, by simpa using hd.1.trans hp.1, fun h => by cases h⟩
          · exact ⟨1, by omega, by simpa [hp.1] using hd, fun h => by cases h⟩
        · rw [hsi] at hd
          have hd : s2.ctl.2 = s1.ctl.2 ++ [k] := by
            rcases hd with ⟨_, e, he⟩ | hd
            · cases he
            · exact hd
          dsimp only
          obtain ⟨m, h1, h2, h3⟩ := ih (k + 1) s2
          refine ⟨m + 1, by omega, ?_, fun h => (h3 h).imp_left fun h => by omega⟩
          rw [h2, hd, hp.1, List.range'_succ]
          simp

/-- **C39.** A dCRAB run draws a new basis exactly once for each of the super-iterations `1, 2, ..., m`, in this order,
with `m` at most the configured number of super-iterations; a run that ends without exception has executed all of them
or was stopped. (`recording ops` is the controls object that also notes for which super-iterations a basis was drawn.) -/
theorem C39_super_iterations (hk : cfg.kind = .dcrab) (dsm : Dsm K V F) (o : O) :
    ∃ m ≤ cfg.maxSI, (execute cfg env (recording ops) dsm (o, [])).2.ctl.2 = List.range' 1 m ∧
      ((execute cfg env (recording ops) dsm (o, [])).1 = .ok () →
        m = cfg.maxSI ∨ (execute cfg env (recording ops) dsm (o, [])).2.running = false) := by
  have he : execute cfg env (recording ops) dsm (o, []) = dcrabLoop cfg env (recording ops) dsm cfg.maxSI 1 (initState cfg env (o, [])) := by
    unfold execute run
    rw [hk]
  obtain ⟨m, h1, h2, h3⟩ := dcrabLoop_draws cfg env ops dsm cfg.maxSI 1 (initState cfg env (o, []))
  rw [he]
  exact ⟨m, h1, by rw [h2]; rfl, h3⟩

/-- **C39** (early stop). Once a dCRAB run was stopped, no further super-iteration is executed: nothing is drawn, evaluated
or changed in the controls. -/
theorem C39_no_super_iteration_after_stop (dsm : Dsm K V F) (n k : ℕ) (s : AlgState V C O F) (h : s.running = false) :
    (dcrabLoop cfg env ops dsm n k s).2.ctl = s.ctl ∧ (dcrabLoop cfg env ops dsm n k s).2.log = s.log ∧
      (dcrabLoop cfg env ops dsm n k s).2.running = false := by
  cases n with
  | zero => exact ⟨rfl, rfl, h⟩
  | succ n =>
    unfold dcrabLoop
    rw [Prog.bind_apply]
    rcases poll_cases (cfg := cfg) (env := env) s with ⟨hp, q⟩ | ⟨r, e, he⟩
    · rcases hs : poll cfg env s with ⟨e | u, s1⟩
      · rw [hs] at hp; cases hp
      · rw [hs] at q
        dsimp only
        rw [Prog.get_bind, if_pos (q.mono h)]
        exact ⟨q.ctl, q.log, q.mono h⟩
    · rw [he]
      exact ⟨rfl, rfl, h⟩

/-- All super-iterations are executed; a run stopped by its budget in the first super-iteration draws one basis. -/
example : (execute (exCfg .dcrab 100 false none none) (exEnv (exAns [5, 3, 4, 1]) (fun _ => .none)) (recording exOps)
      (exDsm [1, 2]) ((), [])).2.ctl.2 = [1, 2] ∧
    (execute (exCfg .dcrab 1 false none none) (exEnv (exAns [5, 3, 4, 1]) (fun _ => .none)) (recording exOps)
      (exDsm [1, 2]) ((), [])).2.ctl.2 = [1] := by decide +kernel

end QuOCS

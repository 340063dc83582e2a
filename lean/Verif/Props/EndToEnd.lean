/-
Properties C82 and C83: whatever a run delivers to the user respects the user's lists of pulses, times and parameters, from the
dictionary to every call of the user's function; in runs with automatic differentiation up to the filling of the rows.
-/
import Verif.Lemmas.Delivered
import Verif.Lemmas.ControlsAD
import Verif.Props.Settings
import Verif.Props.SuperIterations

set_option linter.unusedSectionVars false
set_option linter.unusedVariables false

namespace QuOCS

section
variable {K : Type} [LE K] [DecidableLE K] {F : Type}
variable [Add F] [Sub F] [Mul F] [Div F] [Neg F] [Zero F] [One F] [NatCast F] [LE F] [LT F] [DecidableLE F]
  [DecidableLT F]
variable {Q : Type} [Field Q] [LinearOrder Q] [IsStrictOrderedRing Q]
variable {M : MathFns Q} {pd : List (PulseDict Q)} {td : List (TimeDict Q)} {rd : List (ParamDict Q)}
variable (rnd : ℕ → ℕ → List Q) (simplex : ℕ → List Q → List Q → Py (List (List Q)))

theorem kept_controls : KeptByOps (controlsOps M rnd simplex) (ControlsReach M pd td rd) :=
  ⟨fun _ _ _ _ ho h => .get ho h, fun _ _ _ ho h => .select ho h, fun _ _ _ ho h => .base ho h⟩

theorem kept_ad : KeptByOps (adControlsOps M rnd simplex) (ControlsReach M pd td rd) :=
  ⟨fun _ _ _ _ ho h => by obtain ⟨_, h, _⟩ := (getControlsAD_iff ho).1 h; exact .get ho h,
    fun _ _ _ ho h => .select ho h, fun _ _ _ ho h => .base ho h⟩

theorem best_built {ops : CtlOps (Controls Q) (List Q) (ControlsOut Q)} {s : AlgState (List Q) (ControlsOut Q) (Controls Q) F}
    {I : Controls Q → Prop} (h : AllBuilt ops I s) {c : ControlsOut Q} (hb : bestControls ops s = .ok c) :
    ∃ x, BuiltBy ops I x c := by
  obtain ⟨x, _, hb⟩ := py_bind_ok.1 hb
  obtain ⟨⟨o', c'⟩, hg, hb⟩ := py_bind_ok.1 hb
  cases hb
  exact ⟨x, _, _, h.ctl, hg⟩

/-- **C82.** In every run of dCRAB, direct search or GRAPE, whatever the search method tries, the user's function answers, and
the random numbers are: all controls passed to the user's function, all controls saved to files, and the best controls of the
run (also at any crash or interruption) are admissible: each pulse within its limits if `limit_pulse` is the last shaping step,
sampled with its number of bins, on an equidistant time grid over a duration allowed by the list of times, and each parameter
within its limits. -/
theorem C82_run_admissible {o : Controls Q} (ho : mkControls M pd td rd = .ok o) (cfg : AlgCfg K F)
    (env : Env (List Q) (ControlsOut Q) F) (dsm : Dsm K (List Q) F) :
    (∀ c ∈ (execute cfg env (controlsOps M rnd simplex) dsm o).2.log, Admissible pd td rd c.ctl) ∧
    (∀ e ∈ (execute cfg env (controlsOps M rnd simplex) dsm o).2.dumps, ∀ c, e.ctl = some c → Admissible pd td rd c) ∧
    (∀ c, bestControls (controlsOps M rnd simplex) (execute cfg env (controlsOps M rnd simplex) dsm o).2 = .ok c →
      Admissible pd td rd c) := by
  have h := execute_built (cfg := cfg) (env := env) (kept_controls (M := M) (pd := pd) (td := td) (rd := rd) rnd simplex) dsm
    (.create ho)
  have hA : ∀ {x : List Q} {c : ControlsOut Q}, BuiltBy (controlsOps M rnd simplex) (ControlsReach M pd td rd) x c →
      Admissible pd td rd c := fun ⟨_, _, h1, h2⟩ => delivered_admissible h1 h2
  refine ⟨fun c hc => hA (h.log c hc), fun e he c hc => ?_, fun c hc => ?_⟩
  · obtain ⟨x, hx⟩ := h.dumps e he c hc
    exact hA hx
  · obtain ⟨x, hx⟩ := best_built h hc
    exact hA hx

/-- **C83.** The same for a run with automatic differentiation: each row handed to the user's function, saved or returned is an
admissible pulse followed by zeros. -/
theorem C83_run_rows {o : Controls Q} (ho : mkControls M pd td rd = .ok o) (cfg : AlgCfg K F)
    (env : Env (List Q) (ControlsOut Q) F) (lib : AdLib (List Q) (ControlsOut Q) F) :
    (∀ c ∈ (adExecute lib cfg env (adControlsOps M rnd simplex) o).2.alg.log, AdmissibleRows pd td rd c.ctl) ∧
    (∀ e ∈ (adExecute lib cfg env (adControlsOps M rnd simplex) o).2.alg.dumps, ∀ c, e.ctl = some c →
      AdmissibleRows pd td rd c) ∧
    (∀ c, bestControls (adControlsOps M rnd simplex) (adExecute lib cfg env (adControlsOps M rnd simplex) o).2.alg = .ok c →
      AdmissibleRows pd td rd c) := by
  have h := adExecute_built (cfg := cfg) (env := env) lib
    (kept_ad (M := M) (pd := pd) (td := td) (rd := rd) rnd simplex) (.create ho)
  have hA : ∀ {x : List Q} {c : ControlsOut Q}, BuiltBy (adControlsOps M rnd simplex) (ControlsReach M pd td rd) x c →
      AdmissibleRows pd td rd c := fun ⟨_, _, h1, h2⟩ => delivered_rows h1 h2
  refine ⟨fun c hc => hA (h.log c hc), fun e he c hc => ?_, fun c hc => ?_⟩
  · obtain ⟨x, hx⟩ := h.dumps e he c hc
    exact hA hx
  · obtain ⟨x, hx⟩ := best_built h hc
    exact hA hx

/-- **C83, partial.** If all pulses have the same number of bins, the rows are the admissible pulses themselves. Missing: pulses
with different numbers of bins, where this fails, see below. -/
theorem C83_run_admissible_partial {o : Controls Q} (ho : mkControls M pd td rd = .ok o) (cfg : AlgCfg K F)
    (env : Env (List Q) (ControlsOut Q) F) (lib : AdLib (List Q) (ControlsOut Q) F) (hs : SameBins pd)
    (hb : ∀ d ∈ pd, 2 ≤ d.binsNumber ∧ ScalingKeepsLength d.scaling) :
    (∀ c ∈ (adExecute lib cfg env (adControlsOps M rnd simplex) o).2.alg.log, Admissible pd td rd c.ctl) ∧
    (∀ e ∈ (adExecute lib cfg env (adControlsOps M rnd simplex) o).2.alg.dumps, ∀ c, e.ctl = some c →
      Admissible pd td rd c) ∧
    (∀ c, bestControls (adControlsOps M rnd simplex) (adExecute lib cfg env (adControlsOps M rnd simplex) o).2.alg = .ok c →
      Admissible pd td rd c) := by
  obtain ⟨h1, h2, h3⟩ := C83_run_rows rnd simplex ho cfg env lib
  exact ⟨fun c hc => (h1 c hc).same hs hb, fun e he c hc => (h2 e he c hc).same hs hb, fun c hc => (h3 c hc).same hs hb⟩

/-- **C83, the two variants of the controls agree.** For the same history of super-iterations and the same search vector, the AD
variant builds controls exactly if the NumPy variant does and the rows can be filled, and then the parameters are the same. -/
theorem C83_same_parameters {c c' : Controls Q} {x : List Q} {o : ControlsOut Q} (hr : ControlsReach M pd td rd c)
    (h : c.getControlsAD M x = .ok (c', o)) : ∃ o0, c.getControls M x = .ok (c', o0) ∧ o.parameters = o0.parameters := by
  obtain ⟨o0, h0, hp⟩ := (getControlsAD_iff hr).1 h
  exact ⟨o0, h0, hp.parameters⟩

/-- **C83, partial.** After a completed AD run with one super-iteration and the AD variant of the controls object in its standard
configuration: the reported figure of merit is the initial value, or it was returned by the user's function for exactly the
arrays that `get_best_controls` returns (as C62, for the arrays that the user's function really gets). Missing: more than one
super-iteration, where it fails (C62). -/
theorem C83_best_rows_reproduced_partial [FloatOrder F] (hS : StandardControls M pd td rd) (lib : AdLib (List Q) (ControlsOut Q) F)
    (cfg : AlgCfg K F) (h1 : cfg.maxSI = 1) (env : Env (List Q) (ControlsOut Q) F) (o : Controls Q)
    (ho : mkControls M pd td rd = .ok o) (h : (adExecute lib cfg env (adControlsOps M rnd simplex) o).1 = .ok ()) :
    finalFoM cfg (adExecute lib cfg env (adControlsOps M rnd simplex) o).2.alg = dirMul cfg.maximize cfg.fomMax ∨
    ∃ c ∈ (adExecute lib cfg env (adControlsOps M rnd simplex) o).2.alg.log,
      c.value = some (finalFoM cfg (adExecute lib cfg env (adControlsOps M rnd simplex) o).2.alg) ∧
      bestControls (adControlsOps M rnd simplex) (adExecute lib cfg env (adControlsOps M rnd simplex) o).2.alg = .ok c.ctl := by
  have hb : BetweenSI (adCfg cfg) (ControlsReach M pd td rd) (ShowsMean (adControlsOps M rnd simplex))
      (adExecute lib cfg env (adControlsOps M rnd simplex) o).2.alg := by
    have hl := AD.leads_superIteration (lib := lib) (cfg := adCfg cfg) (env := env)
      (reproducible_ad (rnd := rnd) (simplex := simplex) hS).repro (.inl rfl) rfl 1
    unfold adExecute at h ⊢
    rw [h1] at h ⊢
    unfold adLoop at h ⊢
    rw [Prog.bind_apply] at h ⊢
    rcases hs : adSuperIteration lib (adCfg cfg) env (adControlsOps M rnd simplex) 1 ⟨initState (adCfg cfg) env o, []⟩ with
      ⟨e | u, s1⟩
    · rw [hs] at h; cases h
    · exact hl _ u s1 ⟨.create ho, rfl⟩ hs
  rcases hb.best with h1 | ⟨c, hc, f, hf, h1, ⟨x, hx, hs⟩, _⟩
  · left; unfold finalFoM; rw [h1]; rfl
  · refine .inr ⟨c, hc, ?_, ?_⟩
    · unfold finalFoM; rw [h1]; exact hf.trans (congrArg some (dirMul_dirMul cfg.maximize f).symm)
    · unfold bestControls
      rw [hx]
      unfold Shows at hs
      generalize hg : (adControlsOps M rnd simplex).getControls
        (adExecute lib cfg env (adControlsOps M rnd simplex) o).2.alg.ctl x = r at hs
      simp only [bind, Except.bind]
      rw [hg]
      rcases r with e | r
      · cases hs
      · exact hs
end

/-! ### From the dictionary -/

theorem forall2_at {α β : Type} {R : α → β → Prop} {l : List α} {m : List β} (h : List.Forall₂ R l m) {i : ℕ} {a : α}
    (ha : l[i]? = some a) : ∃ b, m[i]? = some b ∧ R a b := by
  induction h generalizing i with
  | nil => simp at ha
  | cons h1 _ ih =>
    cases i with
    | zero => simp only [List.getElem?_cons_zero, Option.some.injEq] at ha; subst ha; exact ⟨_, rfl, h1⟩
    | succ i => exact ih (by simpa using ha)

/-- **C82, from the dictionary to every call.** A dCRAB or direct search optimizer created from the dictionary `d`: in every call
of the user's function there are as many pulses and parameters as `d` lists. A pulse with the entries `lower_limit = lo` and
`upper_limit = hi` and without `shaping_options` has all its samples between `lo` and `hi`, and its time grid has `bins_number`
entries; a parameter with the entries `lower_limit = lo` and `upper_limit = hi` is between `lo` and `hi`. -/
theorem C82_from_dictionary (lib : PyLib) {d : PDict} {c : Created} {s : SearchSettings} {cfg : AlgCfg ℚ ℚ}
    (h : (createOptimizer lib d).1 = .ok c) (hs : c.alg = .search s) (hc : s.cfg = some cfg) {M : MathFns ℚ} {o : Controls ℚ}
    (ho : mkControls M s.controls.pulses s.controls.times s.controls.params = .ok o) (rnd : ℕ → ℕ → List ℚ)
    (simplex : ℕ → List ℚ → List ℚ → Py (List (List ℚ))) (env : Env (List ℚ) (ControlsOut ℚ) ℚ) (dsm : Dsm ℚ (List ℚ) ℚ) :
    ∀ call ∈ (execute cfg env (controlsOps M rnd simplex) dsm o).2.log,
      call.ctl.pulses.length = (itemsAt d "pulses").length ∧
      call.ctl.parameters.length = (itemsAt d "parameters").length ∧
      (∀ (i : ℕ) (p : PDict) (u t : List ℚ) (lo hi : ℚ), (itemsAt d "pulses")[i]? = some p → call.ctl.pulses[i]? = some u →
        call.ctl.timegrids[i]? = some t →
        entry p ["lower_limit"] = some (.num lo) → entry p ["upper_limit"] = some (.num hi) → lo ≤ hi →
        entry p ["shaping_options"] = none →
        (∀ x ∈ u, lo ≤ x ∧ x ≤ hi) ∧ ∀ b : ℕ, entry p ["bins_number"] = some (.num b) → t.length = b) ∧
      (∀ (j : ℕ) (p : PDict) (v lo hi : ℚ), (itemsAt d "parameters")[j]? = some p → call.ctl.parameters[j]? = some v →
        entry p ["lower_limit"] = some (.num lo) → entry p ["upper_limit"] = some (.num hi) → lo ≤ hi → lo ≤ v ∧ v ≤ hi) := by
  intro call hcall
  have hu := (create_use lib h).alg
  rw [hs] at hu
  have hctl : UsesControls lib d s.controls := by
    rcases hu.2 with ⟨_, hu⟩ | ⟨_, hu⟩ <;> exact hu.controls
  have ha := (C82_run_admissible rnd simplex ho cfg env dsm).1 call hcall
  refine ⟨ha.number.1.trans hctl.pulses.length_eq.symm, ha.number.2.2.trans hctl.params.length_eq.symm, ?_, ?_⟩
  · intro i p u t lo hi hp hu ht hlo hhi hle hsh
    obtain ⟨x, hx, hU⟩ := forall2_at hctl.pulses hp
    have hap := ha.pulses i x u t hx hu ht
    have e1 := hU.lower
    have e2 := hU.upper
    have e3 := hU.shaping
    have e4 := hU.bins
    unfold setting at e1 e2 e4
    rw [hlo] at e1
    rw [hhi] at e2
    rw [hsh] at e3
    have e1 : x.lowerLimit = lo := e1.num
    have e2 : x.upperLimit = hi := e2.num
    subst e1 e2
    have e3 : x.shapingOptions = none := by
      rcases e3 with ⟨_, e3⟩ | ⟨_, e3, _⟩
      · exact e3
      · cases e3
    refine ⟨fun y hy => ?_, fun b hb => ?_⟩
    · have := hap.limits (.inl e3) y hy
      rwa [min_eq_left hle, max_eq_right hle] at this
    · rw [hb] at e4
      rw [hap.grid.1]
      exact (Nat.cast_injective (R := ℚ) e4.num).symm
  · intro j p v lo hi hp hv hlo hhi hle
    obtain ⟨x, hx, hU⟩ := forall2_at hctl.params hp
    have e1 := hU.lower
    have e2 := hU.upper
    unfold setting at e1 e2
    rw [hlo] at e1
    rw [hhi] at e2
    have e1 : x.lower = lo := e1.num
    have e2 : x.upper = hi := e2.num
    subst e1 e2
    exact ha.parameters j x v hx hv hle

/-! ### Concrete runs -/

/-- The hypotheses of `C82_from_dictionary` are met by the dictionary `exDcrab`. -/
example : ∃ c s cfg o, (createOptimizer exLib exDcrab).1 = .ok c ∧ c.alg = .search s ∧ s.cfg = some cfg ∧
    mkControls exFns s.controls.pulses s.controls.times s.controls.params = .ok o := by
  have h : ((searchOf (createOptimizer exLib exDcrab).1).bind fun s => s.cfg.bind fun cfg =>
      (mkControls exFns s.controls.pulses s.controls.times s.controls.params).toOption).isSome = true := by decide +kernel
  obtain ⟨o, h⟩ := Option.isSome_iff_exists.1 h
  obtain ⟨s, h1, h2⟩ := Option.bind_eq_some_iff.1 h
  obtain ⟨cfg, h2, h3⟩ := Option.bind_eq_some_iff.1 h2
  unfold searchOf at h1
  generalize (createOptimizer exLib exDcrab).1 = r at h1
  cases r with
  | error e => cases h1
  | ok c =>
    refine ⟨c, s, cfg, o, rfl, ?_, h2, ?_⟩
    · simp only at h1
      generalize c.alg = a at h1
      cases a <;> simp_all
    · generalize mkControls exFns s.controls.pulses s.controls.times s.controls.params = r at h3
      cases r with
      | error e => cases h3
      | ok o => cases h3; rfl

/-- the pulses, time grids and parameters of all calls of a run of dCRAB with two super-iterations -/
def endRun (pd : List (PulseDict ℚ)) (td : List (TimeDict ℚ)) (rd : List (ParamDict ℚ)) (xs : List (List ℚ)) :
    Py (List (List (List ℚ) × List (List ℚ) × List ℚ)) := do
  let o ← mkControls exFns pd td rd
  let dsm : Dsm ℚ (List ℚ) ℚ := fun _ x0 _ _ => evalPoints x0 0 xs 0
  let r := execute (exCfg .dcrab 100 false none none) (siEnv [3, 4, 1, 2]) siOps dsm o
  r.1
  pure (r.2.log.map fun c => (c.ctl.pulses, c.ctl.timegrids, c.ctl.parameters))

set_option synthInstance.maxSize 1000 in
/-- A run with four calls as in C82: far too large search values, everything is cut to the limits. -/
example : endRun (siPd false) exTdOpt siRd [[-1, 2, 2], [30, -40, 7]] = .ok
    [([[-1, 2]], [[0, 1]], [2]), ([[5, -5]], [[0, 3]], [2]), ([[-2, 4]], [[0, 1]], [2]), ([[5, -5]], [[0, 3]], [2])] := by
  decide +kernel

/-- a pulse with three samples, and one with two samples and the limits 1 and 5 -/
def rowsPd : List (PulseDict ℚ) :=
  [{ exDict with binsNumber := 3, basis := .piecewise, guess := .array [0, 0, 0], scaling := .array [1, 1, 1]
                 shapingOptions := none, lowerLimit := -5, upperLimit := 5 },
   { exDict with pulseName := "q", binsNumber := 2, basis := .piecewise, guess := .array [0, 0], scaling := .array [1, 1]
                 shapingOptions := none, lowerLimit := 1, upperLimit := 5 }]

/-- the pulses, time grids and parameters of all calls of an AD run -/
def rowsRun (pd : List (PulseDict ℚ)) (xs : List (List ℚ)) : Py (List (List (List ℚ) × List (List ℚ) × List ℚ)) := do
  let o ← mkControls exFns pd exTd siRd
  let cfg := { exCfg .grape 100 false none none with maxSI := 1 }
  let lib : AdLib (List ℚ) (ControlsOut ℚ) ℚ :=
    { grad := fun _ x => x, start := fun _ m _ => .ok m, search := fun _ => adPoints xs }
  let r := adExecute lib cfg (siEnv [3, 9]) (adControlsOps exFns (fun _ _ => [1/2, 1/2]) (fun _ _ _ => .ok [])) o
  r.1
  pure (r.2.alg.log.map fun c => (c.ctl.pulses, c.ctl.timegrids, c.ctl.parameters))

set_option synthInstance.maxSize 1000 in
/-- **C83 is violated for pulses with different numbers of bins** (Controls.py:268-283, 302-316). The second pulse has two bins
and the limits 1 and 5, but it is delivered with a third sample 0, below its lower limit, and with the time grid `[0, 2, 0]`. -/
theorem C83_shorter_pulse_filled : rowsRun rowsPd [[3, 4, 2, 0, 9, 1]] = .ok
    [([[3, 4, 2], [1, 5, 0]], [[0, 1, 2], [0, 2, 0]], [1]), ([[3, 4, 2], [1, 5, 0]], [[0, 1, 2], [0, 2, 0]], [1])] := by
  decide +kernel

set_option synthInstance.maxSize 1000 in
/-- With one pulse the hypotheses of `C83_run_admissible_partial` and `C83_best_rows_reproduced_partial` are met. -/
example : SameBins (siPd false) ∧ (∀ d ∈ siPd false, 2 ≤ d.binsNumber ∧ ScalingKeepsLength d.scaling) ∧
    StandardControls exFns (siPd false) exTd siRd ∧
    rowsRun (siPd false) [[30, 4, 1]] = .ok [([[5, 4]], [[0, 2]], [1]), ([[5, 4]], [[0, 2]], [1])] := by
  refine ⟨?_, ?_, siStandard, by decide +kernel⟩
  · intro d hd d' hd'
    simp [siPd] at hd hd'
    rw [hd, hd']
  · intro d hd
    simp [siPd] at hd
    subst hd
    exact ⟨le_rfl, fun f hf => by cases hf⟩

end QuOCS

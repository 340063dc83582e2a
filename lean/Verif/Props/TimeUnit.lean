/-
C102. The unit of time does not matter.
-/
import Verif.Spec.TimeUnit
import Verif.Lemmas.TimeUnit
import Verif.Props.Recoord

set_option linter.unusedSectionVars false
set_option linter.unusedVariables false

namespace QuOCS

section
variable {K : Type} [Field K] [LinearOrder K] [IsStrictOrderedRing K] {n : ℕ} {α : K}
variable {F : Type} [Add F] [Sub F] [Mul F] [Div F] [Neg F] [Zero F] [One F] [NatCast F] [LE F] [LT F] [DecidableLE F]
  [DecidableLT F]
variable {M : MathFns K} {pd : List (PulseDict K)} {td : List (TimeDict K)} {rd : List (ParamDict K)}
variable {sqrt : K → K} {rnd : ℕ → ℕ → List K} {draws : ℕ → Vec K n} {cfg : AlgCfg K F} {env : Env (Vec K n) (ControlsOut K) F}

/-- **C102** (what the user's function becomes). The function that converts the time grids back to the old unit before it does what it always did
is the user's function for the new unit. -/
theorem C102_user_function (hα : 0 < α) (fm : List (Call (Vec K n) (ControlsOut K) F) → ControlsOut K → Py (Answer F)) :
    InUnits id (ControlsOut.inTimeUnit α) fm fun l c => fm (l.map (Call.recoord id (ControlsOut.inTimeUnit α⁻¹))) (c.inTimeUnit α⁻¹) := by
  have hc : ∀ c : ControlsOut K, (c.inTimeUnit α).inTimeUnit α⁻¹ = c := by
    rintro ⟨p, g, v⟩
    unfold ControlsOut.inTimeUnit timesInUnit
    dsimp only
    rw [List.map_map]
    congr 1
    conv_rhs => rw [← List.map_id g]
    refine List.map_congr_left fun t _ => ?_
    show (t.map (α * ·)).map (α⁻¹ * ·) = t
    rw [List.map_map]
    conv_rhs => rw [← List.map_id t]
    exact List.map_congr_left fun s _ => by
      show α⁻¹ * (α * s) = s
      rw [inv_mul_cancel_left₀ hα.ne']
  intro l c
  show fm ((l.map _).map _) ((c.inTimeUnit α).inTimeUnit α⁻¹) = fm l c
  rw [hc, List.map_map]
  congr 1
  conv_rhs => rw [← List.map_id l]
  refine List.map_congr_left fun e _ => ?_
  rcases e with ⟨⟩
  simp only [Function.comp, Call.recoord, hc, id]

/-- **C102** (creation). The controls can be created in the new unit exactly if they can be created in the old one; otherwise the same exception is
raised. -/
theorem C102_creation (hα : 0 < α) (hb : ∀ d ∈ pd, d.basis.UnitFree α) :
    (∀ e, mkControls M pd td rd = .error e ↔ mkControls M (pd.map (PulseDict.inTimeUnit α)) (td.map (TimeDict.inTimeUnit α)) rd = .error e) ∧
    ((∃ o, mkControls M pd td rd = .ok o) ↔
      ∃ o, mkControls M (pd.map (PulseDict.inTimeUnit α)) (td.map (TimeDict.inTimeUnit α)) rd = .ok o) := by
  have h := mkControls_unit M hα (td := td) (rd := rd) hb
  revert h
  rcases mkControls M pd td rd with e | o <;>
    rcases mkControls M (pd.map (PulseDict.inTimeUnit α)) (td.map (TimeDict.inTimeUnit α)) rd with e' | o' <;> intro h
  · obtain rfl : e = e' := h
    simp
  · exact h.elim
  · exact h.elim
  · simp

/-- **C102** (the first controls). For one and the same search vector the newly created controls deliver the same pulses and parameters, with the time
grids multiplied with the factor, or raise the same exception. -/
theorem C102_delivered_partial (hα : 0 < α) (hb : ∀ d ∈ pd, d.basis.UnitFree α) {o : Controls K} (ho : mkControls M pd td rd = .ok o) (x : List K) :
    ∃ o', mkControls M (pd.map (PulseDict.inTimeUnit α)) (td.map (TimeDict.inTimeUnit α)) rd = .ok o' ∧
      (o'.getControls M x).map (·.2) = (o.getControls M x).map fun r => r.2.inTimeUnit α := by
  have h := mkControls_unit M hα (td := td) (rd := rd) hb
  rw [ho] at h
  rcases h' : mkControls M (pd.map (PulseDict.inTimeUnit α)) (td.map (TimeDict.inTimeUnit α)) rd with e' | o' <;> rw [h'] at h
  · exact h.elim
  refine ⟨o', rfl, ?_⟩
  have hg := getControls_unit M hα h x
  revert hg
  rcases o.getControls M x with e | r <;> rcases o'.getControls M x with e' | r' <;> intro hg
  · exact congrArg _ (Eq.symm hg)
  · exact hg.elim
  · exact hg.elim
  · exact congrArg Except.ok hg.2

/-- **C102** (whole runs). Declare every duration in another unit: initial values, limits and amplitude variations of the times, the limits of the
times that the Sinc and sigmoid bases draw, offset, step width and variation of the step times of the sigmoid bases; the guess, the scaling and the
user's function get their time grids in the new unit. Then the run is the same run: the same exception if any, call by call the same pulses and
parameters with the time grids in the new unit and the same answers at the same times, the same reports to the results, the same best controls and
figure of merit, the same reasons for stopping. For dCRAB and DirectSearch with every search method, every user function (with or without memory), optimized
and fixed times, all random numbers, stop requests, clocks, re-evaluation, drift compensation, provided the comparisons with `1e-10` inside
SigmoidSigmas and SigmoidAllParas come out the same (`Basis.UnitFree`). -/
theorem C102_time_unit_partial (hα : 0 < α) (hb : ∀ d ∈ pd, d.basis.UnitFree α)
    {fm : List (Call (Vec K n) (ControlsOut K) F) → ControlsOut K → Py (Answer F)} (hfm : InUnits id (ControlsOut.inTimeUnit α) env.getFoM fm)
    (dsm : Dsm K (Vec K n) F) {o : Controls K} (ho : mkControls M pd td rd = .ok o) :
    ∃ o', mkControls M (pd.map (PulseDict.inTimeUnit α)) (td.map (TimeDict.inTimeUnit α)) rd = .ok o' ∧
      SameRunIn (systemOps cfg.kind M sqrt rnd draws) (systemOps cfg.kind M sqrt rnd draws) cfg id (ControlsOut.inTimeUnit α)
        (execute cfg env (systemOps cfg.kind M sqrt rnd draws) dsm o)
        (execute cfg (env.asking fm) (systemOps cfg.kind M sqrt rnd draws) dsm o') := by
  have h := mkControls_unit M hα (td := td) (rd := rd) hb
  rw [ho] at h
  rcases h' : mkControls M (pd.map (PulseDict.inTimeUnit α)) (td.map (TimeDict.inTimeUnit α)) rd with e' | o' <;> rw [h'] at h
  · exact h.elim
  · exact ⟨o', rfl, execute_recoord (xatol := cfg.sc.xatol) (corresponds_timeUnit_system M hα cfg.kind sqrt rnd draws) hfm (dsmSim_refl cfg dsm) h⟩

end

/-! ### Concrete runs -/

/-- one Sinc pulse with one coefficient, its position drawn between 0 and 2, with a guess that grows with time, in the unit `α` -/
def clockPd (α : ℚ) : List (PulseDict ℚ) :=
  [({ exDict with lowerLimit := -9, upperLimit := 9, guess := .callable fun t => t.map (· / 2), basis := .sinc 1 1, wLower := 0, wUpper := 2 } :
      PulseDict ℚ).inTimeUnit α]

/-- an optimized duration between 1 and 4, in the unit `α` -/
def clockTd (α : ℚ) : List (TimeDict ℚ) :=
  [({ name := "t", initialValue := 2, isOptimization := true, lower := 1, upper := 4, amplitudeVariation := 1 } : TimeDict ℚ).inTimeUnit α]

/-- the user's function: the distance of the second sample from 3 plus the duration in the old unit -/
def clockEnv (α : ℚ) : Env (Vec ℚ 1) (ControlsOut ℚ) ℚ :=
  { getFoM := fun _ c => .ok ⟨some (|(c.pulses.headD []).getD 1 0 - 3| + (c.timegrids.headD []).getLastD 0 / α), none, none⟩
    async := fun _ => .none, clock := fun n => n, sqrt := id, cdf := id }

/-- the run in the unit `α`: its end, pulse and time grid of each call with the answer -/
def clockRun (α : ℚ) : Py (Py Unit × List (List (List ℚ) × List (List ℚ) × Option ℚ)) := do
  let o ← mkControls exFns (clockPd α) (clockTd α) []
  let r := execute { exCfg .dcrab 3 false none none with maxSI := 2 } (clockEnv α)
    (systemOps .dcrab exFns id (fun _ _ => [1 / 2]) (fun _ _ => 1 / 2) : CtlOps (Controls ℚ) (Vec ℚ 1) (ControlsOut ℚ))
    (nelderMead (exNm exArgsort1) 3) o
  pure (r.1, r.2.log.map (fun c => (c.ctl.pulses, c.ctl.timegrids, c.value)))

set_option synthInstance.maxSize 1000 in
/-- Two runs of dCRAB with an optimized duration, once in microseconds and once in nanoseconds. -/
example : clockRun 1 = .ok (.ok (), [([[0, 1 / 2, 1]], [[0, 1, 2]], some (9 / 2)),
      ([[1 / 3, 13 / 12, 11 / 6]], [[0, 3 / 2, 3]], some (59 / 12)), ([[-1 / 3, -1 / 12, 1 / 6]], [[0, 1 / 2, 1]], some (49 / 12))]) ∧
    clockRun 1000 = .ok (.ok (), [([[0, 1 / 2, 1]], [[0, 1000, 2000]], some (9 / 2)),
      ([[1 / 3, 13 / 12, 11 / 6]], [[0, 1500, 3000]], some (59 / 12)), ([[-1 / 3, -1 / 12, 1 / 6]], [[0, 500, 1000]], some (49 / 12))]) := by
  refine ⟨?_, ?_⟩ <;> decide +kernel

/-- The hypotheses of `C102_time_unit_partial` are met by these runs, and by every basis of the library. -/
example : (∀ d ∈ clockPd 1, d.basis.UnitFree 1000) ∧ InUnits id (ControlsOut.inTimeUnit 1000) (clockEnv 1).getFoM (clockEnv 1000).getFoM := by
  refine ⟨?_, fun l c => ?_⟩
  · intro d hd
    obtain rfl := List.mem_singleton.1 hd
    trivial
  · obtain ⟨p, g, v⟩ := c
    rcases g with _ | ⟨t, g⟩
    · simp [clockEnv, ControlsOut.inTimeUnit]
    · rcases t.eq_nil_or_concat with rfl | ⟨t, s, rfl⟩
      · simp [clockEnv, ControlsOut.inTimeUnit, timesInUnit]
      · simp [clockEnv, ControlsOut.inTimeUnit, timesInUnit]

example : ∀ b ∈ ([.fourier 2, .chebyshev 2, .sinc 2 1, .walsh 2, .piecewise, .sigmoid 1 1 1, .sigmoidTimeDep 1 1 1 1, .sigmoidSigmas 1 1 1 1,
    .sigmoidAllParas 1 1 1 1 1] : List (Basis ℚ)), b.UnitFree 1000 := by
  intro b hb
  simp only [List.mem_cons, List.not_mem_nil, or_false] at hb
  rcases hb with rfl | rfl | rfl | rfl | rfl | rfl | rfl | rfl | rfl <;> simp only [Basis.UnitFree] <;> norm_num

/-! ### Where the unit matters -/

/-- a pulse of the basis with optimized step times, durations in nanoseconds: the step times may be moved by 0.05 -/
def nanoPd : PulseDict ℚ := { exDict with basis := .sigmoidAllParas 1 1 1 (1 / 20) 0, wLower := 1, wUpper := 2 }

/-- **C102 is violated for SigmoidAllParas.** A variation of the step times of 0.05 nanoseconds gives one control parameter more per step; declared
in seconds (5e-11) it is taken for zero: the step times are not optimized, without any message. The same problem has another number of control
parameters in the other unit. -/
theorem C102_switched_off_in_seconds :
    (mkControls exFns [nanoPd] [] []).map (·.number) = .ok 3 ∧
    (mkControls exFns [nanoPd.inTimeUnit (1 / 10 ^ 9)] [] []).map (·.number) = .ok 2 := by
  refine ⟨?_, ?_⟩ <;> decide +kernel

/-- a pulse of the basis with optimized step widths, offset 0.05 nanoseconds, and the pulse that is delivered for the coefficients 1, 1, 1 -/
def nanoSigmas (α : ℚ) : Py (List (List ℚ)) := do
  let o ← mkControls exFns [({ exDict with guess := .array [0, 0, 0], shrink := false, lowerLimit := -9, upperLimit := 9
                                           basis := .sigmoidSigmas 1 (1 / 20) 1 1, wLower := 1, wUpper := 2 } : PulseDict ℚ).inTimeUnit α]
    [({ name := "t", initialValue := 4, isOptimization := false, lower := 1, upper := 4, amplitudeVariation := 1 } : TimeDict ℚ).inTimeUnit α] []
  let o ← o.selectBasis fun _ => [1 / 2]
  let r ← o.getControls exFns [1, 1, 1]
  pure r.2.pulses

/-- **C102 is violated for SigmoidSigmas.** With an offset of 0.05 nanoseconds the step widths are kept within the room around the step; with the same
offset in seconds (5e-11, taken for zero) they are not, and other pulses are delivered. -/
theorem C102_step_widths_in_seconds : nanoSigmas 1000 = nanoSigmas 1 ∧ nanoSigmas 1 = .ok [[13913 / 4984, 10433 / 4984, 6953 / 4984]] ∧
    nanoSigmas (1 / 10 ^ 9) = .ok [[157000000127 / 56000000056, 117000000127 / 56000000056, 77000000127 / 56000000056]] := by
  refine ⟨?_, ?_, ?_⟩ <;> decide +kernel

end QuOCS

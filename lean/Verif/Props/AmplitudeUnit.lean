/-
C103. The unit of the amplitude of a pulse does not matter.
-/
import Verif.Spec.AmplitudeUnit
import Verif.Lemmas.AmplitudeUnit
import Verif.Props.Recoord
import Verif.Props.BasisFormulas

set_option linter.unusedSectionVars false
set_option linter.unusedVariables false

namespace QuOCS

section
variable {K : Type} [Field K] [LinearOrder K] [IsStrictOrderedRing K] {n : ℕ} {bs : List K}
variable {F : Type} [Add F] [Sub F] [Mul F] [Div F] [Neg F] [Zero F] [One F] [NatCast F] [LE F] [LT F] [DecidableLE F]
  [DecidableLT F] [DecidableEq F]
variable {M : MathFns K} {pd : List (PulseDict K)} {td : List (TimeDict K)} {rd : List (ParamDict K)}
variable {sqrt : K → K} {rnd : ℕ → ℕ → List K} {draws : ℕ → Vec K (searchDim pd rd)} {cfg : AlgCfg K F}
  {env : Env (Vec K (searchDim pd rd)) (ControlsOut K) F}

theorem getD_amp_ne (hb : ∀ b ∈ bs, 0 < b) (i : ℕ) : bs.getD i 1 ≠ 0 := by
  by_cases h : i < bs.length
  · simp only [List.getD, List.getElem?_eq_getElem h, Option.getD_some]
    exact (hb _ (List.getElem_mem h)).ne'
  · simp [List.getD, List.getElem?_eq_none (by omega : bs.length ≤ i)]

theorem outs_back (hb : ∀ b ∈ bs, 0 < b) (c : ControlsOut K) : (c.inAmplitudes bs).inAmplitudes (bs.map (·⁻¹)) = c := by
  obtain ⟨p, g, v⟩ := c
  unfold ControlsOut.inAmplitudes
  dsimp only
  congr 1
  apply List.ext_getElem
  · simp
  · intro i h1 h2
    simp only [List.getElem_mapIdx]
    have e : (bs.map (·⁻¹)).getD i 1 = (bs.getD i 1)⁻¹ := by
      simp only [List.getD, List.getElem?_map]
      rcases bs[i]? with _ | b
      · exact inv_one.symm
      · rfl
    rw [e]
    unfold samplesInUnit
    rw [List.map_map]
    conv_rhs => rw [← List.map_id p[i]]
    exact List.map_congr_left fun s _ => inv_mul_cancel_left₀ (getD_amp_ne hb i) s

theorem amplitudeUnits_inv (bs : List K) : amplitudeUnits pd rd (bs.map (·⁻¹)) = (amplitudeUnits pd rd bs).map fun w => (w.1⁻¹, 0) := by
  unfold amplitudeUnits
  rw [List.map_append, List.map_flatten, List.map_zipWith, List.zipWith_map_left, List.map_replicate]
  simp

theorem amplitudeUnits_offset (bs : List K) : ∀ w ∈ amplitudeUnits pd rd bs, w.2 = 0 := by
  intro w hw
  rcases List.mem_append.1 hw with h | h
  · obtain ⟨l, hl, hm⟩ := List.mem_flatten.1 h
    obtain ⟨i, hi, rfl⟩ := List.getElem_of_mem hl
    rw [List.getElem_zipWith] at hm
    rw [(List.mem_replicate.1 hm).2]
  · rw [(List.mem_replicate.1 h).2]

theorem vec_back (hb : ∀ b ∈ bs, 0 < b) (x : Vec K n) :
    vecInUnits (amplitudeUnits pd rd (bs.map (·⁻¹))) (vecInUnits (amplitudeUnits pd rd bs) x) = x := by
  rw [amplitudeUnits_inv]
  have h1 := amplitudeUnits_pos (pd := pd) (rd := rd) hb
  have h2 := amplitudeUnits_offset (pd := pd) (rd := rd) bs
  generalize amplitudeUnits pd rd bs = ws at h1 h2
  funext j
  unfold vecInUnits
  simp only [List.getD, List.getElem?_map]
  rcases h : ws[(j : ℕ)]? with _ | w
  · simp
  · have hm := List.mem_of_getElem? h
    simp only [Option.map_some, Option.getD_some, h2 w hm, add_zero]
    exact inv_mul_cancel_left₀ (h1 w hm).ne' _

/-- **C103** (what the user's function becomes). The function that converts the pulses back to the old units before it does what it always did is the
user's function for the new units. -/
theorem C103_user_function (hb : ∀ b ∈ bs, 0 < b) (fm : List (Call (Vec K n) (ControlsOut K) F) → ControlsOut K → Py (Answer F)) :
    InUnits (vecInUnits (amplitudeUnits pd rd bs)) (ControlsOut.inAmplitudes bs) fm fun l c =>
      fm (l.map (Call.recoord (vecInUnits (amplitudeUnits pd rd (bs.map (·⁻¹)))) (ControlsOut.inAmplitudes (bs.map (·⁻¹)))))
        (c.inAmplitudes (bs.map (·⁻¹))) := by
  intro l c
  show fm ((l.map _).map _) ((c.inAmplitudes bs).inAmplitudes (bs.map (·⁻¹))) = fm l c
  rw [outs_back hb, List.map_map]
  congr 1
  conv_rhs => rw [← List.map_id l]
  refine List.map_congr_left fun e _ => ?_
  rcases e with ⟨⟩
  simp only [Function.comp, Call.recoord, outs_back hb, vec_back hb, id]

/-- **C103** (creation). The controls can be created in the new units exactly if they can be created in the old ones; otherwise the same exception is
raised. Any basis. -/
theorem C103_creation (hb : ∀ b ∈ bs, 0 < b) (hl : bs.length = pd.length) :
    (∀ e, mkControls M pd td rd = .error e ↔ mkControls M (pulsesInAmplitudes bs pd) td rd = .error e) ∧
    ((∃ o, mkControls M pd td rd = .ok o) ↔ ∃ o, mkControls M (pulsesInAmplitudes bs pd) td rd = .ok o) := by
  rw [mkControls_amp M hb hl]
  rcases mkControls M pd td rd with e | o
  · simp [Except.map]
  · simp [Except.map]

/-- **C103** (the first controls). For a search vector whose coefficients are in the new units the newly created controls deliver the pulses in the
new units, with the same time grids and parameters, or raise the same exception. -/
theorem C103_delivered_partial (hf : FixedTimes td) (hb : ∀ b ∈ bs, 0 < b) (ho : Homogeneous bs pd) {o : Controls K}
    (hm : mkControls M pd td rd = .ok o) (x : Vec K (searchDim pd rd)) :
    ∃ o', mkControls M (pulsesInAmplitudes bs pd) td rd = .ok o' ∧
      (o'.getControls M (List.ofFn (vecInUnits (amplitudeUnits pd rd bs) x))).map (·.2) =
        (o.getControls M (List.ofFn x)).map fun r => r.2.inAmplitudes bs := by
  refine ⟨o.inAmplitudes bs, by rw [mkControls_amp M hb ho.length_eq, hm]; rfl, ?_⟩
  rw [ofFn_inUnits (amplitudeUnits_length ho.length_eq rfl), getControls_amp (CInv.of_reach (.create hm)) hf hb ho (by simp)]
  rcases o.getControls M (List.ofFn x) with e | r <;> rfl

/-- **C103** (whole runs, Nelder-Mead). Declare every pulse with another unit of its amplitude: limits, amplitude variation and guess are multiplied
with the factor of the pulse, a scaling function of the pulse and the user's function get their pulses in the new units, and the tolerance for the size
of the simplex says the same of distances in the new units. Then the construction succeeds as before, and the run is the same run: the same exception
if any, call by call the same pulses in the new units with the same time grids, parameters and answers at the same times, the same reports to the
results, the same best controls and figure of merit, the same reasons for stopping. For dCRAB and DirectSearch, every user function (with or without
memory), all random numbers, stop requests, clocks, re-evaluation, drift compensation; for the bases whose coefficients are amplitudes
(`Basis.Homogeneous`). Evolution times are not optimized. -/
theorem C103_amplitude_units_partial (hf : FixedTimes td) (hb : ∀ b ∈ bs, 0 < b) (ho : Homogeneous bs pd) {t' : K}
    (ht : SameTolerance (amplitudeUnits pd rd bs) cfg.sc.xatol t')
    {fm : List (Call (Vec K (searchDim pd rd)) (ControlsOut K) F) → ControlsOut K → Py (Answer F)}
    (hfm : InUnits (vecInUnits (amplitudeUnits pd rd bs)) (ControlsOut.inAmplitudes bs) env.getFoM fm) (c : NmCfg K F (searchDim pd rd)) (fuel : ℕ)
    {o : Controls K} (hm : mkControls M pd td rd = .ok o) :
    ∃ o', mkControls M (pulsesInAmplitudes bs pd) td rd = .ok o' ∧
      SameRunIn (systemOps cfg.kind M sqrt rnd draws) (systemOps cfg.kind M sqrt rnd draws) cfg (vecInUnits (amplitudeUnits pd rd bs))
        (ControlsOut.inAmplitudes bs) (execute cfg env (systemOps cfg.kind M sqrt rnd draws) (nelderMead c fuel) o)
        (execute (cfg.withTol t') (env.asking fm) (systemOps cfg.kind M sqrt rnd draws) (nelderMead c fuel) o') := by
  have h' : mkControls M (pulsesInAmplitudes bs pd) td rd = .ok (o.inAmplitudes bs) := by rw [mkControls_amp M hb ho.length_eq, hm]; rfl
  exact ⟨_, h', execute_recoord (corresponds_amplitudes cfg.kind sqrt rnd draws hf hb ho rfl) hfm
    (nelderMead_inUnits (amplitudeUnits_length ho.length_eq rfl) (amplitudeUnits_pos hb) ht c fuel) ⟨.create hm, .create h', rfl⟩⟩

/-- **C103** (one common unit, Nelder-Mead). Without parameters, if all pulses get the same factor, the tolerance has to be multiplied with it. -/
theorem C103_common_unit_partial {β : K} (hβ : 0 < β) (hr : rd = []) (hf : FixedTimes td) (ho : Homogeneous (List.replicate pd.length β) pd)
    {fm : List (Call (Vec K (searchDim pd rd)) (ControlsOut K) F) → ControlsOut K → Py (Answer F)}
    (hfm : InUnits (vecInUnits (amplitudeUnits pd rd (List.replicate pd.length β))) (ControlsOut.inAmplitudes (List.replicate pd.length β))
      env.getFoM fm) (c : NmCfg K F (searchDim pd rd)) (fuel : ℕ) {o : Controls K} (hm : mkControls M pd td rd = .ok o) :
    ∃ o', mkControls M (pd.map (PulseDict.inAmplitude β)) td rd = .ok o' ∧
      SameRunIn (systemOps cfg.kind M sqrt rnd draws) (systemOps cfg.kind M sqrt rnd draws) cfg
        (vecInUnits (amplitudeUnits pd rd (List.replicate pd.length β))) (ControlsOut.inAmplitudes (List.replicate pd.length β))
        (execute cfg env (systemOps cfg.kind M sqrt rnd draws) (nelderMead c fuel) o)
        (execute (cfg.withTol (β * cfg.sc.xatol)) (env.asking fm) (systemOps cfg.kind M sqrt rnd draws) (nelderMead c fuel) o') := by
  subst hr
  have := C103_amplitude_units_partial (M := M) (sqrt := sqrt) (rnd := rnd) (draws := draws) (cfg := cfg) (env := env) hf
    (fun b h => by rw [(List.mem_replicate.1 h).2]; exact hβ) ho (t' := β * cfg.sc.xatol) (fun w hw y hy => by
      rw [show w.1 = β by
        replace hw : w ∈ (List.zipWith (fun b d => List.replicate (PulseDict.declared d) (b, (0 : K))) (List.replicate pd.length β) pd).flatten := by
          simpa [amplitudeUnits] using hw
        obtain ⟨l, hl, hm⟩ := List.mem_flatten.1 hw
        obtain ⟨i, hi, rfl⟩ := List.getElem_of_mem hl
        rw [List.getElem_zipWith, List.getElem_replicate] at hm
        rw [(List.mem_replicate.1 hm).2]]
      exact mul_le_mul_iff_right₀ hβ) hfm c fuel hm
  rwa [show pulsesInAmplitudes (List.replicate pd.length β) pd = pd.map (PulseDict.inAmplitude β) from zipWith_replicate_left ..] at this

/-- **C103** (any units, Nelder-Mead without tolerance). If the search is not stopped by the size of the simplex before it vanishes (tolerance zero or
negative), every pulse can have a unit of its own and nothing else has to be changed. -/
theorem C103_any_units_partial (hf : FixedTimes td) (hb : ∀ b ∈ bs, 0 < b) (ho : Homogeneous bs pd) (ht : cfg.sc.xatol ≤ 0)
    {fm : List (Call (Vec K (searchDim pd rd)) (ControlsOut K) F) → ControlsOut K → Py (Answer F)}
    (hfm : InUnits (vecInUnits (amplitudeUnits pd rd bs)) (ControlsOut.inAmplitudes bs) env.getFoM fm) (c : NmCfg K F (searchDim pd rd)) (fuel : ℕ)
    {o : Controls K} (hm : mkControls M pd td rd = .ok o) :
    ∃ o', mkControls M (pulsesInAmplitudes bs pd) td rd = .ok o' ∧
      SameRunIn (systemOps cfg.kind M sqrt rnd draws) (systemOps cfg.kind M sqrt rnd draws) cfg (vecInUnits (amplitudeUnits pd rd bs))
        (ControlsOut.inAmplitudes bs) (execute cfg env (systemOps cfg.kind M sqrt rnd draws) (nelderMead c fuel) o)
        (execute cfg (env.asking fm) (systemOps cfg.kind M sqrt rnd draws) (nelderMead c fuel) o') :=
  C103_amplitude_units_partial (t' := cfg.sc.xatol) hf hb ho (fun w hw y hy => by
    have hw := amplitudeUnits_pos hb w hw
    constructor
    · intro h
      have h0 : y = 0 := by
        by_contra hne
        have := mul_pos hw (lt_of_le_of_ne hy (Ne.symm hne))
        linarith
      rw [h0, mul_zero] at h
      rw [h0]; exact h
    · intro h
      have h0 : y = 0 := by linarith
      rw [h0, mul_zero]
      rw [h0] at h; exact h) hfm c fuel hm

end

/-! ### Concrete runs -/

/-- one Sinc pulse whose amplitude is given in the unit `β` -/
def unitPd (β : ℚ) : List (PulseDict ℚ) :=
  [({ exDict with lowerLimit := -1, upperLimit := 3, guess := .callable fun t => t.map (· / 2), basis := .sinc 1 1, wLower := 0, wUpper := 2 } :
      PulseDict ℚ).inAmplitude β]

def unitTd : List (TimeDict ℚ) :=
  [{ name := "t", initialValue := 2, isOptimization := false, lower := 1, upper := 4, amplitudeVariation := 1 }]

/-- the user's function: the distance of the second sample, in the old unit, from 3 -/
def ampEnv (β : ℚ) : Env (Vec ℚ 1) (ControlsOut ℚ) ℚ :=
  { getFoM := fun _ c => .ok ⟨some |(c.pulses.headD []).getD 1 0 / β - 8 / 5|, none, none⟩
    async := fun _ => .none, clock := fun n => n, sqrt := id, cdf := id }

/-- the run in the unit `β`: its end, the pulse of each call with the answer -/
def ampRun (β xatol : ℚ) : Py (Py Unit × List (List (List ℚ) × Option ℚ) × String) := do
  let o ← mkControls exFns (unitPd β) unitTd []
  let r := execute ({ exCfg .dcrab 30 false none none with maxSI := 1 }.withTol xatol) (ampEnv β)
    (systemOps .dcrab exFns id (fun _ _ => [1 / 2]) (fun _ _ => 1 / 2) : CtlOps (Controls ℚ) (Vec ℚ 1) (ControlsOut ℚ))
    (nelderMead (exNm exArgsort1) 14) o
  pure (r.1, r.2.log.map (fun c => (c.ctl.pulses, c.value)), r.2.terminateReason)

set_option synthInstance.maxSize 1000 in
/-- Two runs of dCRAB, the amplitude once in kHz and once in Hz, the tolerance 1/2 kHz: the same run. With the tolerance 1/2 Hz the search would go on,
so the tolerance has to be changed with the unit. -/
example : ampRun 1 (1 / 2) = .ok (.ok (), [([[0, 1 / 2, 1]], some (11 / 10)), ([[5 / 7, 17 / 14, 12 / 7]], some (27 / 70)),
      ([[10 / 7, 27 / 14, 17 / 7]], some (23 / 70)), ([[15 / 7, 18 / 7, 3]], some (34 / 35)), ([[15 / 7, 18 / 7, 3]], some (34 / 35)),
      ([[15 / 14, 11 / 7, 29 / 14]], some (1 / 35))], "Convergence of the simplex.") ∧
    ampRun 1000 500 = .ok (.ok (), [([[0, 500, 1000]], some (11 / 10)), ([[5000 / 7, 8500 / 7, 12000 / 7]], some (27 / 70)),
      ([[10000 / 7, 13500 / 7, 17000 / 7]], some (23 / 70)), ([[15000 / 7, 18000 / 7, 3000]], some (34 / 35)),
      ([[15000 / 7, 18000 / 7, 3000]], some (34 / 35)), ([[7500 / 7, 11000 / 7, 14500 / 7]], some (1 / 35))], "Convergence of the simplex.") ∧
    (ampRun 1000 (1 / 2)).map (fun r => r.2.1.length) = .ok 26 := by
  refine ⟨?_, ?_, ?_⟩ <;> decide +kernel

/-- The hypotheses of `C103_amplitude_units_partial` are met by the first two of these runs. -/
example : FixedTimes unitTd ∧ Homogeneous [1000] (unitPd 1) ∧ SameTolerance (amplitudeUnits (unitPd 1) [] [1000]) (1 / 2) 500 ∧
    InUnits (vecInUnits (amplitudeUnits (unitPd 1) [] [1000])) (ControlsOut.inAmplitudes [1000]) (ampEnv 1).getFoM (ampEnv 1000).getFoM := by
  refine ⟨by simp [FixedTimes, unitTd], .cons trivial .nil, fun w hw y _ => ?_, fun l c => ?_⟩
  · obtain rfl : w = (1000, 0) := by
      simp only [amplitudeUnits, unitPd, List.zipWith_cons_cons, List.zipWith_nil_left, List.flatten_cons, List.flatten_nil, List.append_nil,
        List.length_nil, List.replicate_zero] at hw
      exact (List.mem_replicate.1 hw).2
    show 1000 * y ≤ 500 ↔ y ≤ 1 / 2
    constructor <;> intro <;> linarith
  · obtain ⟨p, g, v⟩ := c
    rcases p with _ | ⟨u, p⟩
    · simp [ampEnv, ControlsOut.inAmplitudes]
    · rcases u with _ | ⟨a, _ | ⟨b, u⟩⟩ <;> simp [ampEnv, ControlsOut.inAmplitudes, samplesInUnit]

example : ∀ b ∈ ([.fourier 2, .sinc 2 1, .walsh 2, .piecewise, .sigmoid 1 1 1, .sigmoidTimeDep 1 1 1 1, .sigmoidAllParas 1 1 1 1 1] :
    List (Basis ℚ)), b.Homogeneous 1000 := by
  intro b hb
  simp only [List.mem_cons, List.not_mem_nil, or_false] at hb
  rcases hb with rfl | rfl | rfl | rfl | rfl | rfl | rfl <;> trivial

/-! ### Where the unit matters -/

/-- a pulse of the Chebyshev basis with the frequency 0, one sample, in the unit `β`; the coefficients are `β` times the amplitude 1 and the phase `π` -/
noncomputable def chebyshevIn (M : MathFns ℝ) (β : ℝ) : Py (List ℝ) := do
  let p ← mkPulse M (-1) (({ pulseName := "p", timeName := "t", binsNumber := 1, lowerLimit := -9, upperLimit := 9, amplitudeVariation := 1
                             shrink := false, guess := .array [0], scaling := .array [1], shapingOptions := none, overwrite := false
                             basis := .chebyshev 1, wLower := 0, wUpper := 1 } : PulseDict ℝ).inAmplitude β)
  let p ← p.drawSuper [0]
  let r ← p.getPulse M [β * 1, β * Real.pi] 1
  pure r.2

/-- **C103 is violated for the Chebyshev basis.** Half of its coefficients are phases, in radians, but the search takes them for amplitudes: their first
step is the amplitude variation, in the unit of the amplitude. A pulse that is -1 in one unit should be -2 in units half as large; the coefficients of
the other unit give 2. -/
theorem C103_chebyshev_phase {M : MathFns ℝ} (hM : M.Standard) :
    chebyshevIn M 1 = .ok [-1] ∧ chebyshevIn M 2 = .ok [2] := by
  have key : ∀ β : ℝ, 0 < β → chebyshevIn M β = .ok [β * Real.cos (β * Real.pi)] := by
    intro β h0
    unfold chebyshevIn
    simp [mkPulse, PulseDict.inAmplitude, Pulse.drawSuper, uniformDraw, basisSuper, basisParams, shapingOptions, Pulse.getPulse, Pulse.setInputs, Pulse.build, Pulse.applyStep, Pulse.shaped, Pulse.addInitialGuess, Pulse.initialGuess, Pulse.scale, Pulse.limited, Sampler.inAmplitude, Scaling.inAmplitude, samplesInUnit, getIdx, linspace0, zeros, sumTerms, chebyshevTerm, iadd, bop, cutSample, hM.cos, bind, Except.bind, pure, Except.pure]
    have hc1 := mul_le_mul_of_nonneg_left (Real.cos_le_one (β * Real.pi)) h0.le
    have hc2 := mul_le_mul_of_nonneg_left (Real.neg_one_le_cos (β * Real.pi)) h0.le
    rw [if_neg (by linarith)]
    dsimp only
    rw [min_eq_left (a := (0 : ℝ)) (by linarith), max_eq_left (a := (0 : ℝ)) (by linarith), zero_add, min_eq_left (by linarith), max_eq_left (by linarith)]
  rw [key 1 one_pos, key 2 two_pos]
  simp

/-- a pulse of the basis with optimized step widths in the unit `β`, and the pulse that is delivered for the coefficients 1, 1, 1 in the old unit -/
def sigmasIn (β : ℚ) : Py (List (List ℚ)) := do
  let o ← mkControls exFns [({ exDict with guess := .array [0, 0, 0], shrink := false, lowerLimit := -9, upperLimit := 9
                                           basis := .sigmoidSigmas 1 (1 / 20) 1 1, wLower := 1, wUpper := 2 } : PulseDict ℚ).inAmplitude β]
    unitTd []
  let o ← o.selectBasis fun _ => [1 / 2]
  let r ← o.getControls exFns [β, β, β]
  pure r.2.pulses

/-- **C103 is violated for SigmoidSigmas.** Its last coefficients change the widths of the steps, and unlike the other sigmoid bases it does not compare
them with the amplitude variation: in units half as large the widths change twice as much, and another pulse is delivered. -/
theorem C103_step_widths : sigmasIn 1 = .ok [[2173 / 1624, 1633 / 1624, 1093 / 1624]] ∧
    sigmasIn 2 = .ok [[1063 / 392, 793 / 392, 523 / 392]] ∧ samplesInUnit 2 [2173 / 1624, 1633 / 1624, 1093 / 1624] ≠ ([1063 / 392, 793 / 392, 523 / 392] : List ℚ) := by
  refine ⟨?_, ?_, ?_⟩ <;> decide +kernel

end QuOCS

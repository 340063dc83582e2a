/-
Property C100: what a dCRAB optimization shows to the user's function, super-iteration by super-iteration.
-/
import Verif.Lemmas.Made
import Verif.Lemmas.Dcrab
import Verif.Props.BestLibrary
import Verif.Props.SuperIterationStart

set_option linter.unusedSectionVars false
set_option linter.unusedVariables false

namespace QuOCS

section
variable {F : Type}
variable [Add F] [Sub F] [Mul F] [Div F] [Neg F] [Zero F] [One F] [NatCast F] [LE F] [LT F] [DecidableLE F]
  [DecidableLT F] [FloatOrder F]
variable {M : MathFns ℝ} {pd : List (PulseDict ℝ)} {td : List (TimeDict ℝ)} {rd : List (ParamDict ℝ)} {T : String → ℝ}
variable {sqrt : ℝ → ℝ} {rnd : ℕ → ℕ → List ℝ} {draws : ℕ → Vec ℝ (searchDim pd rd)}
variable {cfg : AlgCfg ℝ F} {env : Env (Vec ℝ (searchDim pd rd)) (ControlsOut ℝ) F}

theorem system_get {c c' : Controls ℝ} {x : Vec ℝ (searchDim pd rd)} {o : ControlsOut ℝ}
    (h : (systemOps .dcrab M sqrt rnd draws).getControls c x = .ok (c', o)) : c.getControls M (List.ofFn x) = .ok (c', o) := by
  have h : getControlsFor .dcrab M c (List.ofFn x) = .ok (c', o) := h
  unfold getControlsFor at h
  obtain ⟨r, h1, h⟩ := py_bind_ok.1 h
  rw [if_neg (by rintro ⟨h, _⟩; cases h)] at h
  cases h
  exact h1

/-- frequencies and base pulses of all pulses -/
def dcrabView (c : Controls ℝ) : List (List ℝ × List ℝ) := c.pulses.map fun p => (p.w, p.basePulse)

theorem dcrabView_split {c c' : Controls ℝ} (h : dcrabView c' = dcrabView c) :
    c'.pulses.map (·.w) = c.pulses.map (·.w) ∧ c'.pulses.map (·.basePulse) = c.pulses.map (·.basePulse) := by
  have h1 := congrArg (List.map Prod.fst) h
  have h2 := congrArg (List.map Prod.snd) h
  unfold dcrabView at h1 h2
  rw [List.map_map, List.map_map] at h1 h2
  exact ⟨h1, h2⟩

/-- **C100.** A dCRAB optimization with a search method of the library, without re-evaluation and drift compensation, with a usable
dictionary: pulses with a documented basis and default shaping, fixed times. `rnd k i` are the random numbers of super-iteration `k`
for pulse `i`. For all answers of the user's function, all stop requests, clocks and random numbers:
* super-iteration `k` draws new frequencies from the interval of the distribution;
* every call in it gets the pulses "initial guess plus base pulse plus the documented sum for these frequencies with the coefficients of
  the search vector", scaled and within the limits;
* the search starts without update, and at its end the update of the kept vector (the best one so far) is added to the base pulse, or
  replaces it;
* the first super-iteration starts with the base pulse zero. -/
theorem C100_super_iterations (hM : M.Standard) (hpd : ∀ d ∈ pd, DcrabPulse d) (hu : Usable pd td rd) (hT : DurationsAre td T)
    (hr : ∀ k, EnoughRandom pd (rnd k)) (hk : cfg.kind = .dcrab) (hre : cfg.reEval = none) (hdr : cfg.driftAfterSI = false)
    (hmax : ¬ FloatOrder.IsNaN cfg.fomMax) {dsm : Dsm ℝ (Vec ℝ (searchDim pd rd)) F} (hd : LibrarySearch dsm) {o : Controls ℝ}
    (ho : mkControls M pd td rd = .ok o) :
    SuperIterations cfg pd T rnd cfg.maxSI 1 (pd.map fun d => List.replicate d.binsNumber 0) []
      (execute cfg env (systemOps .dcrab M sqrt rnd draws) dsm o).2.log := by
  obtain ⟨o', h1, h2⟩ := mkControls_exists (M := M) hu
  obtain rfl : o' = o := by rw [ho] at h1; cases h1; rfl
  have hK := system_kept (M := M) (sqrt := sqrt) (draws := draws) hu hr
  have hV : KeepsView (systemOps .dcrab M sqrt rnd draws) (Ready M pd td rd) dcrabView :=
    ⟨fun o x o' c h hg => ⟨hK.get o x o' c h hg, (h.shows hM hpd hu hT (system_get hg)).1⟩,
      fun k o o' h hg => hK.select o k o' h hg, fun o x o' h hg => hK.base o x o' h hg⟩
  have hst := execute_stages (env := env) hV hk hre hmax dsm (hd.noDrift hdr)
    (searches_made (by rw [hk]; decide) hre dsm (hd.noDrift hdr)) h2
  have hbase : o'.pulses.map (·.basePulse) = pd.map fun d => List.replicate d.binsNumber 0 := by
    have ho' := ho
    unfold mkControls at ho'
    obtain ⟨⟨ps, mi⟩, k1, ho'⟩ := py_bind_ok.1 ho'
    obtain ⟨ts, k2, ho'⟩ := py_bind_ok.1 ho'
    rw [py_pure_ok] at ho'
    subst ho'
    refine forall2_map_eq (mkPulses_each k1) ?_
    rintro d p ⟨i, hp⟩
    unfold mkPulse at hp
    simp only at hp
    split at hp
    · cases hp
    · cases hp; rfl
  rw [← hbase]
  have shows : ∀ {o1 : Controls ℝ} {c : Call (Vec ℝ (searchDim pd rd)) (ControlsOut ℝ) F},
      BuiltBy (systemOps .dcrab M sqrt rnd draws) (fun o' => Ready M pd td rd o' ∧ dcrabView o' = dcrabView o1) c.vec c.ctl →
      CallShows pd T (o1.pulses.map (·.w)) (o1.pulses.map (·.basePulse)) (List.ofFn c.vec) c.ctl := by
    rintro o1 c ⟨a, b, ⟨ha, hv⟩, hg⟩
    rw [← (dcrabView_split hv).1, ← (dcrabView_split hv).2]
    exact (ha.shows hM hpd hu hT (system_get hg)).2
  generalize (execute cfg env (systemOps .dcrab M sqrt rnd draws) dsm o').2.log = log at hst
  generalize ([] : List (Call (Vec ℝ (searchDim pd rd)) (ControlsOut ℝ) F)) = before at hst
  generalize cfg.maxSI = m at hst
  generalize 1 = k at hst
  clear ho h1 hbase
  induction hst with
  | stop => exact .stop _ _ _ _
  | last hs hb hq =>
    obtain ⟨k1, k2⟩ := h2.drawn hpd hs
    refine .last _ k1 fun c hc => ?_
    rw [← k2]
    exact shows (hb c hc)
  | @next n k o0 before o1 calls x0 x oo o3 rest hs hb hq hm hkept ho2 hup hrest ih =>
    obtain ⟨k1, k2⟩ := h2.drawn hpd hs
    have r1 := hV.select _ _ _ h2 hs
    obtain ⟨v1, v2⟩ := dcrabView_split ho2.2
    have hz : NoUpdate pd (List.ofFn x0) := by
      obtain ⟨l, hl, hv⟩ := py_bind_ok.1 (show (do vecOfList _ (← o1.mean)) = .ok x0 from hm)
      rw [vecOfList_ofFn hv]
      exact r1.mean_zero hpd hl
    have hn := ho2.1.next hM hpd hu hT (show oo.updateBase M (List.ofFn x) = .ok o3 from hup)
    rw [v1, v2, k2] at hn
    refine .next _ x0 x _ k1 (fun c hc => ?_) hz hkept hn (ih (hV.base _ _ _ ho2.1 hup))
    rw [← k2]
    exact shows (hb c hc)

end

/-! ### A concrete case -/

/-- two pulses, Fourier and sigmoid, the second one with overwritten base pulse, and a parameter -/
noncomputable def exDcrabPd : List (PulseDict ℝ) :=
  [exBasisPulse (.fourier 2), { exBasisPulse (.sigmoid 1 (1 / 10) (1 / 10)) with overwrite := true, guess := .callable fun t => t }]

noncomputable def exDcrabTd : List (TimeDict ℝ) :=
  [{ name := "t", isOptimization := false, initialValue := 2, lower := 0, upper := 0, amplitudeVariation := 0 }]

noncomputable def exDcrabRd : List (ParamDict ℝ) := [{ name := "a", initialValue := 0, lower := -1, upper := 1, amplitudeVariation := 1 }]

/-- three super-iterations, maximization -/
def exDcrabCfg (sc : ScCfg ℝ ℚ) : AlgCfg ℝ ℚ :=
  { kind := .dcrab, maxEvalTotal := 10, totalTimeLim := 10, maximize := true, userGoal := none, fomMax := (10000000000 : ℚ)
    initStd := (1 / 10 : ℚ), reEval := none, half := (1 / 2 : ℚ), tiny := (0 : ℚ), driftAfterSI := false, driftMinutes := 0
    driftAverage := 1, maxSI := 3, sc := sc }

theorem exDcrab_usable : Usable exDcrabPd exDcrabTd exDcrabRd := by
  refine ⟨.inl (by simp [exDcrabPd]), fun d hd => ?_, fun t ht h => ?_⟩
  · rcases List.mem_cons.1 hd with rfl | hd
    · exact ⟨by simp [exBasisPulse], by simp [exBasisPulse, PulseDict.declared, basisParams], trivial, .inl rfl, .inl rfl, _, by simp [exDcrabTd]; rfl, rfl⟩
    · rw [List.mem_singleton.1 hd]
      exact ⟨by simp [exBasisPulse], by simp [exBasisPulse, PulseDict.declared, basisParams], trivial, fun t ht => .inl ht, .inl rfl, _, by simp [exDcrabTd]; rfl, rfl⟩
  · rw [List.mem_singleton.1 ht] at h; cases h

theorem exDcrab_pulses : ∀ d ∈ exDcrabPd, DcrabPulse d := by
  intro d hd
  rcases List.mem_cons.1 hd with rfl | hd
  · exact ⟨.inl ⟨2, rfl⟩, rfl, rfl, fun f h => by cases h⟩
  · rw [List.mem_singleton.1 hd]
    exact ⟨.inr (.inr (.inr (.inl ⟨1, _, _, rfl⟩))), rfl, rfl, fun f h => by cases h⟩

theorem exDcrab_durations : DurationsAre exDcrabTd (fun _ => 2) := by
  intro t ht
  rw [List.mem_singleton.1 ht]
  exact ⟨rfl, rfl⟩

theorem exDcrab_random (k : ℕ) : EnoughRandom exDcrabPd (fun _ => [1 / ((k : ℝ) + 2), 1 / ((k : ℝ) + 3)]) := by
  intro i d hd
  match i with
  | 0 => cases hd; simp [exBasisPulse, basisSuper]
  | 1 => cases hd; simp [exBasisPulse, basisSuper]
  | i + 2 => simp [exDcrabPd] at hd

/-- The hypotheses of C100 hold for three super-iterations of CMA-ES with a maximization and any user's function. -/
example (lib : CmaLib ℝ ℚ) (env : Env (Vec ℝ (searchDim exDcrabPd exDcrabRd)) (ControlsOut ℝ) ℚ) (sc : ScCfg ℝ ℚ)
    (draws : ℕ → Vec ℝ (searchDim exDcrabPd exDcrabRd)) : ∃ o, mkControls standardFns exDcrabPd exDcrabTd exDcrabRd = .ok o ∧
    SuperIterations (exDcrabCfg sc) exDcrabPd (fun _ => 2) (fun k _ => [1 / (k + 2), 1 / (k + 3)]) 3 1 [[0, 0, 0], [0, 0, 0]] []
      (execute (exDcrabCfg sc) env
        (systemOps .dcrab standardFns Real.sqrt (fun k _ => [1 / (k + 2), 1 / (k + 3)]) draws) (cmaes lib (some 2) 5) o).2.log := by
  obtain ⟨o, ho, _⟩ := mkControls_exists (M := standardFns) exDcrab_usable
  exact ⟨o, ho, C100_super_iterations standardFns_standard exDcrab_pulses exDcrab_usable exDcrab_durations exDcrab_random rfl rfl rfl
    (fun h => h) (.inr ⟨lib, _, _, rfl⟩) ho⟩

end QuOCS

/-
Property C84: with a usable dictionary a run fails only when the user's own function fails.
-/
import Verif.Spec.Failure
import Verif.Lemmas.System
import Verif.Lemmas.Delivered
import Verif.Props.Controls
import Verif.Props.CMAES

set_option linter.unusedSectionVars false
set_option linter.unusedVariables false

namespace QuOCS

section
variable {K : Type} [Field K] [LinearOrder K] [IsStrictOrderedRing K] {F : Type}
variable [Add F] [Sub F] [Mul F] [Div F] [Neg F] [Zero F] [One F] [NatCast F] [LE F] [LT F] [DecidableLE F]
  [DecidableLT F]
variable {M : MathFns K} {pd : List (PulseDict K)} {td : List (TimeDict K)} {rd : List (ParamDict K)}

/-- **C84.** The controls object of a usable dictionary can be created, and a start point, start steps, controls for any
search vector with one entry per coefficient and parameter, and a new basis can be obtained from it. -/
theorem C84_creation (M : MathFns K) (hu : Usable pd td rd) : ∃ o, mkControls M pd td rd = .ok o ∧
    (∃ v, o.mean = .ok v ∧ v.length = searchDim pd rd) ∧ (∃ v, o.sigma = .ok v ∧ v.length = searchDim pd rd) ∧
    (∀ x : List K, x.length = searchDim pd rd → ∃ r, o.getControls M x = .ok r) ∧
    (∀ rnd, EnoughRandom pd rnd → ∃ o', o.selectBasis rnd = .ok o') := by
  obtain ⟨o, h1, h2⟩ := mkControls_exists (M := M) hu
  refine ⟨o, h1, h2.mean, h2.sigma hu, fun x hx => ?_, fun rnd hr => ?_⟩
  · obtain ⟨c, r, h, _⟩ := h2.get hu hx
    exact ⟨_, h⟩
  · obtain ⟨o', h, _⟩ := h2.select hr
    exact ⟨o', h⟩

/-- what a failed run with a usable dictionary has met -/
theorem fails_reason {D : Prop} {e : PyErr} {V C O : Type} {env : Env V C F} {s : AlgState V C O F} (h : FailsFor env D e s) :
    UserFailed env e s.log ∨ (e = .attributeError ∧ s.log = [] ∧ D) := by
  rcases h with h | ⟨h1, h2, h3⟩
  · exact .inl h
  · exact .inr ⟨h2, h3, h1⟩

variable {kind : AlgKind} {sqrt : K → K} {rnd : ℕ → ℕ → List K} {draws : ℕ → Vec K (searchDim pd rd)}
  {cfg : AlgCfg K F} {env : Env (Vec K (searchDim pd rd)) (ControlsOut K) F}

/-- **C84, partial.** A run of dCRAB, or of DirectSearch without pulses, with Nelder-Mead searches and a usable dictionary: whatever
the user's function answers, whenever the user stops the run, and whatever the random numbers are, if the run raises an
exception then the last call of the user's function raised it, or returned no figure of merit; or the run has
re-evaluation or drift compensation and was stopped before the first call of the user's function.
Missing: that last case (`C84_reevaluation_without_budget`), DirectSearch with pulses (`C84_direct_search_with_pulses`), GRAPE. -/
theorem C84_only_user_errors_nelder_mead_partial (hu : Usable pd td rd) (hg : cfg.kind ≠ .grape)
    (hk : cfg.kind = .directSearch → pd = []) (hr : ∀ k, EnoughRandom pd (rnd k)) (hre : cfg.reEval ≠ some [])
    (hd : cfg.driftAfterSI = true → cfg.driftAverage ≠ 0) (c : NmCfg K F (searchDim pd rd))
    (hc : 0 < c.driftMinutes → c.driftAverage ≠ 0) (fuel : ℕ) (hf : cfg.maxEvalTotal.toNat + 2 ≤ fuel)
    {o : Controls K} (ho : mkControls M pd td rd = .ok o) {e : PyErr}
    (he : (execute cfg env (systemOps cfg.kind M sqrt rnd draws) (nelderMead c fuel) o).1 = .error e) :
    UserFailed env e (execute cfg env (systemOps cfg.kind M sqrt rnd draws) (nelderMead c fuel) o).2.log ∨
    (e = .attributeError ∧ (execute cfg env (systemOps cfg.kind M sqrt rnd draws) (nelderMead c fuel) o).2.log = [] ∧
      (cfg.reEval ≠ none ∨ 0 < c.driftMinutes)) := by
  obtain ⟨o', h1, h2⟩ := mkControls_exists (M := M) hu
  obtain rfl : o' = o := by rw [ho] at h1; cases h1; rfl
  have hF := system_faultless (M := M) hu hk sqrt hr draws
  refine fails_reason ((execute_fails (D := cfg.reEval ≠ none ∨ 0 < c.driftMinutes) hg hF hd (nelderMead c fuel)
    (fun i x sim sg hs => ?_) h2).2 e he)
  exact nelderMead_fine hg hF hre .inl hu.dim_pos.ne' (fun h => ⟨.inr h, hc h⟩) fuel hf i x sim sg hs

/-- **C84, partial.** The same with CMA-ES searches and a population of at least two. Missing: as above. -/
theorem C84_only_user_errors_cmaes_partial [FloorRing K] (hu : Usable pd td rd) (hg : cfg.kind ≠ .grape)
    (hk : cfg.kind = .directSearch → pd = []) (hr : ∀ k, EnoughRandom pd (rnd k)) (hre : cfg.reEval ≠ some [])
    (hd : cfg.driftAfterSI = true → cfg.driftAverage ≠ 0) (lib : CmaLib K F) (p : Option K) {l : ℤ}
    (hp : cmaPopulation lib.log (searchDim pd rd) p = .ok l) (hl : 2 ≤ l)
    (fuel : ℕ) (hf : cfg.maxEvalTotal.toNat + 2 ≤ fuel)
    {o : Controls K} (ho : mkControls M pd td rd = .ok o) {e : PyErr}
    (he : (execute cfg env (systemOps cfg.kind M sqrt rnd draws) (cmaes lib p fuel) o).1 = .error e) :
    UserFailed env e (execute cfg env (systemOps cfg.kind M sqrt rnd draws) (cmaes lib p fuel) o).2.log ∨
    (e = .attributeError ∧ (execute cfg env (systemOps cfg.kind M sqrt rnd draws) (cmaes lib p fuel) o).2.log = [] ∧
      cfg.reEval ≠ none) := by
  obtain ⟨o', h1, h2⟩ := mkControls_exists (M := M) hu
  obtain rfl : o' = o := by rw [ho] at h1; cases h1; rfl
  have hF := system_faultless (M := M) hu hk sqrt hr draws
  refine fails_reason ((execute_fails (D := cfg.reEval ≠ none) hg hF hd (cmaes lib p fuel)
    (fun i x sim sg hs => ?_) h2).2 e he)
  exact cmaes_fine hg hF hre (fun h => h) hp hl fuel hf i x sim sg

theorem AlwaysAnswers.not_failed {V C : Type} {env : Env V C F} (ha : AlwaysAnswers env) {e : PyErr}
    {log : List (Call V C F)} : ¬ UserFailed env e log := by
  rintro ⟨before, c, _, h1, h2⟩
  obtain ⟨a, f, h3, h4⟩ := ha before c.ctl
  rw [h3] at h1
  rcases h2 with h2 | ⟨_, a', h2, h5⟩
  · rw [h1] at h2; cases h2
  · rw [h1] at h2; cases h2
    rw [h4] at h5; cases h5

/-- **C84, partial.** If in addition the user's function always returns a figure of merit, and neither re-evaluation nor drift
compensation by minutes is on, the run ends without an exception. Missing: as above. -/
theorem C84_completes_nelder_mead_partial (hu : Usable pd td rd) (hg : cfg.kind ≠ .grape)
    (hk : cfg.kind = .directSearch → pd = []) (hr : ∀ k, EnoughRandom pd (rnd k)) (hre : cfg.reEval = none)
    (hd : cfg.driftAfterSI = true → cfg.driftAverage ≠ 0) (c : NmCfg K F (searchDim pd rd))
    (hc : c.driftMinutes ≤ 0) (fuel : ℕ) (hf : cfg.maxEvalTotal.toNat + 2 ≤ fuel) (ha : AlwaysAnswers env)
    {o : Controls K} (ho : mkControls M pd td rd = .ok o) :
    (execute cfg env (systemOps cfg.kind M sqrt rnd draws) (nelderMead c fuel) o).1 = .ok () := by
  rcases h : (execute cfg env (systemOps cfg.kind M sqrt rnd draws) (nelderMead c fuel) o).1 with e | u
  · rcases C84_only_user_errors_nelder_mead_partial hu hg hk hr (by simp [hre]) hd c (fun h => absurd h (not_lt.2 hc)) fuel hf ho h
      with h1 | ⟨_, _, h1 | h1⟩
    · exact absurd h1 ha.not_failed
    · exact absurd hre h1
    · exact absurd h1 (not_lt.2 hc)
  · rfl

/-- **C84, partial.** The same with CMA-ES searches. Missing: as above. -/
theorem C84_completes_cmaes_partial [FloorRing K] (hu : Usable pd td rd) (hg : cfg.kind ≠ .grape)
    (hk : cfg.kind = .directSearch → pd = []) (hr : ∀ k, EnoughRandom pd (rnd k)) (hre : cfg.reEval = none)
    (hd : cfg.driftAfterSI = true → cfg.driftAverage ≠ 0) (lib : CmaLib K F) (p : Option K) {l : ℤ}
    (hp : cmaPopulation lib.log (searchDim pd rd) p = .ok l) (hl : 2 ≤ l)
    (fuel : ℕ) (hf : cfg.maxEvalTotal.toNat + 2 ≤ fuel) (ha : AlwaysAnswers env)
    {o : Controls K} (ho : mkControls M pd td rd = .ok o) :
    (execute cfg env (systemOps cfg.kind M sqrt rnd draws) (cmaes lib p fuel) o).1 = .ok () := by
  rcases h : (execute cfg env (systemOps cfg.kind M sqrt rnd draws) (cmaes lib p fuel) o).1 with e | u
  · rcases C84_only_user_errors_cmaes_partial hu hg hk hr (by simp [hre]) hd lib p hp hl fuel hf ho h with h1 | ⟨_, _, h1⟩
    · exact absurd h1 ha.not_failed
    · exact absurd hre h1
  · rfl

/-- **C84 is violated by DirectSearch with pulses**: whatever search method is used, a DirectSearch run with at least one
pulse never calls the user's function. -/
theorem C84_direct_search_with_pulses (hpd : pd ≠ []) (hkd : cfg.kind = .directSearch) (dsm : Dsm K (Vec K (searchDim pd rd)) F)
    {o : Controls K} (ho : mkControls M pd td rd = .ok o) :
    (execute cfg env (systemOps cfg.kind M sqrt rnd draws) dsm o).2.log = [] := by
  have hI : KeptByOps (systemOps cfg.kind M sqrt rnd draws) (ControlsReach M pd td rd) := by
    refine ⟨fun o x o' c h1 h2 => ?_, fun _ _ _ h1 h2 => .select h1 h2, fun _ _ _ h1 h2 => .base h1 h2⟩
    obtain ⟨r, hr, h2⟩ := py_bind_ok.1 h2
    split at h2
    · cases h2
    · cases h2
      exact .get h1 hr
  have h := execute_built (cfg := cfg) (env := env) hI dsm (.create ho)
  rw [List.eq_nil_iff_forall_not_mem]
  intro c hc
  obtain ⟨o1, o2, h1, h2⟩ := h.log c hc
  obtain ⟨r, hr, h2⟩ := py_bind_ok.1 h2
  split at h2
  · cases h2
  rename_i hn
  cases h2
  refine hn ⟨hkd, fun he => hpd ?_⟩
  have := (delivered_admissible h1 hr).number.1
  rw [he] at this
  exact List.length_eq_zero_iff.1 this.symm

end

/-! ### Concrete instances -/

/-- one pulse with one coefficient, one fixed time -/
def exUPd : List (PulseDict ℚ) := [{ exDict with basis := .sinc 1 1 }]

theorem exUPd_usable : Usable exUPd exTd [] := by
  refine ⟨.inl (by simp [exUPd]), fun d hd => ?_, fun t ht h => ?_⟩
  · obtain rfl : d = { exDict with basis := .sinc 1 1 } := by simpa [exUPd] using hd
    refine ⟨by decide, by decide, trivial, fun t ht => .inl (by simpa using ht), fun t ht => .inl (by simpa using ht), ?_⟩
    exact ⟨_, List.mem_cons_self, rfl⟩
  · obtain rfl : t = _ := by simpa [exTd] using ht
    cases h

/-- two pulses, two parameters: the dictionary of the examples in `Verif.Props.Controls` -/
example : Usable exPd exTd exRd ∧ searchDim exPd exRd = 8 := by
  refine ⟨⟨.inl (by simp [exPd]), fun d hd => ?_, fun t ht h => ?_⟩, by decide⟩
  · have hd : d = exDict ∨ d = { exDict with pulseName := "q", basis := .sigmoid 1 (1/10) 1 } := by simpa [exPd] using hd
    rcases hd with rfl | rfl
    all_goals
      refine ⟨by decide, by decide, trivial, fun t ht => .inl (by simpa using ht), fun t ht => .inl (by simpa using ht), ?_⟩
      exact ⟨_, List.mem_cons_self, rfl⟩
  · obtain rfl : t = _ := by simpa [exTd] using ht
    cases h

/-- the user's function: the first sample of the pulse, except that call number `n` raises `KeyError` -/
def exUEnv (n : ℕ) : Env (Vec ℚ 1) (ControlsOut ℚ) ℚ :=
  { getFoM := fun h c => if h.length = n then .error .keyError else .ok ⟨(c.pulses.flatten).head?.getD 0, none, none⟩
    async := fun _ => .none, clock := fun n => n, sqrt := id
    cdf := fun z => if z < 0 then 1 / 4 else if z = 0 then 1 / 2 else 3 / 4 }

def exUOps (k : AlgKind) : CtlOps (Controls ℚ) (Vec ℚ 1) (ControlsOut ℚ) :=
  systemOps k exFns id (fun _ _ => [1 / 2]) (fun _ _ => 1 / 3)

/-- a run over two super-iterations with a budget of `m` calls -/
def exURun (k : AlgKind) (m : ℤ) (re : Option (List ℚ)) (n : ℕ) : Py (Py Unit × ℕ) := do
  let o ← mkControls exFns exUPd exTd []
  let r := execute (exCfg k m false none re) (exUEnv n) (exUOps k) (nelderMead (exNm exArgsort1) (m.toNat + 2)) o
  pure (r.1, r.2.log.length)

theorem exU_enough : ∀ k : ℕ, EnoughRandom exUPd ((fun _ _ => [1 / 2] : ℕ → ℕ → List ℚ) k) := by
  intro k i d hd
  rcases i with _ | i
  · cases hd; exact le_refl 1
  · simp [exUPd] at hd

set_option synthInstance.maxSize 1000 in
/-- A run over two super-iterations that uses its budget of four calls, and one whose third call raises: the hypotheses
of `C84_only_user_errors_nelder_mead_partial` are met (`exUPd_usable`, `exU_enough`, no re-evaluation, no drift). -/
example : exURun .dcrab 4 none 9 = .ok (.ok (), 4) ∧ exURun .dcrab 4 none 2 = .ok (.error .keyError, 3) := by
  constructor <;> decide +kernel

/-- The hypothesis of `C84_completes_nelder_mead_partial` on the user's function. -/
example : AlwaysAnswers ({ exUEnv 0 with getFoM := fun h _ => .ok ⟨some (h.length : ℚ), none, none⟩ } :
    Env (Vec ℚ 1) (ControlsOut ℚ) ℚ) :=
  fun h c => ⟨_, _, rfl, rfl⟩

/-- The hypothesis of the CMA-ES theorems on the population. -/
example : cmaPopulation exCmaLib.log (searchDim exUPd ([] : List (ParamDict ℚ))) none = .ok 7 ∧ (2 : ℤ) ≤ 7 := by
  constructor <;> decide +kernel

set_option synthInstance.maxSize 1000 in
/-- **C84 is violated by re-evaluation when the run is stopped before the first call**: with `max_eval_total` zero (or a
stop request before the first call) and a threshold below one half, a dCRAB run with a usable dictionary raises
`AttributeError` although the user's function was never called. -/
theorem C84_reevaluation_without_budget : Usable exUPd exTd [] ∧
    exURun .dcrab 0 (some [1 / 4]) 9 = .ok (.error .attributeError, 0) :=
  ⟨exUPd_usable, by decide +kernel⟩

set_option synthInstance.maxSize 1000 in
/-- **C84 is violated by DirectSearch with pulses**: the run raises `ValueError` before the first call. -/
theorem C84_direct_search_raises : Usable exUPd exTd [] ∧
    exURun .directSearch 4 none 9 = .ok (.error .valueError, 0) :=
  ⟨exUPd_usable, by decide +kernel⟩

end QuOCS

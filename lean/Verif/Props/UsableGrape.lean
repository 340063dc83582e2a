/-
Property C84 for GRAPE: when a GRAPE run with a usable dictionary fails.
-/
import Verif.Props.Usable

set_option linter.unusedSectionVars false
set_option linter.unusedVariables false

namespace QuOCS

/-! ### Specification -/

/-- A search method that only asks for figures of merit and returns, as `scipy.optimize.minimize` does. -/
def Strat.OnlyEvals {K V F α : Type} : Strat K V F α → Prop
  | .ret _ => True
  | .op o k => (∃ x it, o = .eval x it) ∧ ∀ r, (k r).OnlyEvals

section
variable {K V C O F : Type} [LE K] [DecidableLE K]
variable [Add F] [Sub F] [Mul F] [Div F] [Neg F] [Zero F] [One F] [NatCast F] [LE F] [LT F] [DecidableLE F]
  [DecidableLT F]

/-- No measured figure of merit is better than the start value of the best one (`1e10`, to be minimised). -/
def NothingBetter (cfg : AlgCfg K F) (log : List (Call V C F)) : Prop :=
  ∀ c ∈ log, ∀ a f, c.ans = .ok a → a.fom = some f → ¬ dirMul cfg.maximize f < cfg.fomMax

/-- The reasons for which a GRAPE run may fail. -/
def GrapeFails (cfg : AlgCfg K F) (env : Env V C F) (e : PyErr) (log : List (Call V C F)) : Prop :=
  UserFailed env e log ∨ (e = .attributeError ∧ ∃ n, env.async n = .sigint) ∨
    (e = .attributeError ∧ NothingBetter cfg log)

/-! ### Proof -/

variable {cfg : AlgCfg K F} {env : Env V C F} {ops : CtlOps O V C} {I : O → Prop} {S : List V → Prop}

/-- the invariant of a GRAPE run -/
structure GrapeSound (cfg : AlgCfg K F) (I : O → Prop) (s : AlgState V C O F) : Prop where
  ctl : I s.ctl
  start : s.bestXX = none → s.bestFoM = cfg.fomMax ∧ NothingBetter cfg s.log

namespace GrapeSound

theorem frame {s s' : AlgState V C O F} (h : GrapeSound cfg I s) (h1 : s'.ctl = s.ctl) (h2 : s'.bestXX = s.bestXX)
    (h3 : s'.bestFoM = s.bestFoM) (h4 : s'.log = s.log) : GrapeSound cfg I s' := by
  refine ⟨h1 ▸ h.ctl, ?_⟩
  rw [h2, h3, h4]; exact h.start

/-- the failures of a GRAPE run -/
abbrev E (cfg : AlgCfg K F) (env : Env V C F) : PyErr → AlgState V C O F → Prop := fun e s => GrapeFails cfg env e s.log

theorem modify {f : AlgState V C O F → AlgState V C O F} (h1 : ∀ s, (f s).ctl = s.ctl)
    (h2 : ∀ s, (f s).bestXX = s.bestXX) (h3 : ∀ s, (f s).bestFoM = s.bestFoM) (h4 : ∀ s, (f s).log = s.log) :
    Fine (GrapeSound cfg I) (GrapeSound cfg I) (E cfg env) (Prog.modify f) :=
  Fine.modify fun s h => h.frame (h1 s) (h2 s) (h3 s) (h4 s)

theorem stopWith (r : String) :
    Fine (GrapeSound cfg I) (GrapeSound cfg I) (E cfg env) (QuOCS.stopWith cfg r : Prog (AlgState V C O F) Unit) :=
  modify (fun _ => rfl) (fun _ => rfl) (fun _ => rfl) (fun _ => rfl)

theorem poll : Fine (GrapeSound cfg I) (GrapeSound cfg I) (E cfg env) (QuOCS.poll cfg env : Prog (AlgState V C O F) Unit) := by
  intro s h
  have h' : GrapeSound cfg I { s with polls := s.polls + 1 } := h.frame rfl rfl rfl rfl
  unfold QuOCS.poll
  rcases ha : env.async s.polls with _ | _ | _
  · exact ⟨fun _ _ => h', fun e he => by cases he⟩
  · exact ⟨fun _ _ => h.frame rfl rfl rfl rfl, fun e he => by cases he⟩
  · dsimp only
    split
    · exact stopWith _ _ h'
    · exact ⟨fun _ he => (by cases he), fun e he => by cases he; exact .inr (.inl ⟨rfl, _, ha⟩)⟩

theorem stopChecks :
    Fine (GrapeSound cfg I) (GrapeSound cfg I) (E cfg env) (QuOCS.stopChecks cfg env : Prog (AlgState V C O F) Unit) := by
  refine .bind (Q := GrapeSound cfg I) (fun s h => ?_) fun _ => .bind (Q := GrapeSound cfg I) (fun s h => ?_) fun _ => ?_
  · unfold budgetCheck
    split
    · exact stopWith _ s h
    · exact ⟨fun _ _ => h, fun e he => by cases he⟩
  · unfold goalCheck
    split
    · split
      · exact stopWith _ s h
      · exact ⟨fun _ _ => h, fun e he => by cases he⟩
    · exact ⟨fun _ _ => h, fun e he => by cases he⟩
  · refine .ite (fun _ => .bind (Q := GrapeSound cfg I)
      (fun s h => ⟨fun _ _ => h.frame rfl rfl rfl rfl, fun e he => by cases he⟩) fun t => fun s h => ?_) fun _ => .pure _
    unfold timeCheckAt
    split
    · exact stopWith _ s h
    · exact ⟨fun _ _ => h, fun e he => by cases he⟩

/-- between the call of the user's function and the comparison with the best value: the newest value is the one to be
compared, and a vector is noted -/
structure Fresh (cfg : AlgCfg K F) (I : O → Prop) (s : AlgState V C O F) : Prop where
  ctl : I s.ctl
  cur : s.xx.isSome
  start : s.bestXX = none → s.bestFoM = cfg.fomMax ∧
    (¬ s.fomDict.fom < cfg.fomMax → NothingBetter cfg s.log)

theorem measure (hk : cfg.kind = .grape) (x : V) (c : C) :
    Fine (fun s => GrapeSound cfg I s ∧ s.xx.isSome) (GrapeSound cfg I) (E cfg env)
      (QuOCS.measure cfg env x c : Prog (AlgState V C O F) F) := by
  refine .bind (Q := Fresh cfg I) (fun s h => ?_) fun _ => .bind (Q := GrapeSound cfg I) (fun s h => ?_) fun f =>
    .bind (Q := GrapeSound cfg I) (fun s h => ?_) fun _ =>
    .bind (Q := GrapeSound cfg I) (modify (fun s => ?_) (fun s => ?_) (fun s => ?_) (fun s => ?_)) fun _ =>
    .bind .get fun s => .pure _
  · obtain ⟨h, hx⟩ := h
    unfold getData
    dsimp only
    rcases ha : env.getFoM s.log c with e | a
    · refine ⟨fun _ he => (by cases he), fun e' he => ?_⟩
      cases he
      exact .inl ⟨_, _, rfl, ha.symm, .inl rfl⟩
    · dsimp only
      rcases hf : a.fom with _ | f
      · refine ⟨fun _ he => (by cases he), fun e' he => ?_⟩
        cases he
        exact .inl ⟨_, _, rfl, ha.symm, .inr ⟨rfl, a, rfl, hf⟩⟩
      · refine ⟨fun _ _ => ⟨h.ctl, hx, fun hb => ⟨(h.start hb).1, fun hn => ?_⟩⟩, fun e' he => by cases he⟩
        intro c' hc' a' f' h1 h2
        rcases List.mem_append.1 hc' with hc' | hc'
        · exact (h.start hb).2 c' hc' a' f' h1 h2
        · obtain rfl := List.mem_singleton.1 hc'
          cases h1
          rw [hf] at h2; cases h2
          exact hn
  · unfold response
    dsimp only
    rw [if_neg (by rw [hk]; simp)]
    refine ⟨fun _ _ => ?_, fun e he => by cases he⟩
    by_cases hlt : s.fomDict.fom < s.bestFoM
    · rw [if_pos (show (cfg.kind = .grape ∨ cfg.reEval.isNone = true) ∧ s.fomDict.fom < s.bestFoM from ⟨.inl hk, hlt⟩)]
      have hno : ∀ s' : AlgState V C O F, s'.ctl = s.ctl → s'.bestXX = s.xx → GrapeSound cfg I s' := by
        intro s' h1 h2
        refine ⟨h1 ▸ h.ctl, fun hb => ?_⟩
        have := h.cur
        rw [← h2, hb] at this; cases this
      split <;> exact hno _ rfl rfl
    · rw [if_neg (fun h : (cfg.kind = .grape ∨ cfg.reEval.isNone = true) ∧ s.fomDict.fom < s.bestFoM => hlt h.2)]
      have hno : ∀ s' : AlgState V C O F, s'.ctl = s.ctl → s'.bestXX = s.bestXX → s'.bestFoM = s.bestFoM →
          s'.log = s.log → GrapeSound cfg I s' := by
        intro s' h1 h2 h3 h4
        refine ⟨h1 ▸ h.ctl, fun hb => ?_⟩
        rw [h2] at hb
        obtain ⟨e1, e2⟩ := h.start hb
        rw [h3, h4]
        exact ⟨e1, e2 (by rwa [← e1])⟩
      split <;> exact hno _ rfl rfl rfl rfl
  · unfold sendResponse
    split
    · exact ⟨fun _ _ => h.frame rfl rfl rfl rfl, fun e' he => by cases he⟩
    · exact ⟨fun _ _ => h.frame rfl rfl rfl rfl, fun e' he => by cases he⟩
  all_goals (split <;> rfl)

theorem routineCall (hk : cfg.kind = .grape) (hF : Faultless ops I S) (x : V) (it : ℕ) :
    Fine (GrapeSound cfg I) (GrapeSound cfg I) (E cfg env) (QuOCS.routineCall cfg env ops x it) := by
  refine .bind poll fun _ => .bind stopChecks fun _ => .bind poll fun _ => .bind .get fun s =>
    .ite (fun _ => .pure _) fun _ => ?_
  refine .bind (Q := fun s => GrapeSound cfg I s ∧ s.xx.isSome) (.modify fun s h => ⟨h.frame rfl rfl rfl rfl, rfl⟩)
    fun _ => ?_
  refine .bind (Q := fun s => GrapeSound cfg I s ∧ s.xx.isSome) (fun s h => ?_) fun c =>
    .bind (Q := fun s => GrapeSound cfg I s ∧ s.xx.isSome) (fun s h => ?_) fun _ => .bind .get fun s =>
    .ite (fun _ => (Fine.pure _).weaken (fun _ h => h) (fun _ h => h.1)) fun _ => measure hk x c
  · obtain ⟨o', c, h1, h2⟩ := hF.get s.ctl x h.1.ctl
    unfold sendControls
    rw [h1]
    exact ⟨fun _ _ => ⟨⟨h2, h.1.start⟩, h.2⟩, fun e he => by cases he⟩
  · have h1 := poll (env := env) s h.1
    refine ⟨fun a ha => ⟨h1.1 a ha, ?_⟩, h1.2⟩
    have hx : (QuOCS.poll cfg env s).2.xx = s.xx := by
      unfold QuOCS.poll
      dsimp only
      split
      · rfl
      · rfl
      · split <;> rfl
    rw [hx]; exact h.2

theorem interp (hk : cfg.kind = .grape) (hF : Faultless ops I S) {α : Type} (m : Strat K V F α) (hm : m.OnlyEvals) :
    Fine (GrapeSound cfg I) (GrapeSound cfg I) (E cfg env) (m.interp (algHandler cfg env ops)) := by
  induction m with
  | ret a => exact .pure a
  | op o k ih =>
    obtain ⟨⟨x, it, rfl⟩, h2⟩ := hm
    rw [Strat.interp_op]
    refine .bind (Q := GrapeSound cfg I) ?_ fun r => ih r (h2 r)
    show Fine _ _ _ (if cfg.kind = .grape then innerGrape cfg env ops x else innerCall cfg env ops x it)
    rw [if_pos hk]
    refine .bind (Q := GrapeSound cfg I) (modify (fun _ => rfl) (fun _ => rfl) (fun _ => rfl) (fun _ => rfl)) fun _ =>
      .bind (Q := GrapeSound cfg I) (fun s h => ?_) fun _ => routineCall hk hF x 0
    obtain ⟨o', c, h1, h3⟩ := hF.get s.ctl x h.ctl
    unfold gradientControls
    rw [h1]
    exact ⟨fun _ _ => ⟨h3, h.start⟩, fun e he => by cases he⟩

/-- the failures of a GRAPE run, for a controls object that never raises -/
theorem execute_fails (hk : cfg.kind = .grape) (hF : Faultless ops I S) (dsm : Dsm K V F)
    (hd : ∀ i x sim sg, (dsm i x sim sg).OnlyEvals) {o : O} (ho : I o) {e : PyErr}
    (he : (execute cfg env ops dsm o).1 = .error e) : GrapeFails cfg env e (execute cfg env ops dsm o).2.log := by
  have hrun : Fine (GrapeSound cfg I) (GrapeSound cfg I) (E cfg env) (run cfg env ops dsm) := by
    unfold run
    rw [hk]
    refine .get_bind fun s h => ?_
    obtain ⟨x0, h1⟩ := hF.mean s.ctl h.ctl
    obtain ⟨sg, h2⟩ := hF.sigma s.ctl h.ctl
    obtain ⟨sim, h3, h4⟩ := hF.simplex 0 x0 sg
    refine Fine.lift_ok (P := GrapeSound cfg I) h1 (Fine.lift_ok h2 (Fine.lift_ok h3 ?_)) s h
    refine .bind (interp hk hF _ (hd _ x0 sim sg)) fun _ => fun s h => ?_
    unfold updateBasePulses
    rcases hx : s.bestXX with _ | x
    · exact ⟨fun _ he => (by cases he), fun e he => by cases he; exact .inr (.inr ⟨rfl, (h.start hx).2⟩)⟩
    · obtain ⟨o', h1, h2⟩ := hF.update s.ctl x h.ctl
      simp only [h1]
      exact ⟨fun _ _ => ⟨h2, fun hb => by cases hb⟩, fun e he => by cases he⟩
  exact (hrun _ ⟨ho, fun _ => ⟨rfl, fun c hc => by cases hc⟩⟩).2 e he

end GrapeSound
end

section
variable {K : Type} [Field K] [LinearOrder K] [IsStrictOrderedRing K] {F : Type}
variable [Add F] [Sub F] [Mul F] [Div F] [Neg F] [Zero F] [One F] [NatCast F] [LE F] [LT F] [DecidableLE F]
  [DecidableLT F]
variable {M : MathFns K} {pd : List (PulseDict K)} {td : List (TimeDict K)} {rd : List (ParamDict K)}
variable {sqrt : K → K} {rnd : ℕ → ℕ → List K} {draws : ℕ → Vec K (searchDim pd rd)}
  {cfg : AlgCfg K F} {env : Env (Vec K (searchDim pd rd)) (ControlsOut K) F}

/-- **C84, partial.** A GRAPE run with a usable dictionary, whatever L-BFGS-B asks for: if the run raises an exception then
the last call of the user's function raised it, or returned no figure of merit; or the user pressed Ctrl-C; or no call
returned a figure of merit that is better than the start value (for instance because no call was made).
Missing: the last two cases (`C84_grape_without_budget`, `C84_grape_interrupt`). The propagator function of the user is
assumed not to raise. -/
theorem C84_only_user_errors_grape_partial (hu : Usable pd td rd) (hk : cfg.kind = .grape)
    (hr : ∀ k, EnoughRandom pd (rnd k)) (dsm : Dsm K (Vec K (searchDim pd rd)) F)
    (hd : ∀ i x sim sg, (dsm i x sim sg).OnlyEvals)
    {o : Controls K} (ho : mkControls M pd td rd = .ok o) {e : PyErr}
    (he : (execute cfg env (systemOps cfg.kind M sqrt rnd draws) dsm o).1 = .error e) :
    UserFailed env e (execute cfg env (systemOps cfg.kind M sqrt rnd draws) dsm o).2.log ∨
    (e = .attributeError ∧ ∃ n, env.async n = .sigint) ∨
    (e = .attributeError ∧ NothingBetter cfg (execute cfg env (systemOps cfg.kind M sqrt rnd draws) dsm o).2.log) := by
  obtain ⟨o', h1, h2⟩ := mkControls_exists (M := M) hu
  obtain rfl : o' = o := by rw [ho] at h1; cases h1; rfl
  have hF := system_faultless (M := M) (kind := cfg.kind) hu (by rw [hk]; simp) sqrt hr draws
  exact GrapeSound.execute_fails hk hF dsm hd h2 he

/-- **C84, partial.** If the user's function always returns a figure of merit, the user does not press Ctrl-C, and at least one
call is made whose figure of merit is better than the start value, a GRAPE run ends without an exception.
Missing: as above. -/
theorem C84_completes_grape_partial (hu : Usable pd td rd) (hk : cfg.kind = .grape)
    (hr : ∀ k, EnoughRandom pd (rnd k)) (dsm : Dsm K (Vec K (searchDim pd rd)) F)
    (hd : ∀ i x sim sg, (dsm i x sim sg).OnlyEvals) (ha : AlwaysAnswers env) (hs : ∀ n, env.async n ≠ .sigint)
    {o : Controls K} (ho : mkControls M pd td rd = .ok o)
    (hb : ¬ NothingBetter cfg (execute cfg env (systemOps cfg.kind M sqrt rnd draws) dsm o).2.log) :
    (execute cfg env (systemOps cfg.kind M sqrt rnd draws) dsm o).1 = .ok () := by
  rcases h : (execute cfg env (systemOps cfg.kind M sqrt rnd draws) dsm o).1 with e | u
  · rcases C84_only_user_errors_grape_partial hu hk hr dsm hd ho h with h1 | ⟨_, n, h1⟩ | ⟨_, h1⟩
    · exact absurd h1 ha.not_failed
    · exact absurd h1 (hs n)
    · exact absurd h1 hb
  · rfl

end

/-! ### Concrete instances -/

/-- a stand-in for L-BFGS-B: the start vector, then two steps of the given size -/
def exGrapeSearch : Dsm ℚ (Vec ℚ 1) ℚ := fun _ x _ _ =>
  .op (.eval x 0) fun _ => .op (.eval (fun i => x i - 1 / 4) 0) fun _ => .op (.eval (fun i => x i + 1 / 8) 0) fun f =>
    .ret ⟨f, x, 3, 3, ""⟩

example : ∀ i x sim sg, (exGrapeSearch i x sim sg).OnlyEvals := fun _ x _ _ =>
  ⟨⟨_, _, rfl⟩, fun _ => ⟨⟨_, _, rfl⟩, fun _ => ⟨⟨_, _, rfl⟩, fun _ => trivial⟩⟩⟩

/-- a GRAPE run with a budget of `m` calls, call number `n` raises, Ctrl-C at point `p` -/
def exGrapeRun (m : ℤ) (n : ℕ) (p : Option ℕ) : Py (Py Unit × ℕ) := do
  let o ← mkControls exFns exUPd exTd []
  let r := execute (exCfg .grape m false none none)
    { exUEnv n with async := fun i => if some i = p then .sigint else .none } (exUOps .grape) exGrapeSearch o
  pure (r.1, r.2.log.length)

set_option synthInstance.maxSize 1000 in
/-- A run that ends normally and one whose second call raises. -/
example : exGrapeRun 9 9 none = .ok (.ok (), 3) ∧ exGrapeRun 9 1 none = .ok (.error .keyError, 2) := by
  constructor <;> decide +kernel

set_option synthInstance.maxSize 1000 in
/-- **C84 is violated by GRAPE when the run is stopped before the first call**: with `max_eval_total` zero a GRAPE run with
a usable dictionary raises `AttributeError` although the user's function was never called. -/
theorem C84_grape_without_budget : Usable exUPd exTd [] ∧ exGrapeRun 0 9 none = .ok (.error .attributeError, 0) :=
  ⟨exUPd_usable, by decide +kernel⟩

set_option synthInstance.maxSize 1000 in
/-- **C84 is violated by GRAPE when the user presses Ctrl-C**: the handler looks for a direct-search object, which GRAPE does
not have, and the run raises `AttributeError` although every call of the user's function succeeded. -/
theorem C84_grape_interrupt : Usable exUPd exTd [] ∧ exGrapeRun 9 9 (some 4) = .ok (.error .attributeError, 1) :=
  ⟨exUPd_usable, by decide +kernel⟩

end QuOCS

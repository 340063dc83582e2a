/-
C76: what a user gets from an `Optimizer` object over its whole life.
-/
import Verif.Model.Lifecycle
import Verif.Props.Best

set_option linter.unusedSectionVars false
set_option linter.unusedVariables false

namespace QuOCS

variable {K V C O F : Type} [LE K] [DecidableLE K]
variable [Add F] [Sub F] [Mul F] [Div F] [Neg F] [Zero F] [One F] [NatCast F] [LE F] [LT F] [DecidableLE F]
  [DecidableLT F]
variable (cfg : AlgCfg K F) (env : Env V C F) (ops : CtlOps O V C)

theorem runAndEnd_state (dsm : Dsm K V F) (s : AlgState V C O F) :
    (runAndEnd cfg env ops dsm s).2.1 = (run cfg env ops dsm s).2 := by
  unfold runAndEnd
  rcases h : run cfg env ops dsm s with ⟨r, s'⟩
  cases r with
  | error e => rfl
  | ok u =>
    simp only
    cases endEvents cfg s' <;> rfl

/-- what holds initially, after every action and does not depend on the clock holds after every number of executions -/
theorem lifetime_inv (d : Bool) (P : AlgState V C O F → Prop) (dsm : Dsm K V F) (o : O)
    (hd : d = true ∨ ∀ i x sim sg, (dsm i x sim sg).NoDrift) (h0 : P (initState cfg env o))
    (hb : ∀ s t k, P s → P { s with optStart := t, ticks := k })
    (ht : ∀ b s s', Act cfg env ops d b s s' → P s → P s') (n : ℕ) : P (afterExecutions cfg env ops dsm o n) := by
  have hrun : ∀ s, P s → P (run cfg env ops dsm s).2 := fun s hs =>
    Traced.inv (Traced.run (cfg := cfg) (env := env) (ops := ops) dsm hd) P ht s hs
  induction n with
  | zero =>
    show P (runAndEnd cfg env ops dsm (initState cfg env o)).2.1
    rw [runAndEnd_state]
    exact hrun _ h0
  | succ n ih =>
    show P (runAndEnd cfg env ops dsm _).2.1
    rw [runAndEnd_state]
    exact hrun _ (hb _ _ _ ih)

/-- **C76** The budget of evaluations holds for the life of the object: however often it is executed, also after exceptions, the user's
function is called at most `max_eval_total` times. -/
theorem C76_budget_for_life (dsm : Dsm K V F) (o : O) (n : ℕ) :
    ((afterExecutions cfg env ops dsm o n).log.length : ℤ) ≤ max 0 cfg.maxEvalTotal := by
  have h := lifetime_inv cfg env ops true (fun s => s.log.length ≤ s.iter ∧ (s.iter : ℤ) ≤ max 0 cfg.maxEvalTotal) dsm o (.inl rfl)
    ⟨le_rfl, le_max_left _ _⟩ (fun s t k h => h) ?_ n
  · have := h.1; omega
  · intro b s s' ha hs
    cases ha.eff with
    | still hl hi _ _ _ => rw [hl, hi]; exact hs
    | counted hl hi _ _ hm _ => rw [hl, hi]; omega
    | measured c hl hi _ _ hm _ _ _ _ _ => rw [hl, hi, List.length_append, List.length_singleton]; omega

/-- **C76** An object that was stopped (by the user, the budget, the goal, the time limit or a failed evaluation) stays stopped: further
executions evaluate nothing. -/
theorem C76_stopped_for_life (dsm : Dsm K V F) (o : O) (n m : ℕ) (h : (afterExecutions cfg env ops dsm o n).running = false) :
    (afterExecutions cfg env ops dsm o (n + m)).running = false ∧
    (afterExecutions cfg env ops dsm o (n + m)).log = (afterExecutions cfg env ops dsm o n).log := by
  induction m with
  | zero => exact ⟨h, rfl⟩
  | succ m ih =>
    have hrun := Traced.inv (Traced.run (cfg := cfg) (env := env) (ops := ops) (d := true) dsm (.inl rfl))
      (fun s => s.running = false ∧ s.log = (afterExecutions cfg env ops dsm o n).log) (fun b s s' ha hs => by
        cases ha.eff with
        | still hl hi _ hr _ => exact ⟨hr hs.1, hl.trans hs.2⟩
        | counted hl hi _ hr hm _ => rw [hs.1] at hr; cases hr
        | measured c hl hi _ hr hm _ _ _ _ _ => rw [hs.1] at hr; cases hr)
    show (runAndEnd cfg env ops dsm _).2.1.running = false ∧ (runAndEnd cfg env ops dsm _).2.1.log = _
    rw [runAndEnd_state]
    exact hrun _ ih

/-- **C76** The time limit holds for each execution: in the first and in every further one the clock, right before each call of the user's
function, showed less than the limit since the start of this execution. -/
theorem C76_time_limit_per_execution (dsm : Dsm K V F) (o : O) (hlim : cfg.totalTimeLim < 10 ^ 10) (n : ℕ) :
    (∀ c ∈ (afterExecutions cfg env ops dsm o 0).log, env.clock (c.ticks - 1) - env.clock 1 < cfg.totalTimeLim) ∧
    ∃ new, (afterExecutions cfg env ops dsm o (n + 1)).log = (afterExecutions cfg env ops dsm o n).log ++ new ∧
      ∀ c ∈ new, env.clock (c.ticks - 1) - env.clock (afterExecutions cfg env ops dsm o n).ticks < cfg.totalTimeLim := by
  have key : ∀ (s : AlgState V C O F), ∃ new, (run cfg env ops dsm s).2.log = s.log ++ new ∧
      ∀ c ∈ new, env.clock (c.ticks - 1) - s.optStart < cfg.totalTimeLim := by
    intro s
    have h := Traced.inv (Traced.run (cfg := cfg) (env := env) (ops := ops) (d := true) dsm (.inl rfl))
      (fun s' => s'.optStart = s.optStart ∧ ∃ new, s'.log = s.log ++ new ∧
        ∀ c ∈ new, env.clock (c.ticks - 1) - s.optStart < cfg.totalTimeLim) (fun b s1 s2 ha hs => by
        cases ha.eff with
        | still hl hi ho _ _ => rw [ho, hl]; exact hs
        | counted hl hi ho _ hm _ => rw [ho, hl]; exact hs
        | measured c hl hi ho _ hm _ _ ht _ _ =>
          obtain ⟨h1, new, h2, h3⟩ := hs
          rw [ho, hl]
          refine ⟨h1, new ++ [c], by rw [h2, List.append_assoc], fun c' hc' => ?_⟩
          rw [List.mem_append, List.mem_singleton] at hc'
          rcases hc' with h | rfl
          · exact h3 c' h
          · rw [← h1]; exact ht hlim) s ⟨rfl, [], by simp, by simp⟩
    exact h.2
  constructor
  · show ∀ c ∈ (runAndEnd cfg env ops dsm _).2.1.log, _
    rw [runAndEnd_state]
    obtain ⟨new, h1, h2⟩ := key (initState cfg env o)
    rw [h1]
    exact h2
  · show ∃ new, (runAndEnd cfg env ops dsm _).2.1.log = _ ∧ _
    rw [runAndEnd_state]
    exact key { afterExecutions cfg env ops dsm o n with optStart := _, ticks := _ }

/-- With a limit of two minutes and a clock that advances by one minute per reading, every execution of a search with one point evaluates
it, although the limit has passed since the first execution. -/
example : (List.range 3).map (fun n => ((afterExecutions { exCfg .directSearch 100 false none none with totalTimeLim := 2 }
      (exEnv (exAns [5, 4, 6, 3, 8, 2]) (fun _ => .none)) exOps (exDsm [1]) () n).log.length,
      (afterExecutions { exCfg .directSearch 100 false none none with totalTimeLim := 2 }
      (exEnv (exAns [5, 4, 6, 3, 8, 2]) (fun _ => .none)) exOps (exDsm [1]) () n).ticks)) = [(1, 3), (2, 5), (3, 7)] := by decide +kernel

/-- Executed again without a stop the object goes on; here a search over three points is executed twice. -/
example : (afterExecutions (exCfg .directSearch 100 false none none) (exEnv (exAns [5, 4, 6, 3, 8, 2]) (fun _ => .none)) exOps
      (exDsm [1, 2, 3]) () 1).log.length = 6 ∧
    finalFoM (exCfg .directSearch 100 false none none) (afterExecutions (exCfg .directSearch 100 false none none)
      (exEnv (exAns [5, 4, 6, 3, 8, 2]) (fun _ => .none)) exOps (exDsm [1, 2, 3]) () 1) = 2 := by decide +kernel

/-- With a budget of four the second execution is stopped after one more evaluation and the third one evaluates nothing. -/
example : (List.range 3).map (fun n => ((afterExecutions (exCfg .directSearch 4 false none none)
      (exEnv (exAns [5, 4, 6, 3, 8, 2]) (fun _ => .none)) exOps (exDsm [1, 2, 3]) () n).log.length,
      (afterExecutions (exCfg .directSearch 4 false none none)
      (exEnv (exAns [5, 4, 6, 3, 8, 2]) (fun _ => .none)) exOps (exDsm [1, 2, 3]) () n).running)) =
    [(3, true), (4, false), (4, false)] := by decide +kernel

/-- **C76** Without re-evaluation and drift compensation the figure of merit reported after any number of executions is the best one over
all of them. -/
theorem C76_best_of_life [FloatOrder F] (hre : NoReEval cfg) (hmax : ¬ FloatOrder.IsNaN cfg.fomMax) (dsm : Dsm K V F)
    (hdr : NoDriftRun cfg dsm) (o : O) (n : ℕ) :
    (∀ c ∈ (afterExecutions cfg env ops dsm o n).log, ∀ f, c.value = some f →
      ¬ Better cfg.maximize f (finalFoM cfg (afterExecutions cfg env ops dsm o n))) ∧
    (finalFoM cfg (afterExecutions cfg env ops dsm o n) = dirMul cfg.maximize cfg.fomMax ∨
      ∃ c ∈ (afterExecutions cfg env ops dsm o n).log, c.value = some (finalFoM cfg (afterExecutions cfg env ops dsm o n))) := by
  have h : BestInv cfg (afterExecutions cfg env ops dsm o n) :=
    lifetime_inv cfg env ops false (BestInv cfg) dsm o (.inr hdr.2) (.initial env o hmax) (fun s t k h => ⟨h.num, h.le, h.init, h.mem⟩)
      (fun b s s' ha hs => hs.step (ha.simple hre hdr.1)) n
  unfold finalFoM
  refine ⟨fun c hc f hf => ?_, ?_⟩
  · rw [← dirMul_lt, dirMul_dirMul]; exact h.le c hc f hf
  · refine h.mem.imp (fun h => by rw [h]) ?_
    rintro ⟨c, hc, f, hf, hb⟩
    exact ⟨c, hc, by rw [hb, dirMul_dirMul]; exact hf⟩

/-- **C76, partial.** If the run ends without an exception and something was evaluated (dCRAB and GRAPE: in any case), the results are
stored and reported, each once, and both are the results of the final state. Missing: runs that raise, see
`C76_failed_run_reports_nothing`, and the reason in the stored file, see `C76_stored_without_reason`. -/
theorem C76_results_reported_partial (dsm : Dsm K V F) (s : AlgState V C O F) (hok : (run cfg env ops dsm s).1 = .ok ())
    (hx : cfg.kind = .directSearch → (run cfg env ops dsm s).2.xx ≠ none) :
    ∃ reason higher, runAndEnd cfg env ops dsm s = (.ok (), (run cfg env ops dsm s).2,
      [.started, .stored (finalResults cfg (run cfg env ops dsm s).2) reason none,
       .reported (finalResults cfg (run cfg env ops dsm s).2) reason higher]) ∧
    ((run cfg env ops dsm s).2.hoReason ≠ "" → higher = some (run cfg env ops dsm s).2.hoReason) := by
  rcases h : run cfg env ops dsm s with ⟨r, s'⟩
  rw [h] at hok hx
  simp only at hok hx
  subst hok
  have hp : (finalResults cfg s').parameters.any Option.isNone = false := by
    unfold finalResults
    cases hk : cfg.kind with
    | dcrab => rfl
    | grape => rfl
    | directSearch =>
      have := hx hk
      cases hs : s'.xx with
      | none => exact absurd hs this
      | some x => rfl
  refine ⟨if cfg.kind = .grape then none else some s'.terminateReason, if s'.hoReason = "" then none else some s'.hoReason, ?_, ?_⟩
  · simp only [runAndEnd, h, endEvents, hp]
    rfl
  · intro hne
    rw [if_neg hne]

/-- the run of the example below -/
def exLife : Py Unit × AlgState ℚ ℚ Unit ℚ :=
  run (exCfg .directSearch 100 false none none) (exEnv (exAns [5, 4, 6]) (fun _ => .none)) exOps (exDsm [1, 2, 3])
    (initState (exCfg .directSearch 100 false none none) (exEnv (exAns [5, 4, 6]) (fun _ => .none)) ())

/-- A run over three points meets the hypotheses; the figure of merit reported is the best of the three. -/
example : exLife.1 = .ok () ∧ exLife.2.xx = some 3 ∧
    (finalResults (exCfg .directSearch 100 false none none) exLife.2).fom = 4 := by decide +kernel

/-- **C76 is violated by runs that raise** (Optimizer.py:90-92: `end` is not called): whatever was found before, an exception of the
user's function, of the controls or of an interrupt (GRAPE) leaves no stored and no reported results. -/
theorem C76_failed_run_reports_nothing (dsm : Dsm K V F) (s : AlgState V C O F) {e : PyErr} (h : (run cfg env ops dsm s).1 = .error e) :
    (runAndEnd cfg env ops dsm s).1 = .error e ∧ (runAndEnd cfg env ops dsm s).2.2 = [.started] := by
  rcases hr : run cfg env ops dsm s with ⟨r, s'⟩
  rw [hr] at h
  simp only at h
  subst h
  simp [runAndEnd, hr]

/-- the user's function returns 5 and 4 and then raises -/
example : (executeFirst (exCfg .dcrab 100 false none none) (exEnv (fun n => if n < 2 then exAns [5, 4] n else .error .userError) (fun _ => .none))
      exOps (exDsm [1, 2, 3]) ()).1 = .error .userError ∧
    (executeFirst (exCfg .dcrab 100 false none none) (exEnv (fun n => if n < 2 then exAns [5, 4] n else .error .userError) (fun _ => .none))
      exOps (exDsm [1, 2, 3]) ()).2.1.bestFoM = 4 ∧
    (executeFirst (exCfg .dcrab 100 false none none) (exEnv (fun n => if n < 2 then exAns [5, 4] n else .error .userError) (fun _ => .none))
      exOps (exDsm [1, 2, 3]) ()).2.2.length = 1 := by decide +kernel

/-- **C76 is violated by a direct search that is stopped before its first evaluation** (DirectSearchAlgorithm.py:336 reads `self.xx`,
which does not exist): instead of a report the caller gets an `AttributeError`. -/
theorem C76_stopped_before_first_evaluation (hk : cfg.kind = .directSearch) (dsm : Dsm K V F) (s : AlgState V C O F)
    (hx : (run cfg env ops dsm s).2.xx = none) (hok : (run cfg env ops dsm s).1 = .ok ()) :
    (runAndEnd cfg env ops dsm s).1 = .error .attributeError ∧ (runAndEnd cfg env ops dsm s).2.2 = [.started] := by
  rcases hr : run cfg env ops dsm s with ⟨r, s'⟩
  rw [hr] at hok hx
  simp only at hok hx
  subst hok
  simp [runAndEnd, hr, endEvents, finalResults, hk, hx]

/-- the stop request arrives before the first evaluation -/
example : (executeFirst (exCfg .directSearch 100 false none none) (exEnv (exAns [5, 4, 6]) (fun _ => .guiStop)) exOps (exDsm [1, 2, 3])
      ()).1 = .error .attributeError := by decide +kernel

/-- **C76 is violated by the stored file** (OptimizationAlgorithm.py:326-328 stores the results before the reason is added): no execution
stores the reason of a global stop. In this run the budget ends the optimization; the report says so, the stored file does not. -/
theorem C76_stored_without_reason :
    (∀ (dsm : Dsm K V F) (s : AlgState V C O F) (r : FinalResults V F) (reason higher : Option String),
      LifeEv.stored r reason higher ∈ (runAndEnd cfg env ops dsm s).2.2 → higher = none) ∧
    ((executeFirst (exCfg .dcrab 2 false none none) (exEnv (exAns [5, 4, 6]) (fun _ => .none))
        exOps (exDsm [1, 2, 3]) ()).2.2.map fun e => match e with
      | .started => ("started", none, none)
      | .stored _ reason higher => ("stored", reason, higher)
      | .reported _ reason higher => ("reported", reason, higher)) =
      [("started", none, none), ("stored", some "", none),
       ("reported", some "", some "Maximum number of total function evaluations reached")] := by
  constructor
  · intro dsm s r reason higher h
    unfold runAndEnd at h
    rcases hr : run cfg env ops dsm s with ⟨a, s'⟩
    rw [hr] at h
    cases a with
    | error e => simp at h
    | ok u =>
      simp only [endEvents] at h
      split at h
      · rename_i h'
        split at h' <;> simp at h'
        simp at h
      · rename_i evs h'
        split at h'
        · simp at h'
        · simp only [Except.ok.injEq] at h'
          subst h'
          simp at h
          exact h.2.2
  · decide +kernel

/-- **C76** A new optimizer that is given the handle of a stopped one evaluates nothing. -/
theorem C76_stopped_handle (dsm : Dsm K V F) (o : O) : (executeWithHandle cfg env ops dsm o false).2.1.log = [] := by
  have hrun := Traced.inv (Traced.run (cfg := cfg) (env := env) (ops := ops) (d := true) dsm (.inl rfl))
    (fun s => s.running = false ∧ s.log = []) (fun b s s' ha hs => by
      cases ha.eff with
      | still hl hi _ hr _ => exact ⟨hr hs.1, hl.trans hs.2⟩
      | counted hl hi _ hr hm _ => rw [hs.1] at hr; cases hr
      | measured c hl hi _ hr hm _ _ _ _ _ => rw [hs.1] at hr; cases hr)
  show (runAndEnd cfg env ops dsm _).2.1.log = _
  rw [runAndEnd_state]
  exact (hrun _ ⟨rfl, rfl⟩).2

end QuOCS

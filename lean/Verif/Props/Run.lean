/-
Properties of whole optimization runs: C01, C02, C03, C04, C05, C07, C08, C10.
All theorems quantify over every search method (`Dsm`), every environment (`Env`: behaviour of the user's function,
clock, asynchronous stop requests) and every controls object (`CtlOps`).
-/
import Verif.Lemmas.Run

set_option linter.unusedSectionVars false

namespace QuOCS

variable {K V C O F : Type} [LE K] [DecidableLE K]
variable [Add F] [Sub F] [Mul F] [Div F] [Neg F] [Zero F] [One F] [NatCast F] [LE F] [LT F] [DecidableLE F]
  [DecidableLT F]
variable (cfg : AlgCfg K F) (env : Env V C F) (ops : CtlOps O V C)

/-! ### Concrete settings used by the examples -/

/-- settings: minimization (or maximization) with at most `m` evaluations -/
def exCfg (k : AlgKind) (m : ℤ) (mx : Bool) (goal : Option ℚ) (re : Option (List ℚ)) : AlgCfg ℚ ℚ :=
  { kind := k, maxEvalTotal := m, totalTimeLim := 10 ^ 10, maximize := mx, userGoal := goal, fomMax := 10 ^ 10
    initStd := 1 / 10, reEval := re, half := 1 / 2, tiny := 1 / 10 ^ 14, driftAfterSI := false, driftMinutes := 0
    driftAverage := 1, maxSI := 2
    sc := { maxEval := 1000, timeLim := 1000, xatol := 0, fatol := 0, cbsEvals := 1, cbsChange := 0 } }

/-- the controls are the search vector itself -/
def exOps : CtlOps Unit ℚ ℚ :=
  { getControls := fun _ x => .ok ((), x), mean := fun _ => .ok 0, sigma := fun _ => .ok 1
    updateBase := fun _ _ => .ok (), selectBasis := fun _ _ => .ok (), simplex := fun _ _ _ => .ok [] }

/-- environment in which call number `n` (from 0) is answered by `ans n`; stop request `a n` at poll `n` -/
def exEnv (ans : ℕ → Py (Answer ℚ)) (a : ℕ → Async) : Env ℚ ℚ ℚ :=
  { getFoM := fun h _ => ans h.length, async := a, clock := fun n => n, sqrt := id, cdf := id }

/-- the answers `fs` with status code 0 -/
def exAns (fs : List ℚ) (n : ℕ) : Py (Answer ℚ) := .ok ⟨fs[n]?, none, none⟩

/-- search through the points `xs` -/
def exDsm (xs : List ℚ) : Dsm ℚ ℚ ℚ := fun _ x0 _ _ => evalPoints x0 0 xs 0

/-! ### C01: total evaluation budget -/

/-- **C01.** Whatever the search method, the user's function, the clock and the stop requests do, the user's function
is called at most `max_eval_total` times in a run (dCRAB with all super-iterations, re-evaluations and drift
compensations; DirectSearch; GRAPE). -/
theorem C01_budget (dsm : Dsm K V F) (o : O) :
    ((execute cfg env ops dsm o).2.log.length : ℤ) ≤ max 0 cfg.maxEvalTotal := by
  have h := execute_inv (cfg := cfg) (env := env) (ops := ops) (d := true)
    (fun s => s.log.length ≤ s.iter ∧ (s.iter : ℤ) ≤ max 0 cfg.maxEvalTotal)
    (fun s => s.log.length ≤ s.iter ∧ (s.iter : ℤ) ≤ max 0 cfg.maxEvalTotal) dsm o (.inl rfl)
    ⟨le_rfl, le_max_left _ _⟩
    ?_ ?_ (fun _ h => h)
  · have := h.1; omega
  all_goals
    intro s s' ha hs
    cases ha.eff with
    | still hl hi _ _ _ => rw [hl, hi]; exact hs
    | counted hl hi _ _ hm _ => rw [hl, hi]; omega
    | measured c hl hi _ _ hm _ _ _ _ _ => rw [hl, hi, List.length_append, List.length_singleton]; omega

/-- The bound is reached: five points are requested, three are evaluated. -/
example : (execute (exCfg .dcrab 3 false none none) (exEnv (exAns [5, 4, 6, 3, 1]) (fun _ => .none)) exOps
    (exDsm [1, 2, 3, 4, 5]) ()).2.log.length = 3 := by decide +kernel

/-! ### C02: nothing is evaluated after the run was told to stop -/

/-- **C02.** No call of the user's function happens after a stop request (GUI stop or SIGINT) was seen: every request
that arrived before the call is "no request". -/
theorem C02_no_call_after_stop_request (dsm : Dsm K V F) (o : O) :
    ∀ c ∈ (execute cfg env ops dsm o).2.log, ∀ n < c.polls, env.async n = .none := by
  refine (execute_inv (cfg := cfg) (env := env) (ops := ops) (d := true)
    (fun s => (∀ c ∈ s.log, ∀ n < c.polls, env.async n = .none) ∧
      (s.running = true → ∀ n < s.polls, env.async n = .none))
    (fun s => ∀ c ∈ s.log, ∀ n < c.polls, env.async n = .none) dsm o (.inl rfl)
    ⟨fun c h => by simp [initState] at h, fun _ n h => by simp [initState] at h⟩
    ?_ ?_ (fun _ h => h.1)).1
  · intro s s' ha hs
    cases ha.eff with
    | still hl hi _ hr hseen =>
      refine ⟨hl ▸ hs.1, fun hr' n hn => ?_⟩
      by_cases h : n < s.polls
      · refine hs.2 ?_ n h
        by_contra hf
        rw [hr (by simpa using hf)] at hr'
        cases hr'
      · exact hseen rfl hr' n (by omega) hn
    | counted hl hi _ hr hm hst =>
      refine ⟨hl ▸ hs.1, fun hr' => ?_⟩
      rw [(hst rfl).1] at hr'
      cases hr'
    | measured c hl hi _ hr hm hp hp' _ hc _ =>
      have hall : ∀ n < c.polls, env.async n = .none := by
        intro n hn
        by_cases h : n < s.polls
        · exact hs.2 hr n h
        · exact hp n (by omega) hn
      refine ⟨?_, fun _ => hp' ▸ hall⟩
      intro c' hc'
      rw [hl, List.mem_append, List.mem_singleton] at hc'
      rcases hc' with h | rfl
      · exact hs.1 c' h
      · exact hall
  · intro s s' ha hs
    cases ha.eff with
    | still hl _ _ _ _ => exact hl ▸ hs.1
    | counted hl _ _ _ _ _ => exact hl ▸ hs.1
    | measured c hl hi _ hr hm hp hp' _ hc _ =>
      intro c' hc'
      rw [hl, List.mem_append, List.mem_singleton] at hc'
      rcases hc' with h | rfl
      · exact hs.1 c' h
      · intro n hn
        by_cases h : n < s.polls
        · exact hs.2 hr n h
        · exact hp n (by omega) hn

/-- Each evaluation passes three polls: a GUI stop at poll 6 lets two of five requested evaluations happen. -/
example : ((execute (exCfg .directSearch 100 false none none)
    (exEnv (exAns [5, 4, 6, 3, 1]) (fun n => if n = 6 then .guiStop else .none)) exOps
    (exDsm [1, 2, 3, 4, 5]) ()).2.log.map (fun c => (c.vec, c.polls))) = [(1, 3), (2, 6)] := by decide +kernel

/-- **C02.** Once the run is stopped (for whatever reason) no search method whatsoever gets another call of the user's
function, and the running state stays false. -/
theorem C02_stopped_is_final {α : Type} (search : Strat K V F α) (s : AlgState V C O F) (h : s.running = false) :
    (search.interp (algHandler cfg env ops) s).2.log = s.log ∧
    (search.interp (algHandler cfg env ops) s).2.running = false := by
  refine (Traced.interp (cfg := cfg) (env := env) (ops := ops) (d := true) search (.inl rfl)).inv
    (fun s' => s'.log = s.log ∧ s'.running = false) ?_ s ⟨rfl, h⟩
  intro b s1 s2 ha hs
  cases ha.eff with
  | still hl _ _ hr _ => exact ⟨hl.trans hs.1, hr hs.2⟩
  | counted hl _ _ hr _ _ => rw [hs.2] at hr; cases hr
  | measured c hl _ _ hr _ _ _ _ _ _ => rw [hs.2] at hr; cases hr

/-- **C02.** The same for the remaining super-iterations of a dCRAB run with their drift compensations: a stopped run
performs no further call and the loop ends. -/
theorem C02_stopped_loop_ends (dsm : Dsm K V F) (n k : ℕ) (s : AlgState V C O F) (h : s.running = false) :
    (dcrabLoop cfg env ops dsm n k s).2.log = s.log ∧ (dcrabLoop cfg env ops dsm n k s).2.running = false ∧
    (dcrabLoop cfg env ops dsm n k s).2.superIt = s.superIt := by
  rcases n with _ | n
  · exact ⟨rfl, h, rfl⟩
  · unfold dcrabLoop
    rw [Prog.bind_apply]
    rcases poll_cases (cfg := cfg) (env := env) s with ⟨h1, q⟩ | ⟨h1, e, h2⟩
    · rcases hp : poll cfg env s with ⟨e | u, s0⟩
      · rw [hp] at h1; cases h1
      · rw [hp] at q
        have q : Quiet env s s0 := q
        have hr := q.mono h
        dsimp only
        rw [Prog.get_bind, if_pos hr]
        exact ⟨q.log, hr, q.superIt⟩
    · rw [h2]; exact ⟨rfl, h, rfl⟩

/-- A stopped state reached by a run: the budget of one evaluation is used up by the third request. -/
example : (execute (exCfg .dcrab 1 false none none) (exEnv (exAns [5, 4, 6]) (fun _ => .none)) exOps
    (exDsm [1, 2, 3]) ()).2.running = false := by decide +kernel

/-- **C02.** After the global time limit nothing is evaluated: right before each call the clock showed less than the
limit since the start. -/
theorem C02_time_limit (dsm : Dsm K V F) (o : O) (hlim : cfg.totalTimeLim < 10 ^ 10) :
    ∀ c ∈ (execute cfg env ops dsm o).2.log, env.clock (c.ticks - 1) - env.clock 1 < cfg.totalTimeLim := by
  refine (execute_inv (cfg := cfg) (env := env) (ops := ops) (d := true)
    (fun s => s.optStart = env.clock 1 ∧ ∀ c ∈ s.log, env.clock (c.ticks - 1) - env.clock 1 < cfg.totalTimeLim)
    (fun s => s.optStart = env.clock 1 ∧ ∀ c ∈ s.log, env.clock (c.ticks - 1) - env.clock 1 < cfg.totalTimeLim)
    dsm o (.inl rfl) ⟨rfl, fun c h => by simp [initState] at h⟩ ?_ ?_ (fun _ h => h)).1.2
  all_goals
    intro s s' ha hs
    cases ha.eff with
    | still hl hi ho _ _ => rw [ho, hl]; exact hs
    | counted hl hi ho _ hm _ => rw [ho, hl]; exact hs
    | measured c hl hi ho _ hm _ _ ht _ _ =>
      rw [ho]
      refine ⟨hs.1, fun c' hc' => ?_⟩
      rw [hl, List.mem_append, List.mem_singleton] at hc'
      rcases hc' with h | rfl
      · exact hs.2 c' h
      · rw [← hs.1]; exact ht hlim

/-- With a limit of two minutes and a clock that advances by one minute per reading, one of three points is evaluated. -/
example : ((execute { exCfg .directSearch 100 false none none with totalTimeLim := 2 }
    (exEnv (exAns [5, 4, 6]) (fun _ => .none)) exOps (exDsm [1, 2, 3]) ()).2.log.map (fun c => c.ticks)) = [3] := by
  decide +kernel

/-! ### C07: a failed evaluation ends the run -/

/-- **C02, C07.** Every call of the user's function except the last one succeeded (returned a figure of merit with
status code zero): after a failed evaluation, or one that raised an exception, nothing is evaluated. -/
theorem C07_nothing_after_failure (dsm : Dsm K V F) (o : O) (before after : List (Call V C F)) (c : Call V C F)
    (h : (execute cfg env ops dsm o).2.log = before ++ c :: after) (hc : ¬ c.Succeeded) : after = [] := by
  have hinv := (execute_inv (cfg := cfg) (env := env) (ops := ops) (d := true)
    (fun s => (s.running = true → ∀ c ∈ s.log, c.Succeeded) ∧ ∀ c ∈ s.log.dropLast, c.Succeeded)
    (fun s => ∀ c ∈ s.log.dropLast, c.Succeeded) dsm o (.inl rfl)
    ⟨fun _ c h => by simp [initState] at h, fun c h => by simp [initState] at h⟩ ?_ ?_ (fun _ h => h.2)).1
  · by_contra hne
    refine hc (hinv c ?_)
    rw [h, List.dropLast_append_cons]
    refine List.mem_append_right _ ?_
    rcases after with _ | ⟨a, l⟩
    · exact absurd rfl hne
    · simp [List.dropLast]
  · intro s s' ha hs
    cases ha.eff with
    | still hl _ _ hr _ =>
      rw [hl]
      refine ⟨fun hr' => hs.1 ?_, hs.2⟩
      by_contra hf
      rw [hr (by simpa using hf)] at hr'
      cases hr'
    | counted hl _ _ _ _ hst =>
      rw [hl]
      refine ⟨fun hr' => ?_, hs.2⟩
      rw [(hst rfl).1] at hr'; cases hr'
    | measured c hl _ _ hr _ _ _ _ hc _ =>
      rw [hl, List.dropLast_concat]
      refine ⟨fun hr' c' hc' => ?_, hs.1 hr⟩
      rw [List.mem_append, List.mem_singleton] at hc'
      rcases hc' with h | rfl
      · exact hs.1 hr c' h
      · exact hc rfl hr'
  · intro s s' ha hs
    cases ha.eff with
    | still hl _ _ hr _ => rw [hl]; exact hs.2
    | counted hl _ _ _ _ hst => rw [hl]; exact hs.2
    | measured c hl _ _ hr _ _ _ _ hc _ => rw [hl, List.dropLast_concat]; exact hs.1 hr

/-- **C07.** An evaluation that returns a figure of merit with a non-zero status code leaves the run stopped. -/
theorem C07_failure_stops_run (dsm : Dsm K V F) (o : O) (c : Call V C F)
    (h : c ∈ (execute cfg env ops dsm o).2.log) (a : Answer F) (f : F) (ha : c.ans = .ok a) (hf : a.fom = some f)
    (hst : a.status.getD 0 ≠ 0) : (execute cfg env ops dsm o).2.running = false := by
  refine (execute_inv (cfg := cfg) (env := env) (ops := ops) (d := true)
    (fun s => c ∈ s.log → s.running = false) (fun s => c ∈ s.log → s.running = false) dsm o (.inl rfl)
    (fun h => by simp [initState] at h) ?_ ?_ (fun _ h => h)).1 h
  all_goals
    intro s s' hact hs
    cases hact.eff with
    | still hl _ _ hr _ => rw [hl]; exact fun h => hr (hs h)
    | counted hl _ _ hr _ _ => rw [hl]; intro h; rw [hs h] at hr; cases hr
    | measured c' hl _ _ hr _ _ _ _ _ hfail =>
      rw [hl, List.mem_append, List.mem_singleton]
      rintro (h | rfl)
      · rw [hs h] at hr; cases hr
      · exact hfail a ha (by rw [hf]; simp) hst

/-- A run whose second evaluation fails. -/
example : (((execute (exCfg .dcrab 100 false none none)
    (exEnv (fun n => if n = 1 then .ok ⟨some 1, none, some (-1)⟩ else .ok ⟨some 5, none, none⟩) (fun _ => .none)) exOps
    (exDsm [1, 2, 3]) ()).2.log.map (fun c => (c.vec))),
    ((execute (exCfg .dcrab 100 false none none)
    (exEnv (fun n => if n = 1 then .ok ⟨some 1, none, some (-1)⟩ else .ok ⟨some 5, none, none⟩) (fun _ => .none)) exOps
    (exDsm [1, 2, 3]) ()).2.dumps.map (fun c => (c.ctl, c.fom)))) = ([1, 2], [(some 1, 5)]) := by decide +kernel

/-! ### C08: the evaluation counter -/

/-- **C08, partial.** If no stop request arrives and the run ends without exception, the reported number of function
evaluations is the number of calls of the user's function. In every run that ends without exception it is that number
or one more. Missing: with a stop request between sending the controls and the evaluation the counter is too large
(`C08_counter_off_by_one`). -/
theorem C08_counter_partial (dsm : Dsm K V F) (o : O) (hok : isOk (execute cfg env ops dsm o).1 = true) :
    ((∀ n, env.async n = .none) → (execute cfg env ops dsm o).2.iter = (execute cfg env ops dsm o).2.log.length) ∧
    (execute cfg env ops dsm o).2.log.length ≤ (execute cfg env ops dsm o).2.iter ∧
    (execute cfg env ops dsm o).2.iter ≤ (execute cfg env ops dsm o).2.log.length + 1 := by
  have h := (execute_inv (cfg := cfg) (env := env) (ops := ops) (d := true)
    (fun s => ((∀ n, env.async n = .none) → s.iter = s.log.length) ∧ (s.running = true → s.iter = s.log.length) ∧
      s.log.length ≤ s.iter ∧ s.iter ≤ s.log.length + 1) (fun _ => True) dsm o (.inl rfl)
    ⟨fun _ => rfl, fun _ => rfl, le_rfl, Nat.le_succ _⟩ ?_ (fun _ _ _ _ => trivial) (fun _ _ => trivial)).2 hok
  · exact ⟨h.1, h.2.2⟩
  · intro s s' ha hs
    cases ha.eff with
    | still hl hi _ hr _ =>
      rw [hl, hi]
      refine ⟨hs.1, fun hr' => hs.2.1 ?_, hs.2.2⟩
      by_contra hf
      rw [hr (by simpa using hf)] at hr'
      cases hr'
    | counted hl hi _ hr _ hst =>
      have he := hs.2.1 hr
      rw [hl, hi]
      refine ⟨fun hn => ?_, fun hr' => ?_, by omega, by omega⟩
      · obtain ⟨n, hn'⟩ := (hst rfl).2
        exact absurd (hn n) hn'
      · rw [(hst rfl).1] at hr'; cases hr'
    | measured c hl hi _ hr _ _ _ _ _ _ =>
      have he := hs.2.1 hr
      rw [hl, hi, List.length_append, List.length_singleton]
      exact ⟨fun _ => by omega, fun _ => by omega, by omega, by omega⟩

/-- A run without stop requests that ends without exception. -/
example : isOk (execute (exCfg .dcrab 100 false none none) (exEnv (exAns [5, 4, 6]) (fun _ => .none)) exOps
    (exDsm [1]) ()).1 = true := by decide +kernel

/-- **C08 is violated** when a stop request arrives after the controls were sent and before the evaluation: the run
ends without exception and reports one evaluation although the user's function was never called. -/
theorem C08_counter_off_by_one : ∃ (cfg : AlgCfg ℚ ℚ) (env : Env ℚ ℚ ℚ) (dsm : Dsm ℚ ℚ ℚ),
    isOk (execute cfg env exOps dsm ()).1 = true ∧ (execute cfg env exOps dsm ()).2.iter = 1 ∧
    (execute cfg env exOps dsm ()).2.log.length = 0 :=
  ⟨exCfg .dcrab 100 false none none, exEnv (exAns [5]) (fun n => if n = 3 then .guiStop else .none), exDsm [1], by
    decide +kernel⟩

end QuOCS

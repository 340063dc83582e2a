/-
Lemmas for C98: the calls of a GRAPE run are the ones L-BFGS-B asks for.
-/
import Verif.Model.ProgramGrape
import Verif.Lemmas.Run
import Verif.Lemmas.Hoare

set_option linter.unusedSectionVars false
set_option linter.unusedVariables false

namespace QuOCS

variable {K V C O F : Type} [LE K] [DecidableLE K]
variable [Add F] [Sub F] [Mul F] [Div F] [Neg F] [Zero F] [One F] [NatCast F] [LE F] [LT F] [DecidableLE F]
  [DecidableLT F]
variable {cfg : AlgCfg K F} {env : Env V C F} {ops : CtlOps O V C} {I : O → Prop} {B : V → C → Prop} {g : V → V}

/-- the calls are the ones the minimizer asks for; `E`: it may be left before it is done -/
def Minimizer.Runs (sgn : F → F) (B : V → C → Prop) (g : V → V) (E : Prop) : Minimizer V F → List (Call V C F) → Prop
  | .stop, l => l = []
  | .ask _ _, [] => E
  | .ask x k, c :: cs => B x c.ctl ∧ match c.value with
    | some f => (k (sgn f) (g x)).Runs sgn B g E cs
    | none => cs = []

/-- reasons to stop -/
def Halted (cfg : AlgCfg K F) (env : Env V C F) (l : List (Call V C F)) : Prop :=
  (∃ n, env.async n ≠ .none) ∨ cfg.maxEvalTotal ≤ (l.length : ℤ) ∨ cfg.totalTimeLim < 10 ^ 10 ∨
  (∃ t, cfg.goal = some t ∧ (cfg.fomMax ≤ t ∨ ∃ k ∈ l, ∃ f, k.value = some f ∧ dirMul cfg.maximize f ≤ t)) ∨
  ∃ k ∈ l, ∃ a, k.ans = .ok a ∧ a.status.getD 0 ≠ 0

theorem Halted.append {l l' : List (Call V C F)} (h : Halted cfg env l) : Halted cfg env (l ++ l') := by
  rcases h with h | h | h | ⟨t, h1, h2 | ⟨k, h3, h4⟩⟩ | ⟨k, h1, h2⟩
  · exact .inl h
  · exact .inr (.inl (h.trans (by simp)))
  · exact .inr (.inr (.inl h))
  · exact .inr (.inr (.inr (.inl ⟨t, h1, .inl h2⟩)))
  · exact .inr (.inr (.inr (.inl ⟨t, h1, .inr ⟨k, List.mem_append_left _ h3, h4⟩⟩)))
  · exact .inr (.inr (.inr (.inr ⟨k, List.mem_append_left _ h1, h2⟩)))

/-- between the evaluations -/
structure Underway (cfg : AlgCfg K F) (env : Env V C F) (I : O → Prop) (s : AlgState V C O F) : Prop where
  ctl : I s.ctl
  iter : s.running = true → s.iter = s.log.length
  best : s.bestFoM = cfg.fomMax ∨ ∃ k ∈ s.log, ∃ f, k.value = some f ∧ dirMul cfg.maximize f = s.bestFoM
  halted : s.running = false → Halted cfg env s.log

/-- with no reason to stop the checks pass -/
theorem routineCall_goes {s : AlgState V C O F} {x : V} {it : ℕ} {o : O} {c : C} (h : Underway cfg env I s) (hn : ¬ Halted cfg env s.log)
    (hg : ops.getControls s.ctl x = .ok (o, c)) :
    ∃ s2 : AlgState V C O F, routineCall cfg env ops x it s = measure cfg env x c s2 ∧ s2.log = s.log ∧ s2.iter = s.log.length + 1 ∧
      s2.ctl = o ∧ s2.bestFoM = s.bestFoM ∧ s2.running = true ∧ s2.stepNumber = s.stepNumber := by
  have hr : s.running = true := by
    by_contra hr
    exact hn (h.halted (by simpa using hr))
  have ha : ∀ n, env.async n = .none := by
    intro n; by_contra hc; exact hn (.inl ⟨n, hc⟩)
  have hp : ∀ s' : AlgState V C O F, poll cfg env s' = (.ok (), { s' with polls := s'.polls + 1 }) := by
    intro s'; unfold poll; rw [ha]
  have hb : budgetCheck cfg { s with polls := s.polls + 1 } = (.ok (), { s with polls := s.polls + 1 }) := by
    unfold budgetCheck
    rw [if_neg]
    intro hc
    refine hn (.inr (.inl ?_))
    rw [← h.iter hr]
    exact hc
  have hgo : goalCheck cfg { s with polls := s.polls + 1 } = (.ok (), { s with polls := s.polls + 1 }) := by
    unfold goalCheck
    rcases hgl : cfg.goal with _ | t
    · rfl
    · dsimp only
      rw [if_neg]
      intro hc
      refine hn (.inr (.inr (.inr (.inl ⟨t, hgl, ?_⟩))))
      rcases h.best with e | ⟨k, h1, f, h2, h3⟩
      · exact .inl (e ▸ hc)
      · exact .inr ⟨k, h1, f, h2, h3 ▸ hc⟩
  have ht : timeCheck cfg env { s with polls := s.polls + 1 } = (.ok (), { s with polls := s.polls + 1 }) := by
    unfold timeCheck
    rw [if_neg fun hc => hn (.inr (.inr (.inl hc)))]
    rfl
  have hsc : stopChecks cfg env { s with polls := s.polls + 1 } = (.ok (), { s with polls := s.polls + 1 }) := by
    unfold stopChecks
    rw [Prog.bind_ok hb, Prog.bind_ok hgo, ht]
  unfold routineCall
  rw [Prog.bind_ok (hp _), Prog.bind_ok hsc, Prog.bind_ok (hp _), Prog.get_bind]
  dsimp only
  rw [if_neg (by rw [hr]; decide), Prog.modify_bind]
  have hsend : sendControls ops x ({ s with polls := s.polls + 1 + 1, xx := some x, algIter := it, iter := s.iter + 1 } : AlgState V C O F) =
      (.ok c, { s with polls := s.polls + 1 + 1, xx := some x, algIter := it, iter := s.iter + 1, ctl := o, commCtl := some c, signals := s.signals ++ [.controls c] }) := by
    unfold sendControls
    dsimp only
    rw [hg]
  rw [Prog.bind_ok hsend, Prog.bind_ok (hp _), Prog.get_bind]
  dsimp only
  rw [if_neg (by rw [hr]; decide)]
  exact ⟨_, rfl, rfl, by rw [← h.iter hr], rfl, rfl, hr, rfl⟩

theorem Quiet.same {s s' : AlgState V C O F} (q : Quiet env s s') : s'.ctl = s.ctl ∧ s'.log = s.log ∧ s'.bestFoM = s.bestFoM ∧ s'.iter = s.iter ∧
    s'.stepNumber = s.stepNumber := by
  rw [q.frame]
  exact ⟨rfl, rfl, rfl, rfl, rfl⟩

/-- what one evaluation does -/
inductive EvalSpec (cfg : AlgCfg K F) (env : Env V C F) (I : O → Prop) (B : V → C → Prop) (x : V) (s : AlgState V C O F) :
    Py F → AlgState V C O F → Prop
  | none (f s') (hl : s'.log = s.log) (h : Halted cfg env s.log) (hr : s'.running = false) : EvalSpec cfg env I B x s (.ok f) s'
  | broken (e s') (hl : s'.log = s.log) (h : Halted cfg env s.log) : EvalSpec cfg env I B x s (.error e) s'
  | failed (e s' k) (hl : s'.log = s.log ++ [k]) (hb : B x k.ctl) (hv : k.value = .none) : EvalSpec cfg env I B x s (.error e) s'
  | value (f s' k) (hl : s'.log = s.log ++ [k]) (hb : B x k.ctl) (hv : k.value = some f) (hu : Underway cfg env I s') :
      EvalSpec cfg env I B x s (.ok (dirMul cfg.maximize f)) s'

theorem measure_underway {s2 : AlgState V C O F} {x : V} {c : C} (hk : cfg.kind = .dcrab → s2.stepNumber = 0) (hc : I s2.ctl) (hb : B x c)
    (hi : s2.iter = s2.log.length + 1)
    (hbest : s2.bestFoM = cfg.fomMax ∨ ∃ k ∈ s2.log, ∃ f, k.value = some f ∧ dirMul cfg.maximize f = s2.bestFoM)
    (hr : s2.running = true) : EvalSpec cfg env I B x s2 (measure cfg env x c s2).1 (measure cfg env x c s2).2 := by
  rcases ha : env.getFoM s2.log c with e | a
  · rw [measure_raised x c s2 e ha]
    exact .failed _ _ _ rfl hb rfl
  · rcases hf : a.fom with _ | f
    · rw [measure_noValue x c s2 a ha hf]
      exact .failed _ _ _ rfl hb (by unfold Call.value; exact hf)
    · obtain ⟨fl, il, sc', hm⟩ := measure_answered (cfg := cfg) x c s2 a f ha hf
      have hsh : shownFoM cfg s2 (dirMul cfg.maximize f) = dirMul cfg.maximize f := by
        unfold shownFoM
        split
        · rw [if_pos (hk ‹_›)]
        · rfl
      have hv : (⟨x, c, .ok a, s2.polls, s2.ticks⟩ : Call V C F).value = some f := by unfold Call.value; exact hf
      rw [hm]
      refine .value f _ ⟨x, c, .ok a, s2.polls, s2.ticks⟩ rfl hb hv ⟨hc, ?_, ?_, ?_⟩
      · intro _
        show s2.iter = (s2.log ++ _).length
        simp [hi]
      · dsimp only
        rw [hsh]
        split
        · exact .inr ⟨_, List.mem_append_right _ (List.mem_singleton.2 rfl), f, hv, rfl⟩
        · rcases hbest with e | ⟨k, h1, h2⟩
          · exact .inl e
          · exact .inr ⟨k, List.mem_append_left _ h1, h2⟩
      · intro h
        dsimp only at h
        split at h
        · rw [hr] at h; cases h
        · rename_i hs
          exact .inr (.inr (.inr (.inr ⟨_, List.mem_append_right _ (List.mem_singleton.2 rfl), a, rfl, hs⟩)))

theorem EvalSpec.congr {s s2 : AlgState V C O F} {x : V} {r : Py F} {s' : AlgState V C O F} (h : EvalSpec cfg env I B x s2 r s')
    (hl : s2.log = s.log) : EvalSpec cfg env I B x s r s' := by
  cases h with
  | none f s' hl' h hu => exact .none f s' (hl'.trans hl) (hl ▸ h) hu
  | broken e s' hl' h => exact .broken e s' (hl'.trans hl) (hl ▸ h)
  | failed e s' k hl' hb hv => exact .failed e s' k (by rw [hl', hl]) hb hv
  | value f s' k hl' hb hv hu => exact .value f s' k (by rw [hl', hl]) hb hv hu

theorem Underway.routine (hI : ∀ o x, I o → ∃ o' c, ops.getControls o x = .ok (o', c) ∧ I o' ∧ B x c)
    (x : V) (it : ℕ) {s : AlgState V C O F} (hk : cfg.kind = .dcrab → s.stepNumber = 0) (h : Underway cfg env I s) :
    EvalSpec cfg env I B x s (routineCall cfg env ops x it s).1 (routineCall cfg env ops x it s).2 := by
  obtain ⟨o', c', hg, hi, hb⟩ := hI s.ctl x h.ctl
  by_cases hn : Halted cfg env s.log
  · have hspec := routineCall_spec (cfg := cfg) (env := env) (ops := ops) x it s
    generalize (routineCall cfg env ops x it s).1 = r at hspec
    generalize (routineCall cfg env ops x it s).2 = s' at hspec
    cases hspec with
    | stopped s1 q hr =>
      obtain ⟨e1, e2, e3, e4, e5⟩ := q.same
      exact .none _ _ e2 hn hr
    | sigint s1 r e q hk => exact .broken _ _ q.same.2.1 hn
    | noControls s1 e q hr hi he => rw [hg] at he; cases he
    | window s1 o c s2 q hr hi' he q2 hr2 ha =>
      rw [hg] at he
      cases he
      obtain ⟨e1, e2, e3, e4, e5⟩ := q.same
      obtain ⟨f1, f2, f3, f4, f5⟩ := q2.same
      dsimp only at f1 f2 f3 f4 f5
      exact .none _ _ (f2.trans e2) hn hr2
    | windowSigint s1 o c s2 r e q hr hi he q2 hk => exact .broken _ _ (q2.same.2.1.trans q.same.2.1) hn
    | measured s1 o c s2 q hr hi' hgoal ht he q2 hr2 =>
      rw [hg] at he
      cases he
      obtain ⟨e1, e2, e3, e4, e5⟩ := q.same
      obtain ⟨f1, f2, f3, f4, f5⟩ := q2.same
      dsimp only at f1 f2 f3 f4 f5
      have hrs : s.running = true := by
        by_contra hc
        have := q.mono (by simpa using hc)
        rw [this] at hr; cases hr
      refine (measure_underway (fun h => by rw [f5, e5]; exact hk h) (by rw [f1]; exact hi) hb ?_ ?_ hr2).congr (f2.trans e2)
      · rw [f4, f2, e2, h.iter hrs]
      · rw [f2, e2, f3, e3]; exact h.best
  · obtain ⟨s2, e, h1, h2, h3, h4, h5, h6⟩ := routineCall_goes (it := it) h hn hg
    rw [e]
    refine (measure_underway (fun h => by rw [h6]; exact hk h) (by rw [h3]; exact hi) hb (by rw [h2, h1]) ?_ h5).congr h1
    rw [h1, h4]; exact h.best

theorem Underway.grape (hk : cfg.kind = .grape) (hI : ∀ o x, I o → ∃ o' c, ops.getControls o x = .ok (o', c) ∧ I o' ∧ B x c)
    (x : V) {s : AlgState V C O F} (h : Underway cfg env I s) :
    EvalSpec cfg env I B x s (innerGrape cfg env ops x s).1 (innerGrape cfg env ops x s).2 := by
  obtain ⟨o', c', hg, hi, hb⟩ := hI s.ctl x h.ctl
  have hgc : gradientControls ops x ({ s with isRecord := false } : AlgState V C O F) = (.ok (), { s with isRecord := false, ctl := o' }) := by
    unfold gradientControls
    dsimp only
    rw [hg]
  unfold innerGrape
  rw [Prog.modify_bind, Prog.bind_ok hgc]
  exact (Underway.routine hI x 0 (s := { s with isRecord := false, ctl := o' }) (fun h => by rw [hk] at h; cases h) ⟨hi, h.iter, h.best, h.halted⟩).congr rfl

/-- a stopped run makes no call -/
theorem stopped_grape (x : V) {s : AlgState V C O F} (hr : s.running = false) : (innerGrape cfg env ops x s).2.log = s.log ∧
    (isOk (innerGrape cfg env ops x s).1 = true → (innerGrape cfg env ops x s).2.running = false) := by
  unfold innerGrape
  rw [Prog.modify_bind, Prog.bind_apply]
  unfold gradientControls
  dsimp only
  rcases hg : ops.getControls s.ctl x with e | ⟨o, c⟩
  · exact ⟨rfl, fun h => by cases h⟩
  · dsimp only
    have hspec := routineCall_spec (cfg := cfg) (env := env) (ops := ops) x 0 { s with isRecord := false, ctl := o }
    generalize (routineCall cfg env ops x 0 { s with isRecord := false, ctl := o }).1 = r at hspec
    generalize (routineCall cfg env ops x 0 { s with isRecord := false, ctl := o }).2 = s' at hspec
    have hm : ∀ s1 : AlgState V C O F, Quiet env { s with isRecord := false, ctl := o } s1 → s1.running = true → False := by
      intro s1 q h
      rw [q.mono hr] at h
      cases h
    cases hspec with
    | stopped s1 q hr => exact ⟨q.same.2.1, fun _ => hr⟩
    | sigint s1 r e q hk => exact ⟨q.same.2.1, fun h => by cases h⟩
    | noControls s1 e q hr hi he => exact (hm _ q hr).elim
    | window s1 o c s2 q hr hi' he q2 hr2 ha => exact (hm _ q hr).elim
    | windowSigint s1 o c s2 r e q hr hi he q2 hk => exact (hm _ q hr).elim
    | measured s1 o c s2 q hr hi' hgoal ht he q2 hr2 => exact (hm _ q hr).elim

theorem stopped_interp (hk : cfg.kind = .grape) (m : Minimizer V F) (x : V) (f : F) {s : AlgState V C O F} (hr : s.running = false) :
    (((m.calls g x f).interp (algHandler cfg env ops)) s).2.log = s.log := by
  induction m generalizing x f s with
  | stop => rfl
  | ask y k ih =>
    have hop : ((Minimizer.ask y k).calls g x f : Strat K V F _).interp (algHandler cfg env ops) s =
        (innerGrape cfg env ops y >>= fun f' => ((k f' (g y)).calls g y f').interp (algHandler cfg env ops)) s := by
      simp only [Minimizer.calls, Strat.interp, algHandler, if_pos hk]
    rw [hop]
    obtain ⟨h1, h2⟩ := stopped_grape (cfg := cfg) (env := env) (ops := ops) y hr
    rcases he : innerGrape cfg env ops y s with ⟨e | f', s'⟩
    · rw [he] at h1
      rw [Prog.bind_error he]
      exact h1
    · rw [he] at h1 h2
      rw [Prog.bind_ok he, ih _ _ y f' (h2 rfl)]
      exact h1

theorem Minimizer.runs_of_interp (hk : cfg.kind = .grape)
    (hI : ∀ o x, I o → ∃ o' c, ops.getControls o x = .ok (o', c) ∧ I o' ∧ B x c) (m : Minimizer V F) (x : V) (f : F)
    {s : AlgState V C O F} (h : Underway cfg env I s) :
    ∃ l, (((m.calls g x f).interp (algHandler cfg env ops)) s).2.log = s.log ++ l ∧
      m.Runs (dirMul cfg.maximize) B g (Halted cfg env (s.log ++ l)) l := by
  induction m generalizing x f s with
  | stop => exact ⟨[], by simp [Minimizer.calls, Strat.interp], by simp [Minimizer.Runs]⟩
  | ask y k ih =>
    have he := h.grape hk hI y
    have hop : ((Minimizer.ask y k).calls g x f : Strat K V F _).interp (algHandler cfg env ops) s =
        (innerGrape cfg env ops y >>= fun f' => ((k f' (g y)).calls g y f').interp (algHandler cfg env ops)) s := by
      simp only [Minimizer.calls, Strat.interp, algHandler, if_pos hk]
    rw [hop]
    rcases hr : innerGrape cfg env ops y s with ⟨r, s'⟩
    rw [hr] at he
    dsimp only at he
    cases he with
    | none f' s' hl hh hu =>
      rw [Prog.bind_ok hr, stopped_interp hk _ _ _ hu]
      exact ⟨[], by simp [hl], by simpa [Minimizer.Runs] using hh⟩
    | broken e s' hl hh =>
      rw [Prog.bind_error hr]
      exact ⟨[], by simp [hl], by simpa [Minimizer.Runs] using hh⟩
    | failed e s' k' hl hb hv =>
      rw [Prog.bind_error hr]
      refine ⟨[k'], hl, ?_⟩
      unfold Minimizer.Runs
      exact ⟨hb, by rw [hv]⟩
    | value f' s' k' hl hb hv hu =>
      rw [Prog.bind_ok hr]
      obtain ⟨l, h1, h2⟩ := ih _ _ y _ hu
      refine ⟨k' :: l, by rw [h1, hl]; simp, ?_⟩
      unfold Minimizer.Runs
      refine ⟨hb, ?_⟩
      rw [hv]
      rw [hl] at h2
      simpa using h2

end QuOCS

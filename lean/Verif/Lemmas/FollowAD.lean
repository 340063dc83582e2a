/-
Lemmas for C99: the calls of a run with automatic differentiation are the ones L-BFGS-B asks for.
-/
import Verif.Lemmas.Follow
import Verif.Lemmas.ProgramAD

set_option linter.unusedSectionVars false
set_option linter.unusedVariables false

namespace QuOCS

variable {V C O : Type} {lib : AdLib V C ℚ} {cfg : AlgCfg ℚ ℚ} {env : Env V C ℚ} {ops : CtlOps O V C} {I : O → Prop} {B : V → C → Prop}

/-- the calls for figures of merit -/
def AdState.evals (s : AdState V C O ℚ) : List (Call V C ℚ) := (s.marks.filter fun k => !k.1).map (·.2)

/-- The marked calls are the ones the minimizer asks for. `E`: values may no longer be computed; `S`: the search may be left; the flag tells that
no value is computed any more. -/
def AdMinimizer.Runs (sgn : ℚ → ℚ) (B : V → C → Prop) (g : List (Call V C ℚ) → V → V) (big : ℚ) (E : List (Call V C ℚ) → Prop) (S : Prop) :
    AdMinimizer V ℚ → Bool → List (Bool × Call V C ℚ) → List (Bool × Call V C ℚ) → Prop
  | .stop, _, _, l => l = []
  | .value x k, st, before, l =>
      (E ((before.filter fun k => !k.1).map (·.2)) ∧ ((S ∧ l = []) ∨ (k big).Runs sgn B g big E S true before l)) ∨
      (st = false ∧ ∃ c cs, l = (false, c) :: cs ∧ c.vec = x ∧ B x c.ctl ∧ match c.value with
        | some f => (k (sgn f)).Runs sgn B g big E S false (before ++ [(false, c)]) cs
        | none => cs = [])
  | .gradient x k, st, before, l => ∃ c cs, l = (true, c) :: cs ∧ c.vec = x ∧ B x c.ctl ∧ match c.value with
        | some _ => (k (g (before.map (·.2) ++ [c]) x)).Runs sgn B g big E S st (before ++ [(true, c)]) cs
        | none => cs = []

/-- between the calls; `l` are the calls for figures of merit -/
structure UnderwayOn (cfg : AlgCfg ℚ ℚ) (env : Env V C ℚ) (I : O → Prop) (l : List (Call V C ℚ)) (s : AlgState V C O ℚ) : Prop where
  ctl : I s.ctl
  iter : s.running = true → s.iter = l.length
  best : s.bestFoM = cfg.fomMax ∨ ∃ k ∈ l, ∃ f, k.value = some f ∧ dirMul cfg.maximize f = s.bestFoM
  halted : s.running = false → Halted cfg env l

section
variable {l : List (Call V C ℚ)}

/-- with no reason to stop the checks pass -/
theorem routineCall_goesOn {s : AlgState V C O ℚ} {x : V} {it : ℕ} {o : O} {c : C} (h : UnderwayOn cfg env I l s) (hn : ¬ Halted cfg env l)
    (hg : ops.getControls s.ctl x = .ok (o, c)) :
    ∃ s2 : AlgState V C O ℚ, routineCall cfg env ops x it s = measure cfg env x c s2 ∧ s2.log = s.log ∧ s2.iter = l.length + 1 ∧
      s2.ctl = o ∧ s2.bestFoM = s.bestFoM ∧ s2.running = true := by
  have hr : s.running = true := by
    by_contra hr
    exact hn (h.halted (by simpa using hr))
  have ha : ∀ n, env.async n = .none := by
    intro n; by_contra hc; exact hn (.inl ⟨n, hc⟩)
  have hp : ∀ s' : AlgState V C O ℚ, poll cfg env s' = (.ok (), { s' with polls := s'.polls + 1 }) := by
    intro s'; unfold poll; rw [ha]
  have hb : budgetCheck cfg { s with polls := s.polls + 1 } = (.ok (), { s with polls := s.polls + 1 }) := by
    unfold budgetCheck
    rw [if_neg]
    intro hc
    refine hn (.inr (.inl ?_))
    rw [← h.iter hr]
    exact hc
  have hgo : goalCheck cfg { s with polls := s.polls + 1 } = (.ok (), { s with polls := s.polls + 1 }) := by
    unfold goalCheck
    rcases hgl : cfg.goal with _ | t
    · rfl
    · dsimp only
      rw [if_neg]
      intro hc
      refine hn (.inr (.inr (.inr (.inl ⟨t, hgl, ?_⟩))))
      rcases h.best with e | ⟨k, h1, f, h2, h3⟩
      · exact .inl (e ▸ hc)
      · exact .inr ⟨k, h1, f, h2, h3 ▸ hc⟩
  have ht : timeCheck cfg env { s with polls := s.polls + 1 } = (.ok (), { s with polls := s.polls + 1 }) := by
    unfold timeCheck
    rw [if_neg fun hc => hn (.inr (.inr (.inl hc)))]
    rfl
  have hsc : stopChecks cfg env { s with polls := s.polls + 1 } = (.ok (), { s with polls := s.polls + 1 }) := by
    unfold stopChecks
    rw [Prog.bind_ok hb, Prog.bind_ok hgo, ht]
  unfold routineCall
  rw [Prog.bind_ok (hp _), Prog.bind_ok hsc, Prog.bind_ok (hp _), Prog.get_bind]
  dsimp only
  rw [if_neg (by rw [hr]; decide), Prog.modify_bind]
  have hsend : sendControls ops x ({ s with polls := s.polls + 1 + 1, xx := some x, algIter := it, iter := s.iter + 1 } : AlgState V C O ℚ) =
      (.ok c, { s with polls := s.polls + 1 + 1, xx := some x, algIter := it, iter := s.iter + 1, ctl := o, commCtl := some c, signals := s.signals ++ [.controls c] }) := by
    unfold sendControls
    dsimp only
    rw [hg]
  rw [Prog.bind_ok hsend, Prog.bind_ok (hp _), Prog.get_bind]
  dsimp only
  rw [if_neg (by rw [hr]; decide)]
  exact ⟨_, rfl, rfl, by rw [← h.iter hr], rfl, rfl, hr⟩

/-- a request that raises without having called the user's function was interrupted -/
theorem routineCall_raises (hI : ∀ o x, I o → ∃ o' c, ops.getControls o x = .ok (o', c) ∧ I o' ∧ B x c) (x : V) (it : ℕ) {s : AlgState V C O ℚ}
    (hs : I s.ctl) {e : PyErr} (he : (routineCall cfg env ops x it s).1 = .error e) (hl : (routineCall cfg env ops x it s).2.log = s.log) :
    ∃ n, env.async n = .sigint := by
  let P : AlgState V C O ℚ → Prop := fun t => I t.ctl ∧ t.log = s.log
  let E : PyErr → AlgState V C O ℚ → Prop := fun _ t => (∃ n, env.async n = .sigint) ∨ t.log ≠ s.log
  have hstop : ∀ r, Fine P P E (QuOCS.stopWith cfg r : Prog (AlgState V C O ℚ) Unit) := fun r => Fine.modify fun t h => h
  have hpoll : Fine P P E (QuOCS.poll cfg env : Prog (AlgState V C O ℚ) Unit) := by
    intro t h
    unfold QuOCS.poll
    rcases ha : env.async t.polls with _ | _ | _
    · exact ⟨fun _ _ => h, fun e he => by cases he⟩
    · exact ⟨fun _ _ => h, fun e he => by cases he⟩
    · dsimp only
      split
      · exact hstop _ _ h
      · exact ⟨fun _ he => (by cases he), fun e he => .inl ⟨_, ha⟩⟩
  have hchecks : Fine P P E (QuOCS.stopChecks cfg env : Prog (AlgState V C O ℚ) Unit) := by
    refine .bind (Q := P) (fun s h => ?_) fun _ => .bind (Q := P) (fun s h => ?_) fun _ => ?_
    · unfold budgetCheck
      split
      · exact hstop _ s h
      · exact ⟨fun _ _ => h, fun e he => by cases he⟩
    · unfold goalCheck
      split
      · split
        · exact hstop _ s h
        · exact ⟨fun _ _ => h, fun e he => by cases he⟩
      · exact ⟨fun _ _ => h, fun e he => by cases he⟩
    · refine .ite (fun _ => .bind (Q := P) (fun s h => ⟨fun _ _ => h, fun e he => by cases he⟩) fun t => fun s h => ?_) fun _ => .pure _
      unfold timeCheckAt
      split
      · exact hstop _ s h
      · exact ⟨fun _ _ => h, fun e he => by cases he⟩
  have key : Fine P (fun _ => True) E (routineCall cfg env ops x it : Prog (AlgState V C O ℚ) ℚ) := by
    refine .bind hpoll fun _ => .bind hchecks fun _ => .bind hpoll fun _ => .bind .get fun s =>
      .ite (fun _ => (Fine.pure _).weaken (fun _ h => h) fun _ _ => trivial) fun _ => ?_
    refine .bind (Q := P) (.modify fun s h => h) fun _ => ?_
    refine .bind (Q := P) (fun s h => ?_) fun c => .bind (Q := P) hpoll fun _ => .bind .get fun s =>
      .ite (fun _ => (Fine.pure _).weaken (fun _ h => h) fun _ _ => trivial) fun _ => fun t h => ⟨fun _ _ => trivial, fun e he => ?_⟩
    · obtain ⟨o', c, h1, h2, _⟩ := hI s.ctl x h.1
      unfold sendControls
      rw [h1]
      exact ⟨fun _ _ => ⟨h2, h.2⟩, fun e he => by cases he⟩
    · right
      rcases ha : env.getFoM t.log c with e | a
      · rw [measure_raised x c t e ha]
        dsimp only
        rw [h.2]
        simp
      · rcases hf : a.fom with _ | f
        · rw [measure_noValue x c t a ha hf]
          dsimp only
          rw [h.2]
          simp
        · obtain ⟨fl, il, sc', hm⟩ := measure_answered (cfg := cfg) x c t a f ha hf
          rw [hm] at he; cases he
  exact ((key s ⟨hs, rfl⟩).2 e he).resolve_right (fun h => h hl)

/-- what one request for a figure of merit does -/
inductive EvalOn (cfg : AlgCfg ℚ ℚ) (env : Env V C ℚ) (I : O → Prop) (B : V → C → Prop) (l : List (Call V C ℚ)) (x : V) (s : AlgState V C O ℚ) :
    Py ℚ → AlgState V C O ℚ → Prop
  | none (s') (hl : s'.log = s.log) (h : Halted cfg env l) (hr : s'.running = false) (hu : UnderwayOn cfg env I l s') :
      EvalOn cfg env I B l x s (.ok cfg.fomMax) s'
  | broken (e s') (hl : s'.log = s.log) (h : Halted cfg env l) (hs : ∃ n, env.async n = .sigint) : EvalOn cfg env I B l x s (.error e) s'
  | failed (e s' k) (hl : s'.log = s.log ++ [k]) (hx : k.vec = x) (hb : B x k.ctl) (hv : k.value = .none) : EvalOn cfg env I B l x s (.error e) s'
  | value (f s' k) (hl : s'.log = s.log ++ [k]) (hx : k.vec = x) (hb : B x k.ctl) (hv : k.value = some f) (hu : UnderwayOn cfg env I (l ++ [k]) s') :
      EvalOn cfg env I B l x s (.ok (dirMul cfg.maximize f)) s'

theorem measure_underwayOn {s2 : AlgState V C O ℚ} {x : V} {c : C} (hk : cfg.kind = .grape) (hc : I s2.ctl) (hb : B x c)
    (hi : s2.iter = l.length + 1)
    (hbest : s2.bestFoM = cfg.fomMax ∨ ∃ k ∈ l, ∃ f, k.value = some f ∧ dirMul cfg.maximize f = s2.bestFoM)
    (hr : s2.running = true) : EvalOn cfg env I B l x s2 (measure cfg env x c s2).1 (measure cfg env x c s2).2 := by
  rcases ha : env.getFoM s2.log c with e | a
  · rw [measure_raised x c s2 e ha]
    exact .failed _ _ _ rfl rfl hb rfl
  · rcases hf : a.fom with _ | f
    · rw [measure_noValue x c s2 a ha hf]
      exact .failed _ _ _ rfl rfl hb (by unfold Call.value; exact hf)
    · obtain ⟨fl, il, sc', hm⟩ := measure_answered (cfg := cfg) x c s2 a f ha hf
      have hsh : shownFoM cfg s2 (dirMul cfg.maximize f) = dirMul cfg.maximize f := by
        unfold shownFoM
        rw [if_neg (by rw [hk]; decide)]
      have hv : (⟨x, c, .ok a, s2.polls, s2.ticks⟩ : Call V C ℚ).value = some f := by unfold Call.value; exact hf
      rw [hm]
      refine .value f _ ⟨x, c, .ok a, s2.polls, s2.ticks⟩ rfl rfl hb hv ⟨hc, ?_, ?_, ?_⟩
      · intro _
        show s2.iter = (l ++ _).length
        simp [hi]
      · dsimp only
        rw [hsh]
        split
        · exact .inr ⟨_, List.mem_append_right _ (List.mem_singleton.2 rfl), f, hv, rfl⟩
        · rcases hbest with e | ⟨k, h1, h2⟩
          · exact .inl e
          · exact .inr ⟨k, List.mem_append_left _ h1, h2⟩
      · intro h
        dsimp only at h
        split at h
        · rw [hr] at h; cases h
        · rename_i hs
          exact .inr (.inr (.inr (.inr ⟨_, List.mem_append_right _ (List.mem_singleton.2 rfl), a, rfl, hs⟩)))

theorem EvalOn.congr {s s2 : AlgState V C O ℚ} {x : V} {r : Py ℚ} {s' : AlgState V C O ℚ} (h : EvalOn cfg env I B l x s2 r s')
    (hl : s2.log = s.log) : EvalOn cfg env I B l x s r s' := by
  cases h with
  | none s' hl' h hr hu => exact .none s' (hl'.trans hl) h hr hu
  | broken e s' hl' h hs => exact .broken e s' (hl'.trans hl) h hs
  | failed e s' k hl' hx hb hv => exact .failed e s' k (by rw [hl', hl]) hx hb hv
  | value f s' k hl' hx hb hv hu => exact .value f s' k (by rw [hl', hl]) hx hb hv hu

theorem UnderwayOn.routine (hk : cfg.kind = .grape) (hI : ∀ o x, I o → ∃ o' c, ops.getControls o x = .ok (o', c) ∧ I o' ∧ B x c)
    (x : V) (it : ℕ) {s : AlgState V C O ℚ} (h : UnderwayOn cfg env I l s) :
    EvalOn cfg env I B l x s (routineCall cfg env ops x it s).1 (routineCall cfg env ops x it s).2 := by
  obtain ⟨o', c', hg, hi, hb⟩ := hI s.ctl x h.ctl
  by_cases hn : Halted cfg env l
  · have hspec := routineCall_spec (cfg := cfg) (env := env) (ops := ops) x it s
    have hraise := fun {e} => routineCall_raises (cfg := cfg) (env := env) hI x it h.ctl (e := e)
    generalize (routineCall cfg env ops x it s).1 = r at hspec hraise
    generalize (routineCall cfg env ops x it s).2 = s' at hspec hraise
    have hquiet : ∀ {s1 : AlgState V C O ℚ}, I s1.ctl → s1.bestFoM = s.bestFoM → s1.running = false → UnderwayOn cfg env I l s1 := fun h1 h2 h3 =>
      ⟨h1, fun h' => (by rw [h3] at h'; cases h'), (by rw [h2]; exact h.best), fun _ => hn⟩
    cases hspec with
    | stopped s1 q hr =>
      obtain ⟨e1, e2, e3, e4, e5⟩ := q.same
      exact .none _ e2 hn hr (hquiet (e1 ▸ h.ctl) e3 hr)
    | sigint s1 r e q hk => exact .broken _ _ q.same.2.1 hn (hraise rfl q.same.2.1)
    | noControls s1 e q hr hi he => rw [hg] at he; cases he
    | window s1 o c s2 q hr hi' he q2 hr2 ha =>
      rw [hg] at he
      cases he
      obtain ⟨e1, e2, e3, e4, e5⟩ := q.same
      obtain ⟨f1, f2, f3, f4, f5⟩ := q2.same
      dsimp only at f1 f2 f3 f4 f5
      exact .none _ (f2.trans e2) hn hr2 (hquiet (f1 ▸ hi) (f3.trans e3) hr2)
    | windowSigint s1 o c s2 r e q hr hi he q2 hk => exact .broken _ _ (q2.same.2.1.trans q.same.2.1) hn (hraise rfl (q2.same.2.1.trans q.same.2.1))
    | measured s1 o c s2 q hr hi' hgoal ht he q2 hr2 =>
      rw [hg] at he
      cases he
      obtain ⟨e1, e2, e3, e4, e5⟩ := q.same
      obtain ⟨f1, f2, f3, f4, f5⟩ := q2.same
      dsimp only at f1 f2 f3 f4 f5
      have hrs : s.running = true := by
        by_contra hc
        have := q.mono (by simpa using hc)
        rw [this] at hr; cases hr
      refine (measure_underwayOn hk (by rw [f1]; exact hi) hb ?_ ?_ hr2).congr (f2.trans e2)
      · rw [f4, h.iter hrs]
      · rw [f3, e3]; exact h.best
  · obtain ⟨s2, e, h1, h2, h3, h4, h5⟩ := routineCall_goesOn (it := it) h hn hg
    rw [e]
    refine (measure_underwayOn hk (by rw [h3]; exact hi) hb h2 ?_ h5).congr h1
    rw [h4]; exact h.best

/-- a stopped run computes no value -/
theorem stopped_routine (x : V) (it : ℕ) {s : AlgState V C O ℚ} (hr : s.running = false) : (routineCall cfg env ops x it s).2.log = s.log ∧
    ∀ f, (routineCall cfg env ops x it s).1 = .ok f → (routineCall cfg env ops x it s).2.running = false := by
  have hspec := routineCall_spec (cfg := cfg) (env := env) (ops := ops) x it s
  generalize (routineCall cfg env ops x it s).1 = r at hspec
  generalize (routineCall cfg env ops x it s).2 = s' at hspec
  have hm : ∀ s1 : AlgState V C O ℚ, Quiet env s s1 → s1.running = true → False := by
    intro s1 q h
    rw [q.mono hr] at h
    cases h
  cases hspec with
  | stopped s1 q hr => exact ⟨q.same.2.1, fun _ _ => hr⟩
  | sigint s1 r e q hk => exact ⟨q.same.2.1, fun f h => by cases h⟩
  | noControls s1 e q hr hi he => exact (hm _ q hr).elim
  | window s1 o c s2 q hr hi' he q2 hr2 ha => exact (hm _ q hr).elim
  | windowSigint s1 o c s2 r e q hr hi he q2 hk => exact (hm _ q hr).elim
  | measured s1 o c s2 q hr hi' hgoal ht he q2 hr2 => exact (hm _ q hr).elim

end

/-! ### The whole search -/

theorem marks_value {s s' : AdState V C O ℚ} {k : Call V C ℚ} (hw : ∀ i ∈ s.gradAt, i < s.alg.log.length) (h1 : s'.alg.log = s.alg.log ++ [k])
    (h2 : s'.gradAt = s.gradAt) : s'.marks = s.marks ++ [(false, k)] := by
  unfold AdState.marks
  rw [h1, h2, marks_append k fun i _ => Iff.rfl]
  have : s.alg.log.length ∉ s.gradAt := fun hi => absurd (hw _ hi) (lt_irrefl _)
  simp [this]

theorem marks_gradient {s s' : AdState V C O ℚ} {k : Call V C ℚ} (hw : ∀ i ∈ s.gradAt, i < s.alg.log.length) (h1 : s'.alg.log = s.alg.log ++ [k])
    (h2 : s'.gradAt = s.gradAt ++ [s.alg.log.length]) : s'.marks = s.marks ++ [(true, k)] := by
  unfold AdState.marks
  rw [h1, h2, marks_append (g := s.gradAt) k fun i hi => ?_]
  · simp
  · simp only [List.mem_append, List.mem_singleton]
    exact ⟨fun h => h.resolve_right (by omega), .inl⟩

theorem AdMinimizer.runs_of_interp (hk : cfg.kind = .grape) (hI : ∀ o x, I o → ∃ o' c, ops.getControls o x = .ok (o', c) ∧ I o' ∧ B x c)
    (m : AdMinimizer V ℚ) (st : Bool) {s : AdState V C O ℚ} (hw : ∀ i ∈ s.gradAt, i < s.alg.log.length) (h : UnderwayOn cfg env I s.evals s.alg)
    (hst : st = true → s.alg.running = false) :
    ∃ l, ((m.calls.interp lib cfg env ops) s).2.marks = s.marks ++ l ∧
      m.Runs (dirMul cfg.maximize) B lib.grad cfg.fomMax (Halted cfg env) (∃ n, env.async n = .sigint) st s.marks l ∧
      (isOk ((m.calls.interp lib cfg env ops) s).1 = true → UnderwayOn cfg env I ((m.calls.interp lib cfg env ops) s).2.evals
        ((m.calls.interp lib cfg env ops) s).2.alg) := by
  induction m generalizing st s with
  | stop => exact ⟨[], (List.append_nil _).symm, rfl, fun _ => h⟩
  | value x k ih =>
    have hop : (AdMinimizer.value x k).calls.interp lib cfg env ops s =
        (onAlg (adValue cfg env ops x) >>= fun f => (k f).calls.interp lib cfg env ops) s := rfl
    rw [hop]
    have he := UnderwayOn.routine hk hI x 0 (s := { s.alg with isRecord := false }) ⟨h.ctl, h.iter, h.best, h.halted⟩
    have hsr := stopped_routine (cfg := cfg) (env := env) (ops := ops) x 0 (s := { s.alg with isRecord := false })
    rcases hr : routineCall cfg env ops x 0 { s.alg with isRecord := false } with ⟨r, s'⟩
    have hr' : onAlg (adValue cfg env ops x) s = (r, { s with alg := s' }) := by
      unfold onAlg
      rw [show adValue cfg env ops x s.alg = routineCall cfg env ops x 0 { s.alg with isRecord := false } from rfl, hr]
    rw [hr] at he hsr
    dsimp only at he hsr
    have same : ∀ {t : AlgState V C O ℚ}, t.log = s.alg.log → ({ s with alg := t } : AdState V C O ℚ).marks = s.marks := by
      intro t ht
      unfold AdState.marks
      rw [ht]
    cases he with
    | none s' hl hh hrun hu =>
      rw [Prog.bind_ok hr']
      have hm := same hl
      have hev : ({ s with alg := s' } : AdState V C O ℚ).evals = s.evals := by unfold AdState.evals; rw [hm]
      obtain ⟨l, h1, h2, h9⟩ := ih cfg.fomMax true (s := { s with alg := s' }) (by dsimp only; rw [hl]; exact hw) (by rw [hev]; exact hu) (fun _ => hrun)
      refine ⟨l, by rw [h1, hm], ?_, h9⟩
      unfold AdMinimizer.Runs
      refine Or.inl ⟨?_, Or.inr ?_⟩
      · exact hh
      · rw [hm] at h2
        exact h2
    | broken e s' hl hh hs =>
      rw [Prog.bind_error hr']
      have hm := same hl
      refine ⟨[], by dsimp only; rw [hm, List.append_nil], ?_, fun h => by cases h⟩
      unfold AdMinimizer.Runs
      exact Or.inl ⟨hh, Or.inl ⟨hs, rfl⟩⟩
    | failed e s' c hl hx hb hv =>
      rw [Prog.bind_error hr']
      have hrun : st = false := by
        by_contra hc
        have := (hsr (hst (by simpa using hc))).1
        rw [hl] at this
        simp at this
      refine ⟨[(false, c)], marks_value hw hl rfl, ?_, fun h => by cases h⟩
      unfold AdMinimizer.Runs
      refine Or.inr ⟨hrun, c, [], rfl, hx, hb, ?_⟩
      rw [hv]
    | value f s' c hl hx hb hv hu =>
      rw [Prog.bind_ok hr']
      have hrun : st = false := by
        by_contra hc
        have := (hsr (hst (by simpa using hc))).1
        rw [hl] at this
        simp at this
      have hm : ({ s with alg := s' } : AdState V C O ℚ).marks = s.marks ++ [(false, c)] := marks_value hw hl rfl
      have hev : ({ s with alg := s' } : AdState V C O ℚ).evals = s.evals ++ [c] := by
        unfold AdState.evals; rw [hm, List.filter_append, List.map_append]; rfl
      obtain ⟨l, h1, h2, h9⟩ := ih (dirMul cfg.maximize f) false (s := { s with alg := s' })
        (by dsimp only; rw [hl, List.length_append]; exact fun i hi => Nat.lt_add_right _ (hw i hi)) (by rw [hev]; exact hu) (fun h => by cases h)
      refine ⟨(false, c) :: l, by rw [h1, hm, List.append_assoc]; rfl, ?_, h9⟩
      unfold AdMinimizer.Runs
      refine Or.inr ⟨hrun, c, l, rfl, hx, hb, ?_⟩
      rw [hv]
      rw [hm] at h2
      exact h2
  | gradient x k ih =>
    have hop : (AdMinimizer.gradient x k).calls.interp lib cfg env ops s =
        (adGradient lib env ops x >>= fun g => (k g).calls.interp lib cfg env ops) s := rfl
    rw [hop]
    obtain ⟨o', c, hg, hi, hb⟩ := hI s.alg.ctl x h.ctl
    set a := env.getFoM s.alg.log c with ha
    set kc : Call V C ℚ := ⟨x, c, a, s.alg.polls, s.alg.ticks⟩ with hkc
    set s1 : AdState V C O ℚ := { s with alg := { s.alg with ctl := o', log := s.alg.log ++ [kc] }, gradAt := s.gradAt ++ [s.alg.log.length] } with hs1
    have hm : s1.marks = s.marks ++ [(true, kc)] := marks_gradient hw rfl rfl
    have hev : s1.evals = s.evals := by unfold AdState.evals; rw [hm, List.filter_append, List.map_append]; simp
    rcases hv : kc.value with _ | f
    · have : ∃ e, adGradient lib env ops x s = (.error e, s1) := by
        unfold adGradient
        rw [hg]
        dsimp only
        unfold Call.value at hv
        rw [hs1, hkc, ha] at *
        rcases hx : env.getFoM s.alg.log c with e | b
        · exact ⟨_, rfl⟩
        · rw [hx] at hv
          dsimp only at hv ⊢
          rw [hv]
          exact ⟨_, rfl⟩
      obtain ⟨e, this⟩ := this
      rw [Prog.bind_error this]
      refine ⟨[(true, kc)], hm, ⟨kc, [], rfl, rfl, hb, ?_⟩, fun h => by cases h⟩
      rw [hv]
    · have : adGradient lib env ops x s = (.ok (lib.grad s1.alg.log x), s1) := by
        unfold adGradient
        rw [hg]
        dsimp only
        unfold Call.value at hv
        rw [hs1, hkc, ha] at *
        rcases hx : env.getFoM s.alg.log c with e | b
        · rw [hx] at hv; cases hv
        · rw [hx] at hv
          dsimp only at hv ⊢
          rw [hv]
      rw [Prog.bind_ok this]
      obtain ⟨l, h1, h2, h9⟩ := ih (lib.grad s1.alg.log x) st (s := s1) (by
          intro i hi
          show i < (s.alg.log ++ [kc]).length
          rw [List.length_append, List.length_singleton]
          rcases List.mem_append.1 hi with hi | hi
          · exact (hw i hi).trans (Nat.lt_succ_self _)
          · rw [List.mem_singleton.1 hi]; exact Nat.lt_succ_self _) (by rw [hev]; exact ⟨hi, h.iter, h.best, h.halted⟩) hst
      refine ⟨(true, kc) :: l, by rw [h1, hm, List.append_assoc]; rfl, ⟨kc, l, rfl, rfl, hb, ?_⟩, h9⟩
      rw [hv]
      rw [hm] at h2
      have e : s.marks.map (·.2) = s.alg.log := by
        unfold AdState.marks
        generalize s.gradAt = g
        rw [List.map_map]
        conv_rhs => rw [← List.zipIdx_map_fst 0 s.alg.log]
        rfl
      rw [e]
      exact h2

end QuOCS

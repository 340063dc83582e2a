/-
Lemmas for C96: the calls of a direct search are the ones the search method asks for.
-/
import Verif.Lemmas.Follow
import Verif.Lemmas.FirstCall
import Verif.Lemmas.Handler

set_option linter.unusedSectionVars false
set_option linter.unusedVariables false

namespace QuOCS

variable {K V C O F : Type} [LE K] [DecidableLE K]
variable [Add F] [Sub F] [Mul F] [Div F] [Neg F] [Zero F] [One F] [NatCast F] [LE F] [LT F] [DecidableLE F]
  [DecidableLT F]
variable {cfg : AlgCfg K F} {env : Env V C F} {ops : CtlOps O V C} {I : O → Prop} {B : V → C → Prop} {α : Type}

/-- the calls are the ones the search asks for; `E`: it may be left before it is done -/
def Strat.Runs (sgn : F → F) (B : V → C → Prop) (E : Prop) : Strat K V F α → List (Call V C F) → Prop
  | .ret _, l => l = []
  | .op (.eval _ _) _, [] => E
  | .op (.eval x _) k, c :: cs => B x c.ctl ∧ match c.value with
    | some f => (k (sgn f)).Runs sgn B E cs
    | none => cs = []
  | .op (.fail _) _, l => l = []
  | .op (.checkNM (.error e) fs n) k, l => l = [] ∨ (k ()).Runs sgn B E l
  | .op o k, l => ∃ r, (k r).Runs sgn B E l

theorem Strat.Runs.halted {sgn : F → F} {E : Prop} (hE : E) (st : Strat K V F α) : st.Runs sgn B E ([] : List (Call V C F)) := by
  induction st with
  | ret a => rfl
  | op o k ih =>
    cases o with
    | eval x it => exact hE
    | fail e => rfl
    | checkNM size fs n =>
      cases size with
      | error e => exact .inl rfl
      | ok z => exact ⟨(), ih ()⟩
    | drift x it v => exact ⟨(0 : F), ih _⟩
    | readConv => exact ⟨true, ih _⟩
    | setConv b => exact ⟨(), ih _⟩
    | callback => exact ⟨true, ih _⟩
    | userStop => exact ⟨(), ih _⟩
    | checkCMA fs n => exact ⟨(), ih _⟩
    | now => exact ⟨0, ih _⟩
    | reason => exact ⟨"", ih _⟩

theorem Underway.inner (hk : cfg.kind ≠ .grape) (hre : cfg.reEval = none)
    (hI : ∀ o x, I o → ∃ o' c, ops.getControls o x = .ok (o', c) ∧ I o' ∧ B x c)
    (x : V) (it : ℕ) {s : AlgState V C O F} (h : Underway cfg env I s) :
    EvalSpec cfg env I B x s (algHandler cfg env ops (.eval x it) s).1 (algHandler cfg env ops (.eval x it) s).2 := by
  have e : (algHandler cfg env ops (.eval x it) : Prog (AlgState V C O F) F) s =
      routineCall cfg env ops x it { s with isRecord := false, stepNumber := 0 } := by
    show (if cfg.kind = .grape then innerGrape cfg env ops x else innerCall cfg env ops x it) s = _
    rw [if_neg hk]
    unfold innerCall
    rw [Prog.modify_bind, hre]
    rw [Prog.bind_apply]
    rcases routineCall cfg env ops x it { s with isRecord := false, stepNumber := 0 } with ⟨_ | _, _⟩ <;> rfl
  rw [e]
  exact (Underway.routine hI x it (s := { s with isRecord := false, stepNumber := 0 }) (fun _ => rfl) ⟨h.ctl, h.iter, h.best, h.halted⟩).congr rfl

/-- same evaluations -/
theorem Underway.of_same {s s' : AlgState V C O F} (h : Underway cfg env I s) (h1 : s'.ctl = s.ctl) (h2 : s'.log = s.log)
    (h3 : s'.bestFoM = s.bestFoM) (h4 : s'.iter = s.iter) (h5 : s'.running = s.running ∨ s'.running = false ∧ ∃ n, env.async n ≠ .none) :
    Underway cfg env I s' := by
  refine ⟨h1 ▸ h.ctl, fun hr => ?_, ?_, fun hr => ?_⟩
  · rw [h4, h2]
    refine h.iter ?_
    rcases h5 with e | e
    · rw [← e]; exact hr
    · rw [e.1] at hr; cases hr
  · rw [h3, h2]; exact h.best
  · rw [h2]
    rcases h5 with e | e
    · exact h.halted (e ▸ hr)
    · exact .inl e.2

theorem poll_underway (hk : cfg.kind ≠ .grape) {s : AlgState V C O F} (h : Underway cfg env I s) :
    ∃ s', poll cfg env s = (.ok (), s') ∧ Underway cfg env I s' ∧ s'.log = s.log := by
  have hd : cfg.hasDsm = true := by simp [AlgCfg.hasDsm, hk]
  rcases ha : env.async s.polls with _ | _ | _
  · exact ⟨{ s with polls := s.polls + 1 }, by unfold poll; rw [ha], h.of_same rfl rfl rfl rfl (.inl rfl), rfl⟩
  · exact ⟨{ s with polls := s.polls + 1, running := false }, by unfold poll; rw [ha], h.of_same rfl rfl rfl rfl (.inr ⟨rfl, _, by rw [ha]; simp⟩), rfl⟩
  · refine ⟨{ s with polls := s.polls + 1, hoReason := "User stopped the optimization", running := false,
                     sc := { s.sc with isConverged := true } }, ?_, h.of_same rfl rfl rfl rfl (.inr ⟨rfl, s.polls, by rw [ha]; simp⟩), rfl⟩
    unfold poll
    rw [ha]
    simp only [hd, if_true, stopWith, Prog.modify_apply]

/-- the other calls of the search method evaluate nothing -/
theorem Underway.other (hk : cfg.kind ≠ .grape) (o : Op K V F) (h1 : ∀ x it, o ≠ .eval x it) (h2 : ∀ x it v, o ≠ .drift x it v)
    {s : AlgState V C O F} (h : Underway cfg env I s) :
    (∃ r s', algHandler cfg env ops o s = (.ok r, s') ∧ Underway cfg env I s' ∧ s'.log = s.log) ∨
    (∃ e s', algHandler cfg env ops o s = (.error e, s') ∧ s'.log = s.log ∧
      ((∃ e, o = .fail e) ∨ ∃ e fs n, o = .checkNM (.error e) fs n)) := by
  cases o with
  | eval x it => exact absurd rfl (h1 x it)
  | drift x it v => exact absurd rfl (h2 x it v)
  | readConv =>
    obtain ⟨s', e, hu, hl⟩ := poll_underway hk h
    exact .inl ⟨_, s', by simp only [algHandler]; rw [Prog.bind_ok e]; rfl, hu, hl⟩
  | callback =>
    obtain ⟨s', e, hu, hl⟩ := poll_underway hk h
    exact .inl ⟨_, s', by simp only [algHandler]; rw [Prog.bind_ok e]; rfl, hu, hl⟩
  | setConv b => exact .inl ⟨_, _, rfl, h.of_same rfl rfl rfl rfl (.inl rfl), rfl⟩
  | userStop => exact .inl ⟨_, _, rfl, h.of_same rfl rfl rfl rfl (.inl rfl), rfl⟩
  | now => exact .inl ⟨_, _, rfl, h.of_same rfl rfl rfl rfl (.inl rfl), rfl⟩
  | reason => exact .inl ⟨_, _, rfl, h.of_same rfl rfl rfl rfl (.inl rfl), rfl⟩
  | fail e => exact .inr ⟨_, _, rfl, rfl, .inl ⟨_, rfl⟩⟩
  | checkCMA fs n => exact .inl ⟨_, _, rfl, h.of_same rfl rfl rfl rfl (.inl rfl), rfl⟩
  | checkNM size fs n =>
    have e : (algHandler cfg env ops (.checkNM size fs n) : Prog (AlgState V C O F) Unit) s =
        (match nmCheck env.sqrt cfg.sc s.sc size fs n (env.clock s.ticks) with
        | .ok sc => (.ok (), { s with ticks := s.ticks + 1, sc := sc })
        | .error e => (.error e, { s with ticks := s.ticks + 1 })) := by
      simp only [algHandler, readClock, Prog.bind_apply, Prog.get, Prog.lift_apply]
      rcases nmCheck env.sqrt cfg.sc s.sc size fs n (env.clock s.ticks) with _ | _ <;> rfl
    rcases hc : nmCheck env.sqrt cfg.sc s.sc size fs n (env.clock s.ticks) with er | sc
    · right
      rw [hc] at e
      refine ⟨er, _, e, rfl, .inr ?_⟩
      cases size with
      | error e' => exact ⟨_, _, _, rfl⟩
      | ok z =>
        exfalso
        unfold nmCheck at hc
        simp only [checkSimplex] at hc
        repeat' first | cases hc | split at hc
    · left
      rw [hc] at e
      exact ⟨(), _, e, h.of_same rfl rfl rfl rfl (.inl rfl), rfl⟩

theorem Strat.runs_of_interp (hk : cfg.kind ≠ .grape) (hre : cfg.reEval = none)
    (hI : ∀ o x, I o → ∃ o' c, ops.getControls o x = .ok (o', c) ∧ I o' ∧ B x c) (st : Strat K V F α) (hd : st.NoDrift)
    {s : AlgState V C O F} (h : Underway cfg env I s) :
    ∃ l, ((st.interp (algHandler cfg env ops)) s).2.log = s.log ++ l ∧
      st.Runs (dirMul cfg.maximize) B (Halted cfg env (s.log ++ l)) l := by
  induction st generalizing s with
  | ret a => exact ⟨[], by simp [Strat.interp, pure, Prog.pure], rfl⟩
  | op o k ih =>
    rw [Strat.interp_op]
    by_cases hev : ∃ x it, o = .eval x it
    · obtain ⟨x, it, rfl⟩ := hev
      have he := h.inner hk hre hI x it
      rcases hr : algHandler cfg env ops (.eval x it) s with ⟨r, s'⟩
      rw [hr] at he
      dsimp only at he
      cases he with
      | none f' s' hl hh hu =>
        rw [Prog.bind_ok hr]
        have := ((Traced.interp (cfg := cfg) (env := env) (ops := ops) (d := true) (k f') (.inl rfl)).frames s').2 hu
        exact ⟨[], by rw [this.1, hl]; simp, by simpa using Strat.Runs.halted (by simpa using hh) _⟩
      | broken e s' hl hh =>
        rw [Prog.bind_error hr]
        exact ⟨[], by simp [hl], by simpa using Strat.Runs.halted (by simpa using hh) _⟩
      | failed e s' k' hl hb hv =>
        rw [Prog.bind_error hr]
        refine ⟨[k'], hl, ?_⟩
        unfold Strat.Runs
        exact ⟨hb, by rw [hv]⟩
      | value f' s' k' hl hb hv hu =>
        rw [Prog.bind_ok hr]
        obtain ⟨l, h1, h2⟩ := ih _ (hd.2 _) hu
        refine ⟨k' :: l, by rw [h1, hl]; simp, ?_⟩
        unfold Strat.Runs
        refine ⟨hb, ?_⟩
        rw [hv]
        rw [hl] at h2
        simpa using h2
    · have hne : ∀ x it, o ≠ .eval x it := fun x it h => hev ⟨x, it, h⟩
      have hnd : ∀ x it v, o ≠ .drift x it v := hd.1
      rcases h.other (ops := ops) hk o hne hnd with ⟨r, s', hr, hu, hl⟩ | ⟨e, s', hr, hl, ho⟩
      · rw [Prog.bind_ok hr]
        obtain ⟨l, h1, h2⟩ := ih r (hd.2 _) hu
        refine ⟨l, by rw [h1, hl], ?_⟩
        rw [hl] at h2
        cases o with
        | eval x it => exact absurd rfl (hne x it)
        | fail e => cases r
        | checkNM size fs n =>
          cases size with
          | error e => exact .inr h2
          | ok z => exact ⟨_, h2⟩
        | _ => exact ⟨_, h2⟩
      · rw [Prog.bind_error hr]
        refine ⟨[], by simp [hl], ?_⟩
        rcases ho with ⟨e, rfl⟩ | ⟨e, fs, n, rfl⟩
        · rfl
        · exact .inl rfl

/-- the calls `l` belong to the calls and answers `evs` of the search: the first evaluations got the figures of merit of the calls; after the
last call, a further evaluation that raised, or evaluations that made no call -/
def Strat.Gives (P : List (Ev K V F) → Prop) (sgn : F → F) (B : V → C → Prop) (st : Strat K V F α) (l : List (Call V C F)) : Prop :=
  ∃ evs m' e1 e2 l1 tail, Plays st evs m' ∧ P evs ∧ l = l1 ++ tail ∧ evals evs = e1 ++ e2 ∧
    List.Forall₂ (fun (e : V × F) (k : Call V C F) => B e.1 k.ctl ∧ ∃ f, k.value = some f ∧ e.2 = sgn f) e1 l1 ∧
    (tail = [] ∨ e2 = [] ∧ ∃ x it k c, m' = .op (.eval x it) k ∧ tail = [c] ∧ B x c.ctl ∧ c.value = none)

theorem Strat.gives_of_interp (hk : cfg.kind ≠ .grape) (hre : cfg.reEval = none)
    (hI : ∀ o x, I o → ∃ o' c, ops.getControls o x = .ok (o', c) ∧ I o' ∧ B x c) (st : Strat K V F α) (hd : st.NoDrift)
    {s : AlgState V C O F} (h : Underway cfg env I s) :
    ∃ l, ((st.interp (algHandler cfg env ops)) s).2.log = s.log ++ l ∧
      st.Gives (fun evs => ∃ s1, Handled (algHandler cfg env ops) s evs s1) (dirMul cfg.maximize) B l := by
  induction st generalizing s with
  | ret a => exact ⟨[], by simp [Strat.interp, pure, Prog.pure], [], .ret a, [], [], [], [], .nil _, ⟨s, rfl⟩, rfl, rfl, .nil, .inl rfl⟩
  | op o k ih =>
    rw [Strat.interp_op]
    by_cases hev : ∃ x it, o = .eval x it
    · obtain ⟨x, it, rfl⟩ := hev
      have he := h.inner hk hre hI x it
      rcases hr : algHandler cfg env ops (.eval x it) s with ⟨r, s'⟩
      rw [hr] at he
      dsimp only at he
      cases he with
      | none f' s' hl hh hu =>
        rw [Prog.bind_ok hr]
        have := ((Traced.interp (cfg := cfg) (env := env) (ops := ops) (d := true) (k f') (.inl rfl)).frames s').2 hu
        obtain ⟨evs, m', s1, hp, hh, -⟩ := interp_plays (algHandler cfg env ops) (k f') s'
        exact ⟨[], by rw [this.1, hl]; simp, ⟨.eval x it, f'⟩ :: evs, m', [], evals (⟨.eval x it, f'⟩ :: evs), [], [], .cons _ _ _ _ _ hp,
          ⟨s1, s', hr, hh⟩, rfl, rfl, .nil, .inl rfl⟩
      | broken e s' hl hh =>
        rw [Prog.bind_error hr]
        exact ⟨[], by simp [hl], [], _, [], [], [], [], .nil _, ⟨s, rfl⟩, rfl, rfl, .nil, .inl rfl⟩
      | failed e s' k' hl hb hv =>
        rw [Prog.bind_error hr]
        exact ⟨[k'], hl, [], _, [], [], [], [k'], .nil _, ⟨s, rfl⟩, rfl, rfl, .nil, .inr ⟨rfl, x, it, k, k', rfl, rfl, hb, hv⟩⟩
      | value f' s' k' hl hb hv hu =>
        rw [Prog.bind_ok hr]
        obtain ⟨l, h1, evs, m', e1, e2, l1, tail, g1, ⟨s1, g2⟩, g3, g4, g5, g6⟩ := ih _ (hd.2 _) hu
        refine ⟨k' :: l, by rw [h1, hl]; simp, ⟨.eval x it, dirMul cfg.maximize f'⟩ :: evs, m', (x, dirMul cfg.maximize f') :: e1, e2, k' :: l1, tail,
          .cons _ _ _ _ _ g1, ⟨s1, s', hr, g2⟩, by rw [g3]; rfl, ?_, .cons ⟨hb, f', hv, rfl⟩ g5, g6⟩
        show (x, dirMul cfg.maximize f') :: evals evs = _
        rw [g4]; rfl
    · have hne : ∀ x it, o ≠ .eval x it := fun x it h => hev ⟨x, it, h⟩
      have hnd : ∀ x it v, o ≠ .drift x it v := hd.1
      rcases h.other (ops := ops) hk o hne hnd with ⟨r, s', hr, hu, hl⟩ | ⟨e, s', hr, hl, ho⟩
      · rw [Prog.bind_ok hr]
        obtain ⟨l, h1, evs, m', e1, e2, l1, tail, g1, ⟨s1, g2⟩, g3, g4, g5, g6⟩ := ih r (hd.2 _) hu
        refine ⟨l, by rw [h1, hl], ⟨o, r⟩ :: evs, m', e1, e2, l1, tail, .cons _ _ _ _ _ g1, ⟨s1, s', hr, g2⟩, g3, ?_, g5, g6⟩
        rw [← g4]
        cases o with
        | eval x it => exact absurd rfl (hne x it)
        | _ => rfl
      · rw [Prog.bind_error hr]
        exact ⟨[], by simp [hl], [], _, [], [], [], [], .nil _, ⟨s, rfl⟩, rfl, rfl, .nil, .inl rfl⟩

end QuOCS

/-
Lemmas for C112: the calls made during a search are its evaluations.
-/
import Verif.Lemmas.FollowSearch
import Verif.Lemmas.Stages

set_option linter.unusedSectionVars false
set_option linter.unusedVariables false

namespace QuOCS

variable {K V C O F : Type} [LE K] [DecidableLE K]
variable [Add F] [Sub F] [Mul F] [Div F] [Neg F] [Zero F] [One F] [NatCast F] [LE F] [LT F] [DecidableLE F]
  [DecidableLT F]
variable {cfg : AlgCfg K F} {env : Env V C F} {ops : CtlOps O V C} {α : Type}

/-- the calls `l` are made in a search with the calls and answers `evs`: the first evaluations are at the vectors of the calls and got their
figures of merit; after the last call, a further evaluation that raised, or evaluations that made no call -/
def Strat.Made (P : List (Ev K V F) → Prop) (sgn : F → F) (st : Strat K V F α) (l : List (Call V C F)) : Prop :=
  ∃ evs m' e1 e2 l1 tail, Plays st evs m' ∧ P evs ∧ l = l1 ++ tail ∧ evals evs = e1 ++ e2 ∧
    List.Forall₂ (fun (e : V × F) (k : Call V C F) => e.1 = k.vec ∧ ∃ f, k.value = some f ∧ e.2 = sgn f) e1 l1 ∧
    (tail = [] ∨ e2 = [] ∧ ∃ (it : ℕ) (k : F → Strat K V F α) (c : Call V C F), m' = .op (.eval c.vec it) k ∧ tail = [c] ∧ c.value = none)

/-- an evaluation: no call and the run is stopped, or it ends with an error; or a call -/
theorem eval_cases (hk : cfg.kind ≠ .grape) (hre : cfg.reEval = none) (x : V) (it : ℕ) (s : AlgState V C O F) :
    (∃ f s', algHandler cfg env ops (.eval x it) s = (.ok f, s') ∧ s'.running = false ∧ s'.log = s.log) ∨
    (∃ e s', algHandler cfg env ops (.eval x it) s = (.error e, s') ∧ s'.log = s.log) ∨
    (∃ e s' c, algHandler cfg env ops (.eval x it) s = (.error e, s') ∧ s'.log = s.log ++ [c] ∧ c.vec = x ∧ c.value = none) ∨
    (∃ f s' c, algHandler cfg env ops (.eval x it) s = (.ok (dirMul cfg.maximize f), s') ∧ s'.log = s.log ++ [c] ∧ c.vec = x ∧ c.value = some f) := by
  have e : (algHandler cfg env ops (.eval x it) : Prog (AlgState V C O F) F) s =
      routineCall cfg env ops x it { s with isRecord := false, stepNumber := 0 } := by
    show (if cfg.kind = .grape then innerGrape cfg env ops x else innerCall cfg env ops x it) s = _
    rw [if_neg hk]
    unfold innerCall
    rw [Prog.modify_bind, hre]
    rw [Prog.bind_apply]
    rcases routineCall cfg env ops x it { s with isRecord := false, stepNumber := 0 } with ⟨_ | _, _⟩ <;> rfl
  rw [e]
  have hs := routineCall_spec (cfg := cfg) (env := env) (ops := ops) x it { s with isRecord := false, stepNumber := 0 }
  generalize routineCall cfg env ops x it { s with isRecord := false, stepNumber := 0 } = q at hs
  obtain ⟨r, s'⟩ := q
  dsimp only at hs
  cases hs with
  | stopped s1 q hr => exact .inl ⟨_, _, rfl, hr, q.log⟩
  | sigint s1 r e q hk => exact .inr (.inl ⟨_, _, rfl, q.log⟩)
  | noControls s1 e q hr hi hg => exact .inr (.inl ⟨_, _, rfl, q.log⟩)
  | window s1 o c s2 q hr hi hg q2 hr2 ha => exact .inl ⟨_, _, rfl, hr2, q2.log.trans q.log⟩
  | windowSigint s1 o c s2 r e q hr hi hg q2 hk => exact .inr (.inl ⟨_, _, rfl, q2.log.trans q.log⟩)
  | measured s1 o c s2 q hr hi hgoal ht hg q2 hr2 =>
    have hl : s2.log = s.log := q2.log.trans q.log
    rcases ha : env.getFoM s2.log c with e | a
    · rw [measure_raised x c s2 e ha]
      exact .inr (.inr (.inl ⟨_, _, ⟨x, c, .error e, s2.polls, s2.ticks⟩, rfl, by rw [← hl], rfl, rfl⟩))
    · rcases hf : a.fom with _ | f
      · rw [measure_noValue x c s2 a ha hf]
        exact .inr (.inr (.inl ⟨_, _, ⟨x, c, .ok a, s2.polls, s2.ticks⟩, rfl, by rw [← hl], rfl, hf⟩))
      · obtain ⟨fl, il, sc', hm⟩ := measure_answered (cfg := cfg) x c s2 a f ha hf
        rw [hm]
        exact .inr (.inr (.inr ⟨f, _, ⟨x, c, .ok a, s2.polls, s2.ticks⟩, rfl, by rw [← hl], rfl, hf⟩))

theorem poll_log (s : AlgState V C O F) : (poll cfg env s).2.log = s.log := by
  rcases poll_cases (cfg := cfg) (env := env) s with ⟨-, q⟩ | ⟨-, e, h⟩
  · exact q.log
  · rw [h]

/-- the other calls of a search evaluate nothing -/
theorem other_log (o : Op K V F) (h1 : ∀ x it, o ≠ .eval x it) (h2 : ∀ x it v, o ≠ .drift x it v) (s : AlgState V C O F) :
    (algHandler cfg env ops o s).2.log = s.log := by
  cases o with
  | eval x it => exact absurd rfl (h1 x it)
  | drift x it v => exact absurd rfl (h2 x it v)
  | readConv =>
    have := poll_log (cfg := cfg) (env := env) s
    simp only [algHandler, Prog.bind_apply]
    rcases hp : poll cfg env s with ⟨_ | _, s'⟩ <;> rw [hp] at this <;> exact this
  | callback =>
    have := poll_log (cfg := cfg) (env := env) s
    simp only [algHandler, Prog.bind_apply]
    rcases hp : poll cfg env s with ⟨_ | _, s'⟩ <;> rw [hp] at this <;> exact this
  | checkNM size fs n =>
    simp only [algHandler, readClock, Prog.bind_apply, Prog.get, Prog.lift_apply]
    rcases nmCheck env.sqrt cfg.sc s.sc size fs n (env.clock s.ticks) with _ | _ <;> rfl
  | _ => rfl

theorem Strat.made_of_interp (hk : cfg.kind ≠ .grape) (hre : cfg.reEval = none) (st : Strat K V F α) (hd : st.NoDrift)
    (s : AlgState V C O F) :
    ∃ l, ((st.interp (algHandler cfg env ops)) s).2.log = s.log ++ l ∧
      st.Made (fun evs => ∃ s1, Handled (algHandler cfg env ops) s evs s1) (dirMul cfg.maximize) l := by
  induction st generalizing s with
  | ret a => exact ⟨[], by simp [Strat.interp, pure, Prog.pure], [], .ret a, [], [], [], [], .nil _, ⟨s, rfl⟩, rfl, rfl, .nil, .inl rfl⟩
  | op o k ih =>
    rw [Strat.interp_op]
    by_cases hev : ∃ x it, o = .eval x it
    · obtain ⟨x, it, rfl⟩ := hev
      rcases eval_cases (ops := ops) (env := env) hk hre x it s with ⟨f, s', hr, hu, hl⟩ | ⟨e, s', hr, hl⟩ | ⟨e, s', c, hr, hl, rfl, hv⟩ | ⟨f, s', c, hr, hl, rfl, hv⟩
      · rw [Prog.bind_ok hr]
        have := ((Traced.interp (cfg := cfg) (env := env) (ops := ops) (d := true) (k f) (.inl rfl)).frames s').2 hu
        obtain ⟨evs, m', s1, hp, hh, -⟩ := interp_plays (algHandler cfg env ops) (k f) s'
        exact ⟨[], by rw [this.1, hl]; simp, ⟨.eval x it, f⟩ :: evs, m', [], evals (⟨.eval x it, f⟩ :: evs), [], [], .cons _ _ _ _ _ hp,
          ⟨s1, s', hr, hh⟩, rfl, rfl, .nil, .inl rfl⟩
      · rw [Prog.bind_error hr]
        exact ⟨[], by simp [hl], [], _, [], [], [], [], .nil _, ⟨s, rfl⟩, rfl, rfl, .nil, .inl rfl⟩
      · rw [Prog.bind_error hr]
        exact ⟨[c], hl, [], _, [], [], [], [c], .nil _, ⟨s, rfl⟩, rfl, rfl, .nil, .inr ⟨rfl, it, k, c, rfl, rfl, hv⟩⟩
      · rw [Prog.bind_ok hr]
        obtain ⟨l, h1, evs, m', e1, e2, l1, tail, g1, ⟨s1, g2⟩, g3, g4, g5, g6⟩ := ih _ (hd.2 _) s'
        refine ⟨c :: l, by rw [h1, hl]; simp, ⟨.eval c.vec it, dirMul cfg.maximize f⟩ :: evs, m', (c.vec, dirMul cfg.maximize f) :: e1, e2, c :: l1, tail,
          .cons _ _ _ _ _ g1, ⟨s1, s', hr, g2⟩, by rw [g3]; rfl, ?_, .cons ⟨rfl, f, hv, rfl⟩ g5, g6⟩
        show (c.vec, dirMul cfg.maximize f) :: evals evs = _
        rw [g4]; rfl
    · have hne : ∀ x it, o ≠ .eval x it := fun x it h => hev ⟨x, it, h⟩
      have hl := other_log (cfg := cfg) (env := env) (ops := ops) o hne hd.1 s
      rcases hr : algHandler cfg env ops o s with ⟨e | r, s'⟩
      · rw [hr] at hl
        rw [Prog.bind_error hr]
        exact ⟨[], by simpa using hl, [], _, [], [], [], [], .nil _, ⟨s, rfl⟩, rfl, rfl, .nil, .inl rfl⟩
      · rw [hr] at hl
        dsimp only at hl
        rw [Prog.bind_ok hr]
        obtain ⟨l, h1, evs, m', e1, e2, l1, tail, g1, ⟨s1, g2⟩, g3, g4, g5, g6⟩ := ih r (hd.2 _) s'
        refine ⟨l, by rw [h1, hl], ⟨o, r⟩ :: evs, m', e1, e2, l1, tail, .cons _ _ _ _ _ g1, ⟨s1, s', hr, g2⟩, g3, ?_, g5, g6⟩
        rw [← g4]
        cases o with
        | eval x it => exact absurd rfl (hne x it)
        | _ => rfl

/-- the calls of a search, given what it starts with -/
def MadeBy (cfg : AlgCfg K F) (ops : CtlOps O V C) (dsm : Dsm K V F) (k : ℕ) (o : O) (l : List (Call V C F)) : Prop :=
  ∀ x0 sg sim, ops.mean o = .ok x0 → ops.sigma o = .ok sg → ops.simplex k x0 sg = .ok sim →
    (dsm k x0 sim sg).Made (StopLaws cfg.sc.maxEval) (dirMul cfg.maximize) l

theorem Strat.Made.mono {P P' : List (Ev K V F) → Prop} {sgn : F → F} {st : Strat K V F α} {l : List (Call V C F)} (h : st.Made P sgn l)
    (hP : ∀ e, P e → P' e) : st.Made P' sgn l := by
  obtain ⟨evs, m', e1, e2, l1, tail, g1, g2, g3⟩ := h
  exact ⟨evs, m', e1, e2, l1, tail, g1, hP _ g2, g3⟩

theorem searches_made (hk : cfg.kind ≠ .grape) (hre : cfg.reEval = none) (dsm : Dsm K V F) (hdr : NoDriftRun cfg dsm) :
    Searches cfg env ops dsm (MadeBy cfg ops dsm) := by
  intro s
  unfold dsmBuild
  rw [Prog.get_bind]
  rcases hm : ops.mean s.ctl with e | x0
  · rw [Prog.bind_apply, Prog.lift_apply]
    exact ⟨[], by simp, fun x0 _ _ h => by rw [hm] at h; cases h⟩
  rw [Prog.bind_ok (show Prog.lift (.ok x0) s = (.ok x0, s) from rfl)]
  rcases hsg : ops.sigma s.ctl with e | sg
  · rw [Prog.bind_apply, Prog.lift_apply]
    exact ⟨[], by simp, fun _ _ _ _ h => by rw [hsg] at h; cases h⟩
  rw [Prog.bind_ok (show Prog.lift (.ok sg) s = (.ok sg, s) from rfl)]
  rcases hsi : ops.simplex s.superIt x0 sg with e | sim
  · rw [Prog.bind_apply, Prog.lift_apply]
    exact ⟨[], by simp, fun _ _ _ h h' h'' => by rw [hm] at h; rw [hsg] at h'; cases h; cases h'; rw [hsi] at h''; cases h''⟩
  rw [Prog.bind_ok (show Prog.lift (.ok sim) s = (.ok sim, s) from rfl), Prog.modify_bind]
  obtain ⟨l, h1, h2⟩ := Strat.made_of_interp (env := env) (ops := ops) hk hre (dsm s.superIt x0 sim sg) (hdr.2 _ _ _ _) { s with bestXX := some x0 }
  refine ⟨l, ?_, fun _ _ _ h h' h'' => ?_⟩
  · rw [Prog.bind_apply]
    revert h1
    generalize (dsm s.superIt x0 sim sg).interp (algHandler cfg env ops) { s with bestXX := some x0 } = q
    rcases q with ⟨_ | _, s'⟩ <;> exact fun h1 => h1
  · rw [hm] at h; rw [hsg] at h'; cases h; cases h'; rw [hsi] at h''; cases h''
    exact h2.mono fun e ⟨s1, h⟩ => h.stopLaws

/-! ### Single calls -/

/-- an evaluation is visible in the calls of the search -/
theorem evals_split {K V F : Type} {evs : List (Ev K V F)} {k : ℕ} {x : V} {f : F} (h : (evals evs)[k]? = some (x, f)) :
    ∃ pre it post, evs = pre ++ ⟨.eval x it, f⟩ :: post ∧ evals pre = (evals evs).take k := by
  induction evs generalizing k with
  | nil => simp [evals] at h
  | cons e evs ih =>
    obtain ⟨o, r⟩ := e
    have other : Ev.evaluated (⟨o, r⟩ : Ev K V F) = none → ∃ pre it post, (⟨o, r⟩ : Ev K V F) :: evs = pre ++ ⟨.eval x it, f⟩ :: post ∧
        evals pre = (evals (⟨o, r⟩ :: evs)).take k := by
      intro hn
      have e1 : evals (⟨o, r⟩ :: evs) = evals evs := by simp [evals, hn]
      rw [e1] at h ⊢
      obtain ⟨pre, it, post, rfl, h2⟩ := ih h
      exact ⟨⟨o, r⟩ :: pre, it, post, rfl, by rw [← h2]; simp [evals, hn]⟩
    cases o with
    | eval y it =>
      have e1 : evals ((⟨.eval y it, r⟩ : Ev K V F) :: evs) = (y, r) :: evals evs := rfl
      rw [e1] at h ⊢
      cases k with
      | zero =>
        simp only [List.getElem?_cons_zero, Option.some.injEq, Prod.mk.injEq] at h
        obtain ⟨rfl, rfl⟩ := h
        exact ⟨[], it, evs, rfl, by simp [evals]⟩
      | succ k =>
        rw [List.getElem?_cons_succ] at h
        obtain ⟨pre, jt, post, rfl, h2⟩ := ih h
        exact ⟨⟨.eval y it, r⟩ :: pre, jt, post, rfl, by rw [List.take_succ_cons, ← h2]; rfl⟩
    | _ => exact other rfl

theorem Plays.split {m m2 : Strat K V F α} {a b : List (Ev K V F)} (h : Plays m (a ++ b) m2) : ∃ m1, Plays m a m1 ∧ Plays m1 b m2 := by
  induction a generalizing m with
  | nil => exact ⟨m, .nil _, h⟩
  | cons e a ih =>
    cases h with
    | cons o k r evs m' h =>
      obtain ⟨m1, h1, h2⟩ := ih h
      exact ⟨m1, .cons _ _ _ _ _ h1, h2⟩

theorem Plays.append {m m1 m2 : Strat K V F α} {a b : List (Ev K V F)} (h : Plays m a m1) (h' : Plays m1 b m2) : Plays m (a ++ b) m2 := by
  induction h with
  | nil => exact h'
  | cons o k r evs m' h ih => exact .cons _ _ _ _ _ (ih h')

/-- each call is an evaluation of the search; the evaluations before it are the calls before it -/
theorem Strat.Made.point {P : List (Ev K V F) → Prop} {sgn : F → F} {st : Strat K V F α} {l : List (Call V C F)} (h : st.Made P sgn l)
    (hP : ∀ pre e, P (pre ++ e) → P pre) {pre : List (Call V C F)} {c : Call V C F} {post : List (Call V C F)} (hl : l = pre ++ c :: post) :
    (c.value = none → post = []) ∧ ∃ (evs : List (Ev K V F)) (it : ℕ) (f : F) (m' : Strat K V F α),
      List.Forall₂ (fun (e : V × F) (k : Call V C F) => e.1 = k.vec ∧ ∃ f, k.value = some f ∧ e.2 = sgn f) (evals evs) pre ∧
      P evs ∧ Plays st (evs ++ [⟨.eval c.vec it, f⟩]) m' := by
  obtain ⟨evs, m', e1, e2, l1, tail, g1, g2, g3, g4, g5, g6⟩ := h
  have hlen := g5.length_eq
  rw [hl] at g3
  by_cases hk : pre.length < l1.length
  · have hc : l1[pre.length]? = some c := by
      have := congrArg (fun l => l[pre.length]?) g3
      simp only [List.getElem?_append_right (le_refl pre.length), Nat.sub_self, List.getElem?_cons_zero] at this
      rw [List.getElem?_append_left hk] at this
      exact this.symm
    have hke : pre.length < e1.length := by rw [hlen]; exact hk
    obtain ⟨b1, f, b2, b3⟩ : e1[pre.length].1 = c.vec ∧ ∃ f, c.value = some f ∧ e1[pre.length].2 = sgn f := by
      have := (List.forall₂_iff_get.1 g5).2 pre.length hke hk
      simp only [List.get_eq_getElem] at this
      rw [(List.getElem?_eq_some_iff.1 hc).2] at this
      exact this
    refine ⟨fun hn => (by rw [hn] at b2; cases b2), ?_⟩
    have hk' : (evals evs)[pre.length]? = some (c.vec, e1[pre.length].2) := by
      rw [g4, List.getElem?_append_left hke, List.getElem?_eq_getElem hke, ← b1]
    obtain ⟨ev1, it, ev2, rfl, h2⟩ := evals_split hk'
    obtain ⟨m1, p1, p2⟩ := Plays.split (a := ev1 ++ [⟨.eval c.vec it, e1[pre.length].2⟩]) (b := ev2) (by simpa using g1)
    refine ⟨ev1, it, e1[pre.length].2, m1, ?_, hP _ _ g2, p1⟩
    rw [h2, g4, List.take_append_of_le_length hke.le]
    have hpre : pre = l1.take pre.length := by
      have := congrArg (List.take pre.length) g3
      rw [List.take_left, List.take_append_of_le_length hk.le] at this
      exact this
    conv => rhs; rw [hpre]
    exact List.forall₂_take _ g5
  · have hl' : (pre ++ c :: post).length = (l1 ++ tail).length := congrArg _ g3
    rcases g6 with rfl | ⟨rfl, it, k, c', rfl, rfl, hv⟩
    · simp only [List.length_append, List.length_cons, List.length_nil] at hl'
      omega
    · simp only [List.length_append, List.length_cons, List.length_nil] at hl'
      have hp : post = [] := List.length_eq_zero_iff.1 (by omega)
      subst hp
      obtain ⟨rfl, hc⟩ := List.append_inj g3 (by omega)
      cases hc
      refine ⟨fun _ => rfl, evs, it, sgn 0, k (sgn 0), ?_, g2, g1.append (.cons _ _ _ _ _ (.nil _))⟩
      rw [g4, List.append_nil]
      exact g5

end QuOCS

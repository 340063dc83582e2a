/-
Which controls a super-iteration tries first.
-/
import Verif.Lemmas.Reproduce
import Verif.Lemmas.Run
import Verif.Model.NelderMead

set_option linter.unusedSectionVars false
set_option linter.unusedVariables false

namespace QuOCS

section
variable {K V C O F : Type} [LE K] [DecidableLE K]
variable [Add F] [Sub F] [Mul F] [Div F] [Neg F] [Zero F] [One F] [NatCast F] [LE F] [LT F] [DecidableLE F]
  [DecidableLT F]
variable {cfg : AlgCfg K F} {env : Env V C F} {ops : CtlOps O V C} {I : O → Prop} {α β : Type}

/-- The calls made so far are kept, and a stopped run makes no more calls. -/
def Frames (m : Prog (AlgState V C O F) α) : Prop :=
  ∀ s, s.log <+: (m s).2.log ∧ (s.running = false → (m s).2.log = s.log ∧ (m s).2.running = false)

theorem Traced.frames {d : Bool} {m : Prog (AlgState V C O F) α} (h : Traced cfg env ops d m) : Frames m := by
  intro s
  refine ⟨h.inv (fun s' => s.log <+: s'.log) (fun b s1 s2 a hs => ?_) s (List.prefix_refl _), fun hr =>
    h.inv (fun s' => s'.log = s.log ∧ s'.running = false) (fun b s1 s2 a hs => ?_) s ⟨rfl, hr⟩⟩
  · cases a.eff with
    | still hl _ _ hr _ => rw [hl]; exact hs
    | counted hl _ _ hr _ _ => rw [hl]; exact hs
    | measured c hl _ _ hr _ _ _ _ _ _ => rw [hl]; exact hs.trans (List.prefix_append _ _)
  · cases a.eff with
    | still hl _ _ hr _ => exact ⟨hl.trans hs.1, hr hs.2⟩
    | counted hl _ _ hr _ _ => rw [hs.2] at hr; cases hr
    | measured c hl _ _ hr _ _ _ _ _ _ => rw [hs.2] at hr; cases hr

theorem Frames.bind {m : Prog (AlgState V C O F) α} {f : α → Prog (AlgState V C O F) β} (hm : Frames m)
    (hf : ∀ a, Frames (f a)) : Frames (m >>= f) := by
  intro s
  rw [Prog.bind_apply]
  have h1 := hm s
  rcases hs : m s with ⟨e | a, s'⟩
  · rw [hs] at h1; exact h1
  · rw [hs] at h1
    have h2 := hf a s'
    exact ⟨h1.1.trans h2.1, fun hr => ⟨(h2.2 (h1.2 hr).2).1.trans (h1.2 hr).1, (h2.2 (h1.2 hr).2).2⟩⟩

theorem Frames.modify {f : AlgState V C O F → AlgState V C O F} (h : ∀ s, (f s).log = s.log ∧ (f s).running = s.running) :
    Frames (Prog.modify f) := fun s =>
  ⟨by rw [Prog.modify_apply, (h s).1], fun hr => ⟨(h s).1, (h s).2.trans hr⟩⟩

/-- Since the log was `l0`: no call, and the run is stopped or `J` holds; or the first call used the controls `c`. -/
def Begin (l0 : List (Call V C F)) (c : C) (J : AlgState V C O F → Prop) (s : AlgState V C O F) : Prop :=
  (s.log = l0 ∧ (s.running = false ∨ J s)) ∨ ∃ a rest, s.log = l0 ++ a :: rest ∧ a.ctl = c

theorem Begin.imp {l0 : List (Call V C F)} {c : C} {J J' : AlgState V C O F → Prop} {s : AlgState V C O F}
    (h : Begin l0 c J s) (hJ : J s → J' s) : Begin l0 c J' s :=
  Or.imp (fun h => ⟨h.1, h.2.imp_right hJ⟩) id h

/-- From `J` (and no call yet) the program leads to `J'`, or the first call uses `c`. -/
structure Opens (c : C) (J J' : AlgState V C O F → Prop) (m : Prog (AlgState V C O F) α) : Prop where
  frames : Frames m
  step : ∀ s, J s → Begin s.log c (fun s' => isOk (m s).1 = true → J' s') (m s).2

variable {c : C} {J J' J'' : AlgState V C O F → Prop}

theorem Opens.bind {m : Prog (AlgState V C O F) α} {f : α → Prog (AlgState V C O F) β} (hm : Opens c J J' m)
    (hf : ∀ a, Opens c J' J'' (f a)) : Opens c J J'' (m >>= f) := by
  refine ⟨hm.frames.bind fun a => (hf a).frames, fun s hs => ?_⟩
  have h1 := hm.step s hs
  rw [Prog.bind_apply]
  rcases he : m s with ⟨e | a, s'⟩
  · rw [he] at h1
    exact h1.imp fun _ h => by cases h
  · rw [he] at h1
    have hfr := (hf a).frames s'
    rcases h1 with ⟨hl, hr | hJ⟩ | ⟨x, rest, hl, hx⟩
    · exact .inl ⟨(hfr.2 hr).1.trans hl, .inl (hfr.2 hr).2⟩
    · have h2 := (hf a).step s' (hJ rfl)
      dsimp only at hl
      rw [hl] at h2
      exact h2
    · obtain ⟨more, hmore⟩ := hfr.1
      exact .inr ⟨x, rest ++ more, by rw [← hmore, hl]; simp, hx⟩

/-- A program without calls. -/
theorem Opens.silent {m : Prog (AlgState V C O F) α} (hm : Frames m)
    (h : ∀ s, J s → (m s).2.log = s.log ∧ (isOk (m s).1 = true → J' (m s).2)) : Opens c J J' m :=
  ⟨hm, fun s hs => .inl ⟨(h s hs).1, .inr (h s hs).2⟩⟩

theorem Frames.get : Frames (Prog.get : Prog (AlgState V C O F) _) := fun s => ⟨List.prefix_refl _, fun h => ⟨rfl, h⟩⟩
theorem Frames.lift (x : Py α) : Frames (Prog.lift x : Prog (AlgState V C O F) α) := fun s =>
  ⟨List.prefix_refl _, fun h => ⟨rfl, h⟩⟩

/-- the object shows `c` at the vector `x` -/
def At (ops : CtlOps O V C) (I : O → Prop) (x : V) (c : C) (s : AlgState V C O F) : Prop := I s.ctl ∧ Shows ops s.ctl x c
/-- the object shows `c` at its mean -/
def AtM (ops : CtlOps O V C) (I : O → Prop) (c : C) (s : AlgState V C O F) : Prop := I s.ctl ∧ ShowsMean ops s.ctl c

/-- A call at the vector `x` uses the controls shown there. -/
theorem routine_opens {x : V} {it : ℕ} (hfr : Frames (routineCall cfg env ops x it)) :
    Opens c (At ops I x c) (fun _ => False) (routineCall cfg env ops x it) := by
  refine ⟨hfr, fun s hs => ?_⟩
  have hsh : (ops.getControls s.ctl x).map Prod.snd = .ok c := hs.2
  have h := routineCall_spec (cfg := cfg) (env := env) (ops := ops) x it s
  generalize routineCall cfg env ops x it s = rs at h
  obtain ⟨r, s'⟩ := rs
  dsimp only at h ⊢
  cases h with
  | stopped s1 q hr => exact .inl ⟨q.log, .inl hr⟩
  | sigint s1 r e q hk => exact .inl ⟨q.log, .inr fun h => by cases h⟩
  | noControls s1 e q hr hi h => exact .inl ⟨q.log, .inr fun h => by cases h⟩
  | window s1 o c s2 q hr hi h q2 hr2 ha => exact .inl ⟨q2.log.trans q.log, .inl hr2⟩
  | windowSigint s1 o c s2 r e q hr hi h q2 hk => exact .inl ⟨q2.log.trans q.log, .inr fun h => by cases h⟩
  | measured s1 o c' s2 q hr hi hg ht h q2 hr2 =>
    right
    have hlog : s2.log = s.log := q2.log.trans q.log
    have hc : c' = c := by
      rw [h] at hsh
      simpa [Except.map] using hsh
    subst hc
    rcases ha : env.getFoM s2.log c' with e | a
    · rw [measure_raised x c' s2 e ha]
      exact ⟨_, [], by rw [← hlog], rfl⟩
    · rcases hf : a.fom with _ | f
      · rw [measure_noValue x c' s2 a ha hf]
        exact ⟨_, [], by rw [← hlog], rfl⟩
      · obtain ⟨fl, il, sc', hm⟩ := measure_answered (cfg := cfg) x c' s2 a f ha hf
        rw [hm]
        exact ⟨_, [], by rw [← hlog], rfl⟩

theorem innerCall_opens (hk : cfg.kind ≠ .grape) (x : V) (it : ℕ) :
    Opens c (At ops I x c) (fun _ => False) (innerCall cfg env ops x it) := by
  refine ⟨(Traced.innerCall (d := true) hk x it).frames, ?_⟩
  have hroutine : Frames (routineCall cfg env ops x it) := by
    intro s
    have h := (routineCall_spec (cfg := cfg) (env := env) (ops := ops) x it s).eff
    cases h with
    | still hl _ _ hr _ => exact ⟨by rw [hl], fun h => ⟨hl, hr h⟩⟩
    | counted hl _ _ hr _ _ => exact ⟨by rw [hl], fun h => by rw [hr] at h; cases h⟩
    | measured c hl _ _ hr _ _ _ _ _ _ => exact ⟨by rw [hl]; exact List.prefix_append _ _, fun h => by rw [hr] at h; cases h⟩
  have hmain : Opens c (At ops I x c) (fun _ => False) (innerCall cfg env ops x it) := by
    unfold innerCall
    refine .bind (J' := At ops I x c) (.silent (.modify fun s => ⟨rfl, rfl⟩) fun s hs => ⟨rfl, fun _ => hs⟩) fun _ => ?_
    refine .bind (routine_opens hroutine) fun f => ?_
    refine ⟨?_, fun s h => h.elim⟩
    rcases hre : cfg.reEval with _ | steps
    · exact Frames.lift (.ok f)
    · have h : cfg.reEval ≠ none := by rw [hre]; simp
      refine Traced.frames (cfg := cfg) (env := env) (ops := ops) (d := true) ?_
      refine .bind .get fun s => .bind (.modify fun s => ?_) fun _ => .bind (.storeTest hk h 0 f) fun _ => ?_
      · exact .tests true s _ _ s.stepNumber hk h (by simp) (by simp)
      · rcases (if s.iter = 1 then [cfg.half] else steps).getLast? with _ | last
        · exact .raise _
        · exact .reEvalLoop hk h x it last _ 0
  exact hmain.step

/-- The first evaluation the search asks for (if it does not fail before) is at `x`. -/
inductive Strat.StartsAt (x : V) : Strat K V F α → Prop
  | eval (it : ℕ) (k) : StartsAt x (.op (.eval x it) k)
  | fail (e : PyErr) (k) : StartsAt x (.op (.fail e) k)
  | setConv (b : Bool) (k) (h : ∀ r, StartsAt x (k r)) : StartsAt x (.op (.setConv b) k)
  | now (k) (h : ∀ r, StartsAt x (k r)) : StartsAt x (.op .now k)
  | fresh (k k') (hk : k () = .op .readConv k') (h : StartsAt x (k' false)) : StartsAt x (.op (.setConv false) k)

theorem interp_opens (hk : cfg.kind ≠ .grape) {x : V} {st : Strat K V F α} (h : st.StartsAt x) :
    Opens c (At ops I x c) (fun _ => False) (st.interp (algHandler cfg env ops)) := by
  induction h with
  | eval it k =>
    rw [Strat.interp_op]
    refine .bind (J' := fun _ => False) ?_ fun r => ⟨(Traced.interp (d := true) (k r) (.inl rfl)).frames, fun s h => h.elim⟩
    show Opens c _ _ (if cfg.kind = .grape then innerGrape cfg env ops x else innerCall cfg env ops x it)
    rw [if_neg hk]
    exact innerCall_opens hk x it
  | fail e k =>
    rw [Strat.interp_op]
    exact .silent ((Traced.interp (d := true) (.op (.fail e) k) (.inl rfl)).frames) fun s hs => ⟨rfl, fun h => by cases h⟩
  | setConv b k h ih =>
    rw [Strat.interp_op]
    exact .bind (J' := At ops I x c) (.silent (.modify fun s => ⟨rfl, rfl⟩) fun s hs => ⟨rfl, fun _ => hs⟩) fun r => ih r
  | now k h ih =>
    rw [Strat.interp_op]
    refine .bind (J' := At ops I x c) (.silent (Traced.readClock (cfg := cfg) (ops := ops) (d := true)).frames fun s hs => ⟨rfl, fun _ => hs⟩)
      fun r => ih r
  | fresh k k' hc h ih =>
    refine ⟨(Traced.interp (d := true) (.op (.setConv false) k) (.inl rfl)).frames, fun s hs => ?_⟩
    have hfr : ∀ b, Frames ((k' b).interp (algHandler cfg env ops)) := fun b => (Traced.interp (d := true) (k' b) (.inl rfl)).frames
    have e : (Strat.op (.setConv false) k).interp (algHandler cfg env ops) s =
        (poll cfg env >>= fun _ => Prog.get >>= fun s => (k' s.sc.isConverged).interp (algHandler cfg env ops))
          { s with sc := { s.sc with isConverged := false } } := by
      rw [Strat.interp_op]
      show ((k ()).interp (algHandler cfg env ops)) { s with sc := { s.sc with isConverged := false } } = _
      rw [hc, Strat.interp_op]
      show (((poll cfg env >>= fun _ => Prog.get >>= fun s => pure s.sc.isConverged) >>=
        fun b => (k' b).interp (algHandler cfg env ops)) : Prog _ _) _ = _
      simp only [Prog.bind_apply]
      rcases poll cfg env { s with sc := { s.sc with isConverged := false } } with ⟨e | u, s'⟩ <;> rfl
    rw [e, Prog.bind_apply]
    rcases ha : env.async s.polls with _ | _ | _
    · have hp : poll cfg env { s with sc := { s.sc with isConverged := false } } =
          (.ok (), { s with sc := { s.sc with isConverged := false }, polls := s.polls + 1 }) := by
        unfold poll; simp only [ha]
      rw [hp]
      exact ih.step { s with sc := { s.sc with isConverged := false }, polls := s.polls + 1 } hs
    · have hp : poll cfg env { s with sc := { s.sc with isConverged := false } } =
          (.ok (), { s with sc := { s.sc with isConverged := false }, polls := s.polls + 1, running := false }) := by
        unfold poll; simp only [ha]
      rw [hp]
      have := (hfr false { s with sc := { s.sc with isConverged := false }, polls := s.polls + 1, running := false }).2 rfl
      exact .inl ⟨this.1, .inl this.2⟩
    · by_cases hd : cfg.hasDsm
      · have hp : poll cfg env { s with sc := { s.sc with isConverged := false } } =
            (.ok (), { s with sc := { s.sc with isConverged := true }, polls := s.polls + 1, running := false,
                              hoReason := "User stopped the optimization" }) := by
          unfold poll; simp only [ha, hd, if_true, stopWith, Prog.modify_apply]
        rw [hp]
        have := (hfr true { s with sc := { s.sc with isConverged := true }, polls := s.polls + 1, running := false,
                                   hoReason := "User stopped the optimization" }).2 rfl
        exact .inl ⟨this.1, .inl this.2⟩
      · have hp : poll cfg env { s with sc := { s.sc with isConverged := false } } =
            (.error .attributeError, { s with sc := { s.sc with isConverged := false }, polls := s.polls + 1,
                                              hoReason := "User stopped the optimization" }) := by
          unfold poll; simp only [ha, hd]; rfl
        rw [hp]
        exact .inl ⟨rfl, .inr fun h => by cases h⟩

/-- What a controls object has to satisfy so that a new super-iteration starts where the last one ended. -/
structure Restartable (ops : CtlOps O V C) (I : O → Prop) : Prop where
  basis : ∀ k o o', I o → ops.selectBasis k o = .ok o' → I o' ∧ ∀ c, ShowsMean ops o c → ShowsMean ops o' c

/-- The search starts at the mean vector. -/
def StartsAtMean (ops : CtlOps O V C) (dsm : Dsm K V F) : Prop :=
  ∀ k x sg sim, ops.simplex k x sg = .ok sim → (dsm k x sim sg).StartsAt x

theorem frames_routine (x : V) (it : ℕ) : Frames (routineCall cfg env ops x it) := by
  intro s
  have h := (routineCall_spec (cfg := cfg) (env := env) (ops := ops) x it s).eff
  cases h with
  | still hl _ _ hr _ => exact ⟨by rw [hl], fun h => ⟨hl, hr h⟩⟩
  | counted hl _ _ hr _ _ => exact ⟨by rw [hl], fun h => by rw [hr] at h; cases h⟩
  | measured c hl _ _ hr _ _ _ _ _ _ => exact ⟨by rw [hl]; exact List.prefix_append _ _, fun h => by rw [hr] at h; cases h⟩

theorem dsmBuild_opens (hk : cfg.kind ≠ .grape) {dsm : Dsm K V F} (hd : StartsAtMean ops dsm) :
    Opens c (AtM ops I c) (fun _ => False) (dsmBuild cfg env ops dsm) := by
  refine ⟨(Traced.dsmBuild (d := true) dsm (.inl rfl)).frames, fun s hs => ?_⟩
  obtain ⟨hI, x, hx, hsh⟩ := hs
  unfold dsmBuild
  rw [Prog.get_bind, hx]
  rcases hsg : ops.sigma s.ctl with e | sg
  · exact .inl ⟨rfl, .inr fun h => by cases h⟩
  rcases hsi : ops.simplex s.superIt x sg with e | sim
  · have : (Prog.lift (.ok x : Py V) >>= fun x0 => Prog.lift (.ok sg : Py V) >>= fun sigma =>
          Prog.lift (ops.simplex s.superIt x0 sigma) >>= fun sim =>
          Prog.modify (fun s => { s with bestXX := some x0 }) >>= fun _ =>
          (dsm s.superIt x0 sim sigma).interp (algHandler cfg env ops) >>= fun r =>
          Prog.modify (fun s => { s with terminateReason := r.reason }) : Prog (AlgState V C O F) Unit) s
          = (.error e, s) := by
        simp only [Prog.bind_apply, Prog.lift_apply, hsi]
    rw [this]
    exact .inl ⟨rfl, .inr fun h => by cases h⟩
  · have : (Prog.lift (.ok x : Py V) >>= fun x0 => Prog.lift (.ok sg : Py V) >>= fun sigma =>
          Prog.lift (ops.simplex s.superIt x0 sigma) >>= fun sim =>
          Prog.modify (fun s => { s with bestXX := some x0 }) >>= fun _ =>
          (dsm s.superIt x0 sim sigma).interp (algHandler cfg env ops) >>= fun r =>
          Prog.modify (fun s => { s with terminateReason := r.reason }) : Prog (AlgState V C O F) Unit) s
          = ((dsm s.superIt x sim sg).interp (algHandler cfg env ops) >>= fun r =>
          Prog.modify (fun s => { s with terminateReason := r.reason })) { s with bestXX := some x } := by
        simp only [Prog.bind_apply, Prog.lift_apply, hsi, Prog.modify_apply]
    rw [this]
    have ho : Opens c (At ops I x c) (fun _ => False) ((dsm s.superIt x sim sg).interp (algHandler cfg env ops) >>= fun r =>
        Prog.modify (fun s : AlgState V C O F => { s with terminateReason := r.reason })) :=
      .bind (J' := fun _ => False) (interp_opens hk (hd _ _ _ _ hsi)) fun r =>
        ⟨.modify fun s => ⟨rfl, rfl⟩, fun s h => h.elim⟩
    exact ho.step { s with bestXX := some x } ⟨hI, hsh⟩

theorem updateFoM_opens (hk : cfg.kind = .dcrab) (hdr : cfg.driftAfterSI = true) :
    Opens c (AtM ops I c) (AtM ops I c) (updateFoM cfg env ops) := by
  refine ⟨(Traced.updateFoM (d := true) hk hdr).frames, fun s hs => ?_⟩
  obtain ⟨hI, x, hx, hsh⟩ := hs
  unfold updateFoM
  rw [Prog.get_bind, hx]
  have ho : Opens c (At ops I x c) (fun _ => False) ((do
      Prog.modify (fun s => { s with isRecord := true, stepNumber := 0 })
      let f ← sumRoutine cfg env ops x cfg.driftAverage 0
      if cfg.driftAverage = 0 then Prog.raise .zeroDivision
      else Prog.modify (fun s => { s with bestFoM := f / (cfg.driftAverage : F) }) : Prog (AlgState V C O F) Unit)) := by
    refine .bind (J' := At ops I x c) (.silent (.modify fun s => ⟨rfl, rfl⟩) fun s hs => ⟨rfl, fun _ => hs⟩) fun _ => ?_
    rcases hn : cfg.driftAverage with _ | n
    · refine .bind (J' := At ops I x c) (m := (sumRoutine cfg env ops x 0 0))
        (.silent (Frames.lift (.ok (0 : F))) fun s hs => ⟨rfl, fun _ => hs⟩) fun f => ?_
      rw [if_pos rfl]
      exact .silent (Frames.lift (.error _)) fun s hs => ⟨rfl, fun h => by cases h⟩
    · refine .bind (J' := fun _ => False) (m := (sumRoutine cfg env ops x (n + 1) 0)) ?_ fun f => by
        rw [if_neg (Nat.succ_ne_zero n)]
        exact ⟨.modify fun s => ⟨rfl, rfl⟩, fun s h => h.elim⟩
      exact .bind (routine_opens (frames_routine x 0)) fun f =>
        ⟨(Traced.sumRoutine (d := true) (env := env) (ops := ops) hk hdr x n _).frames, fun s h => h.elim⟩
  exact (ho.step s ⟨hI, hsh⟩).imp fun h h' => (h h').elim

theorem superIteration_opens (hk : cfg.kind = .dcrab) (hR : Restartable ops I) {dsm : Dsm K V F} (hd : StartsAtMean ops dsm)
    (k : ℕ) : Opens c (AtM ops I c) (fun _ => False) (superIteration cfg env ops dsm k) := by
  have hg : cfg.kind ≠ .grape := by rw [hk]; decide
  unfold superIteration
  refine .bind (J' := AtM ops I c)
    (.silent (Traced.readClock (cfg := cfg) (ops := ops) (d := true)).frames fun s hs => ⟨rfl, fun _ => hs⟩) fun now => ?_
  refine .bind (J' := AtM ops I c) (.silent (.modify fun s => ⟨rfl, rfl⟩) fun s hs => ⟨rfl, fun _ => hs⟩) fun _ => ?_
  refine .bind (J' := AtM ops I c) (.silent (.modify fun s => ⟨rfl, rfl⟩) fun s hs => ⟨rfl, fun _ => hs⟩) fun _ => ?_
  refine .bind (J' := AtM ops I c) ?_ fun _ => ?_
  · unfold driftStep
    split
    · rename_i h; exact updateFoM_opens hk h.1
    · exact .silent (Frames.lift (.ok ())) fun s hs => ⟨rfl, fun _ => hs⟩
  · have hsel : Opens c (AtM ops I c) (AtM ops I c) ((do
        let s ← Prog.get
        let o ← Prog.lift (ops.selectBasis k s.ctl)
        Prog.modify (fun s => { s with ctl := o }) : Prog (AlgState V C O F) Unit)) := by
      refine .silent (.bind .get fun s => .bind (.lift _) fun o => .modify fun s => ⟨rfl, rfl⟩) fun s hs => ?_
      rw [Prog.get_bind, Prog.bind_apply, Prog.lift_apply]
      rcases ho : ops.selectBasis k s.ctl with e | o
      · exact ⟨rfl, fun h => by cases h⟩
      · exact ⟨rfl, fun _ => ⟨(hR.basis _ _ _ hs.1 ho).1, (hR.basis _ _ _ hs.1 ho).2 _ hs.2⟩⟩
    have hall : Opens c (AtM ops I c) (fun _ => False) ((do
        let s ← Prog.get
        let o ← Prog.lift (ops.selectBasis k s.ctl)
        Prog.modify (fun s => { s with ctl := o }) : Prog (AlgState V C O F) Unit) >>= fun _ =>
        dsmBuild cfg env ops dsm >>= fun _ => updateBasePulses ops) :=
      .bind hsel fun _ => .bind (J' := fun _ => False) (dsmBuild_opens hg hd) fun _ =>
        ⟨(Traced.updateBasePulses (cfg := cfg) (env := env) (d := true)).frames, fun s h => h.elim⟩
    simpa only [bind_assoc] using hall

/-- One more super-iteration at the end of the loop. -/
theorem dcrabLoop_succ (dsm : Dsm K V F) (n k : ℕ) (s : AlgState V C O F) :
    (dcrabLoop cfg env ops dsm (n + 1) k s).2.log = (dcrabLoop cfg env ops dsm n k s).2.log ∨
    (dcrabLoop cfg env ops dsm n k s).1 = .ok () ∧
      dcrabLoop cfg env ops dsm (n + 1) k s = dcrabLoop cfg env ops dsm 1 (k + n) (dcrabLoop cfg env ops dsm n k s).2 := by
  induction n generalizing k s with
  | zero => exact .inr ⟨rfl, rfl⟩
  | succ n ih =>
    have e : ∀ n, dcrabLoop cfg env ops dsm (n + 1) k s = (do
        poll cfg env
        let s ← Prog.get
        if s.running = false then pure ()
        else do
          superIteration cfg env ops dsm k
          dcrabLoop cfg env ops dsm n (k + 1)) s := fun _ => rfl
    rw [e (n + 1), e n]
    simp only [Prog.bind_apply, Prog.get_apply]
    rcases poll cfg env s with ⟨e | a, s1⟩
    · exact .inl rfl
    · dsimp only
      by_cases hr : s1.running = false
      · simp only [if_pos hr]; exact .inl trivial
      · simp only [if_neg hr, Prog.bind_apply]
        rcases superIteration cfg env ops dsm k s1 with ⟨e | a, s2⟩
        · exact .inl rfl
        · dsimp only
          have := ih (k + 1) s2
          rwa [show k + 1 + n = k + (n + 1) by omega] at this

theorem loop_frames (hk : cfg.kind = .dcrab) (dsm : Dsm K V F) (n k : ℕ) : Frames (dcrabLoop cfg env ops dsm n k) := by
  induction n generalizing k with
  | zero => exact Frames.lift (.ok ())
  | succ n ih =>
    refine .bind (m := poll cfg env) (Traced.poll (ops := ops) (d := true)).frames fun _ => .bind .get fun s => ?_
    split
    · exact Frames.lift (.ok ())
    · refine .bind ?_ fun _ => ih (k + 1)
      unfold superIteration driftStep
      refine .bind (Traced.readClock (cfg := cfg) (ops := ops) (d := true)).frames fun now => .bind (.modify fun s => ⟨rfl, rfl⟩) fun _ =>
        .bind (.modify fun s => ⟨rfl, rfl⟩) fun _ => .bind ?_ fun _ => .bind .get fun s => .bind (.lift _) fun o =>
        .bind (.modify fun s => ⟨rfl, rfl⟩) fun _ => .bind (Traced.dsmBuild (d := true) dsm (.inl rfl)).frames fun _ =>
        (Traced.updateBasePulses (cfg := cfg) (env := env) (d := true)).frames
      split
      · rename_i h; exact (Traced.updateFoM (d := true) hk h.1).frames
      · exact Frames.lift (.ok ())

theorem loop_opens (hk : cfg.kind = .dcrab) (hR : Restartable ops I) {dsm : Dsm K V F} (hd : StartsAtMean ops dsm) (n k : ℕ) :
    Opens c (AtM ops I c) (fun _ => False) (dcrabLoop cfg env ops dsm (n + 1) k) := by
  refine .bind (m := poll cfg env) (J' := AtM ops I c) ?_ fun _ => ⟨?_, fun s hs => ?_⟩
  · refine .silent (Traced.poll (ops := ops) (d := true)).frames fun s hs => ?_
    rcases poll_cases (cfg := cfg) (env := env) s with ⟨_, q⟩ | ⟨_, e, he⟩
    · exact ⟨q.log, fun _ => ⟨by rw [q.ctl]; exact hs.1, by rw [q.ctl]; exact hs.2⟩⟩
    · rw [he]; exact ⟨rfl, fun h => by cases h⟩
  · refine .bind .get fun s => ?_
    split
    · exact Frames.lift (.ok ())
    · exact ((superIteration_opens (c := c) hk hR hd k).frames).bind fun _ => loop_frames hk dsm n (k + 1)
  · rw [Prog.get_bind]
    split
    · rename_i hr
      exact .inl ⟨rfl, .inl hr⟩
    · exact (Opens.bind (superIteration_opens (c := c) hk hR hd k) fun _ =>
        (⟨loop_frames hk dsm n (k + 1), fun s h => h.elim⟩ : Opens c (fun _ => False) (fun _ => False) _)).step s hs

theorem showsMean_of_best {s : AlgState V C O F} (hc : bestControls ops s = .ok c) : ShowsMean ops s.ctl c := by
  unfold bestControls at hc
  rcases hx : ops.mean s.ctl with e | x
  · rw [hx] at hc; cases hc
  · rw [hx] at hc
    refine ⟨x, hx, ?_⟩
    unfold Shows
    rcases hg : ops.getControls s.ctl x with e | r
    · simp only [bind, Except.bind, hg] at hc; cases hc
    · simp only [bind, Except.bind, hg] at hc
      exact hc

/-! The number of super-iterations is only used by `run`. -/

theorem innerCall_maxSI (m : ℕ) (x : V) (it : ℕ) :
    innerCall { cfg with maxSI := m } env ops x it = innerCall cfg env ops x it := by
  have hl : ∀ last i steps, reEvalLoop { cfg with maxSI := m } env ops x it last i steps = reEvalLoop cfg env ops x it last i steps := by
    intro last i steps
    induction steps generalizing i with
    | nil => rfl
    | cons p ps ih => simp only [reEvalLoop, ih]; rfl
  unfold innerCall
  simp only [hl]
  rfl

theorem handler_maxSI (m : ℕ) : (algHandler { cfg with maxSI := m } env ops : (o : Op K V F) → Prog (AlgState V C O F) o.Res) =
    algHandler cfg env ops := by
  funext o
  cases o with
  | eval x it => simp only [algHandler, innerCall_maxSI]; rfl
  | _ => rfl

theorem dcrabLoop_maxSI (m : ℕ) (dsm : Dsm K V F) (n k : ℕ) :
    dcrabLoop { cfg with maxSI := m } env ops dsm n k = dcrabLoop cfg env ops dsm n k := by
  have hd : dsmBuild { cfg with maxSI := m } env ops dsm = dsmBuild cfg env ops dsm := by
    unfold dsmBuild
    rw [handler_maxSI]
  have hs : ∀ x n acc, sumRoutine { cfg with maxSI := m } env ops x n acc = sumRoutine cfg env ops x n acc := by
    intro x n acc
    induction n generalizing acc with
    | zero => rfl
    | succ n ih => simp only [sumRoutine, ih]; rfl
  have hu : updateFoM { cfg with maxSI := m } env ops = updateFoM cfg env ops := by
    unfold updateFoM
    simp only [hs]
  have hsi : ∀ k, superIteration { cfg with maxSI := m } env ops dsm k = superIteration cfg env ops dsm k := by
    intro k
    unfold superIteration driftStep
    simp only [hd, hu]
  induction n generalizing k with
  | zero => rfl
  | succ n ih =>
    simp only [dcrabLoop, hsi, ih]
    rfl

theorem execute_dcrab (hk : cfg.kind = .dcrab) (dsm : Dsm K V F) (o : O) :
    execute cfg env ops dsm o = dcrabLoop cfg env ops dsm cfg.maxSI 1 (initState cfg env o) := by
  unfold execute run
  rw [hk]

/-- A run with one more super-iteration repeats the calls of the shorter run, and the first further call uses the best controls
of the shorter run. -/
theorem execute_succ (hk : cfg.kind = .dcrab) (hR : Restartable ops I) {dsm : Dsm K V F} (hd : StartsAtMean ops dsm) (m : ℕ) (o : O)
    (hI : I (execute { cfg with maxSI := m } env ops dsm o).2.ctl) (c : C)
    (hc : bestControls ops (execute { cfg with maxSI := m } env ops dsm o).2 = .ok c) :
    (execute { cfg with maxSI := m + 1 } env ops dsm o).2.log = (execute { cfg with maxSI := m } env ops dsm o).2.log ∨
    ∃ a rest, (execute { cfg with maxSI := m + 1 } env ops dsm o).2.log =
      (execute { cfg with maxSI := m } env ops dsm o).2.log ++ a :: rest ∧ a.ctl = c := by
  have e : ∀ m, execute { cfg with maxSI := m } env ops dsm o = dcrabLoop cfg env ops dsm m 1 (initState cfg env o) := by
    intro m
    rw [← dcrabLoop_maxSI m]
    exact execute_dcrab (cfg := { cfg with maxSI := m }) hk dsm o
  rw [e] at hI hc
  rw [e, e]
  rcases dcrabLoop_succ (cfg := cfg) (env := env) (ops := ops) dsm m 1 (initState cfg env o) with h | ⟨_, h⟩
  · exact .inl h
  · rw [h]
    have := (loop_opens (c := c) (env := env) hk hR hd 0 (1 + m)).step _ ⟨hI, showsMean_of_best hc⟩
    exact Or.imp (fun h => h.1) id this

/-- The first call of a run uses the controls the object shows before the run. -/
theorem execute_first (hk : cfg.kind = .dcrab) (hR : Restartable ops I) {dsm : Dsm K V F} (hd : StartsAtMean ops dsm) (o : O)
    (hI : I o) (c : C) (hc : bestControls ops (initState cfg env o : AlgState V C O F) = .ok c) {a : Call V C F} {rest}
    (h : (execute cfg env ops dsm o).2.log = a :: rest) : a.ctl = c := by
  rw [execute_dcrab hk] at h
  rcases hn : cfg.maxSI with _ | n
  · rw [hn] at h; cases h
  · rw [hn] at h
    rcases (loop_opens (c := c) (env := env) hk hR hd n 1).step _ ⟨hI, showsMean_of_best hc⟩ with ⟨hl, _⟩ | ⟨x, r, hl, hx⟩
    · rw [hl] at h; cases h
    · rw [hl] at h
      cases h
      exact hx

end
end QuOCS

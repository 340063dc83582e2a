/-
What a search can do to the stopping criteria of the algorithm object.
-/
import Mathlib.Data.List.Induction
import Mathlib.Tactic.Linarith
import Mathlib.Tactic.FieldSimp
import Mathlib.Tactic.Ring
import Verif.Lemmas.Handler
import Verif.Spec.Stopping

set_option linter.unusedSectionVars false
set_option linter.unusedVariables false

namespace QuOCS

section
variable {K V C O F : Type} [LE K] [DecidableLE K]
variable [Add F] [Sub F] [Mul F] [Div F] [Neg F] [Zero F] [One F] [NatCast F] [LE F] [LT F] [DecidableLE F]
  [DecidableLT F]
variable {cfg : AlgCfg K F} {env : Env V C F} {ops : CtlOps O V C}

/-- the change-based criterion as it is computed -/
def ChangeFires (c : ScCfg K F) (t : List F) : Prop :=
  1 < c.cbsEvals ∧ c.cbsEvals.toNat ≤ t.length ∧
    pyAbs (lsSlope (t.drop (t.length - c.cbsEvals.toNat)) * (c.cbsEvals.toNat : F)) < c.cbsChange

/-- the values that are tracked for the change-based criterion -/
def tracked (cfg : AlgCfg K F) (l : List (Call V C F)) : List F :=
  if cfg.kind ≠ .grape ∧ 1 < cfg.sc.cbsEvals then seenFoMs cfg l else []

theorem tracked_append (l l' : List (Call V C F)) : tracked cfg (l ++ l') = tracked cfg l ++ tracked cfg l' := by
  unfold tracked seenFoMs
  split
  · rw [List.filterMap_append]
  · rfl

/-- how the state changes while no search is started -/
structure Progress (cfg : AlgCfg K F) (s s' : AlgState V C O F) : Prop where
  run : s.running = false → s'.running = false
  start : s'.sc.startTime = s.sc.startTime
  hist : ∃ l, s'.log = s.log ++ l ∧ s'.sc.track = s.sc.track ++ tracked cfg l
  conv : s'.sc.isConverged = true → s.sc.isConverged = true ∨ s'.running = false ∨
    ∃ t, s.sc.track <+: t ∧ t <+: s'.sc.track ∧ ChangeFires cfg.sc t
  reason : ¬ 1 < cfg.sc.cbsEvals → s'.sc.reason = s.sc.reason

theorem tracked_nil : tracked cfg ([] : List (Call V C F)) = [] := by unfold tracked seenFoMs; split <;> rfl

/-- nothing but an uninteresting attribute changes -/
theorem Progress.same {s s' : AlgState V C O F} (h1 : s'.running = s.running) (h2 : s'.sc = s.sc) (h3 : s'.log = s.log) :
    Progress cfg s s' :=
  ⟨fun h => by rw [h1, h], by rw [h2], ⟨[], by simp [h3], by simp [h2, tracked_nil]⟩, fun h => .inl (by rw [← h2]; exact h),
    fun _ => by rw [h2]⟩

theorem Progress.refl (s : AlgState V C O F) : Progress cfg s s := .same rfl rfl rfl

/-- a stopped run -/
theorem Progress.stopped {s s' : AlgState V C O F} (h1 : s'.running = false) (h2 : s'.sc.startTime = s.sc.startTime)
    (h4 : s'.sc.track = s.sc.track) (h5 : s'.sc.reason = s.sc.reason) (h3 : s'.log = s.log) :
    Progress cfg s s' :=
  ⟨fun h => h1, h2, ⟨[], by simp [h3], by simp [h4, tracked_nil]⟩, fun h => .inr (.inl h1), fun _ => h5⟩

theorem Progress.trans {s s' s'' : AlgState V C O F} (a : Progress cfg s s') (b : Progress cfg s' s'') :
    Progress cfg s s'' := by
  obtain ⟨l, h1, h2⟩ := a.hist
  obtain ⟨l', h3, h4⟩ := b.hist
  refine ⟨fun h => b.run (a.run h), b.start.trans a.start, ⟨l ++ l', by rw [h3, h1]; simp, ?_⟩, fun h => ?_,
    fun h => (b.reason h).trans (a.reason h)⟩
  · rw [h4, h2, tracked_append]; simp
  · rcases b.conv h with h | h | ⟨t, t1, t2, t3⟩
    · rcases a.conv h with h | h | ⟨t, t1, t2, t3⟩
      · exact .inl h
      · exact .inr (.inl (b.run h))
      · exact .inr (.inr ⟨t, t1, t2.trans ⟨_, h4.symm⟩, t3⟩)
    · exact .inr (.inl h)
    · exact .inr (.inr ⟨t, List.IsPrefix.trans ⟨_, h2.symm⟩ t1, t2, t3⟩)

/-- programs that make progress -/
def Progs (cfg : AlgCfg K F) {α : Type} (m : Prog (AlgState V C O F) α) : Prop := ∀ s, Progress cfg s (m s).2

namespace Progs
variable {α β : Type}

theorem pure (a : α) : Progs cfg (Pure.pure a : Prog (AlgState V C O F) α) := fun s => .refl s
theorem get : Progs cfg (Prog.get : Prog (AlgState V C O F) _) := fun s => .refl s
theorem raise (e : PyErr) : Progs cfg (Prog.raise e : Prog (AlgState V C O F) α) := fun s => .refl s
theorem lift (x : Py α) : Progs cfg (Prog.lift x : Prog (AlgState V C O F) α) := fun s => .refl s
theorem modify {f : AlgState V C O F → AlgState V C O F} (h1 : ∀ s, (f s).running = s.running) (h2 : ∀ s, (f s).sc = s.sc)
    (h3 : ∀ s, (f s).log = s.log) : Progs cfg (Prog.modify f) := fun s => .same (h1 s) (h2 s) (h3 s)

theorem bind {m : Prog (AlgState V C O F) α} {f : α → Prog (AlgState V C O F) β} (hm : Progs cfg m)
    (hf : ∀ a, Progs cfg (f a)) : Progs cfg (m >>= f) := by
  intro s
  rw [Prog.bind_apply]
  have h1 := hm s
  rcases hs : m s with ⟨e | a, s'⟩
  · rw [hs] at h1; exact h1
  · rw [hs] at h1; exact h1.trans (hf a s')

theorem ite {c : Prop} [Decidable c] {a b : Prog (AlgState V C O F) α} (ha : Progs cfg a) (hb : Progs cfg b) :
    Progs cfg (if c then a else b) := by split <;> assumption

theorem readClock : Progs cfg (QuOCS.readClock env : Prog (AlgState V C O F) ℚ) := fun s => .same rfl rfl rfl

theorem stopWith (r : String) : Progs cfg (QuOCS.stopWith cfg r : Prog (AlgState V C O F) Unit) := fun s =>
  .stopped rfl (by simp only [QuOCS.stopWith, Prog.modify_apply]; split <;> rfl)
    (by simp only [QuOCS.stopWith, Prog.modify_apply]; split <;> rfl)
    (by simp only [QuOCS.stopWith, Prog.modify_apply]; split <;> rfl) rfl

theorem poll : Progs cfg (QuOCS.poll cfg env : Prog (AlgState V C O F) Unit) := by
  intro s
  unfold QuOCS.poll
  rcases env.async s.polls with _ | _ | _
  · exact .same rfl rfl rfl
  · exact .stopped rfl rfl rfl rfl rfl
  · dsimp only
    split
    · exact Progress.trans (s' := { s with polls := s.polls + 1 }) (.same rfl rfl rfl) (stopWith _ _)
    · exact .same rfl rfl rfl

theorem dumpControls (b : Bool) (f : F) : Progs cfg (QuOCS.dumpControls b f : Prog (AlgState V C O F) Unit) :=
  modify (fun _ => rfl) (fun _ => rfl) (fun _ => rfl)

theorem stopChecks : Progs cfg (QuOCS.stopChecks cfg env : Prog (AlgState V C O F) Unit) := by
  refine bind (fun s => ?_) fun _ => bind (fun s => ?_) fun _ => ite (bind readClock fun t s => ?_) (pure _)
  · unfold budgetCheck
    split
    · exact stopWith _ s
    · exact .refl s
  · unfold goalCheck
    split
    · split
      · exact stopWith _ s
      · exact .refl s
    · exact .refl s
  · unfold timeCheckAt
    split
    · exact stopWith _ s
    · exact .refl s

theorem addToTrack_track (c : ScCfg K F) (sc : Sc F) (f : F) :
    (addToTrack c sc f).track = sc.track ++ (if 1 < c.cbsEvals then [f] else []) := by
  unfold addToTrack
  split <;> simp

theorem checkAdvanced_track (c : ScCfg K F) (sc : Sc F) : (checkAdvanced c sc).track = sc.track := by
  unfold checkAdvanced checkCbs
  dsimp only
  repeat' split
  all_goals rfl

theorem checkAdvanced_start (c : ScCfg K F) (sc : Sc F) : (checkAdvanced c sc).startTime = sc.startTime := by
  unfold checkAdvanced checkCbs
  dsimp only
  repeat' split
  all_goals rfl

theorem addToTrack_start (c : ScCfg K F) (sc : Sc F) (f : F) : (addToTrack c sc f).startTime = sc.startTime := by
  unfold addToTrack
  split <;> rfl

/-- the flag after the advanced criteria were checked -/
theorem checkAdvanced_fires (c : ScCfg K F) (sc : Sc F) :
    (checkAdvanced c sc).isConverged = true ↔ sc.isConverged = true ∨ ChangeFires c sc.track := by
  unfold checkAdvanced checkCbs ChangeFires
  dsimp only
  by_cases h1 : 1 < c.cbsEvals
  · rw [if_pos h1]
    by_cases h2 : c.cbsEvals.toNat ≤ sc.track.length
    · rw [if_pos h2]
      split
      · rename_i h3; simp [h1, h2, h3]
      · rename_i h3; simp [h3]
    · rw [if_neg h2]
      simp [h2]
  · rw [if_neg h1]
    simp [h1]

theorem addToTrack_conv' (c : ScCfg K F) (sc : Sc F) (f : F) : (addToTrack c sc f).isConverged = sc.isConverged := by
  unfold addToTrack
  split <;> rfl

/-- measuring -/
theorem measure (x : V) (c : C) : Progs cfg (QuOCS.measure cfg env x c : Prog (AlgState V C O F) F) := by
  intro s
  -- from the answer to the point where the value is tracked
  have hrest : ∀ s1 : AlgState V C O F, ∃ s2, ((do
      let fom ← response cfg
      sendResponse fom
      trackFoM cfg
      let s ← Prog.get
      Pure.pure s.fomDict.fom : Prog (AlgState V C O F) F) s1).2 =
        (if cfg.hasDsm then { s2 with sc := checkAdvanced cfg.sc (addToTrack cfg.sc s1.sc s1.fomDict.fom) } else s2) ∧
      (s1.running = false → s2.running = false) ∧ s2.sc = s1.sc ∧ s2.log = s1.log := by
    intro s1
    rw [Prog.bind_apply]
    have hresp : ∃ f s', response cfg s1 = (.ok f, s') ∧ s'.running = s1.running ∧ s'.sc = s1.sc ∧ s'.log = s1.log ∧
        s'.fomDict = s1.fomDict := by
      unfold response
      dsimp only
      refine ⟨_, _, rfl, ?_, ?_, ?_, ?_⟩ <;> (repeat' split) <;> rfl
    obtain ⟨f, s', e, h1, h2, h3, h4⟩ := hresp
    rw [e]
    dsimp only
    rw [Prog.bind_apply]
    have hsend : ∃ s'', sendResponse f s' = (.ok (), s'') ∧ (s'.running = false → s''.running = false) ∧ s''.sc = s'.sc ∧
        s''.log = s'.log ∧ s''.fomDict = s'.fomDict := by
      unfold sendResponse
      split
      · exact ⟨_, rfl, fun _ => rfl, rfl, rfl, rfl⟩
      · exact ⟨_, rfl, id, rfl, rfl, rfl⟩
    obtain ⟨s'', e', g1, g2, g3, g4⟩ := hsend
    rw [e']
    dsimp only
    unfold trackFoM
    rw [Prog.modify_bind, Prog.get_bind]
    refine ⟨s'', ?_, fun h => g1 (by rw [h1, h]), by rw [g2, h2], by rw [g3, h3]⟩
    simp only [Prog.pure_apply]
    split
    · rw [g2, g4, h2, h4]
    · rfl
  unfold QuOCS.measure
  rw [Prog.bind_apply]
  unfold getData
  dsimp only
  rcases ha : env.getFoM s.log c with e | a
  · refine ⟨id, rfl, ⟨[⟨x, c, .error e, s.polls, s.ticks⟩], rfl, ?_⟩, fun h => .inl h, fun _ => rfl⟩
    unfold tracked seenFoMs
    simp [Call.value]
  · dsimp only
    rcases hf : a.fom with _ | f
    · refine ⟨id, rfl, ⟨[⟨x, c, .ok a, s.polls, s.ticks⟩], rfl, ?_⟩, fun h => .inl h, fun _ => rfl⟩
      unfold tracked seenFoMs
      simp [Call.value, hf]
    · dsimp only
      obtain ⟨s2, e, h1, h2, h3⟩ := hrest { s with
        log := s.log ++ [⟨x, c, .ok a, s.polls, s.ticks⟩]
        fomDict := { fom := dirMul cfg.maximize f, std := a.std, status := some (a.status.getD 0) }
        running := if a.status.getD 0 = 0 then s.running else false }
      rw [e]
      dsimp only at h1 h2 h3 ⊢
      have hrun : s.running = false → s2.running = false := fun h => h1 (by split <;> [exact h; rfl])
      have htr : tracked cfg [(⟨x, c, .ok a, s.polls, s.ticks⟩ : Call V C F)] =
          if cfg.kind ≠ .grape ∧ 1 < cfg.sc.cbsEvals then [dirMul cfg.maximize f] else [] := by
        unfold tracked seenFoMs
        simp [Call.value, hf]
      by_cases hd : cfg.hasDsm = true
      · rw [if_pos hd]
        have hk : cfg.kind ≠ .grape := by simpa [AlgCfg.hasDsm] using hd
        refine ⟨hrun, ?_, ⟨[⟨x, c, .ok a, s.polls, s.ticks⟩], h3, ?_⟩, fun h => ?_, fun h => ?_⟩
        · dsimp only
          rw [checkAdvanced_start, addToTrack_start]
        · dsimp only
          rw [checkAdvanced_track, addToTrack_track, htr]
          simp [hk]
        · dsimp only at h ⊢
          rw [checkAdvanced_fires, addToTrack_conv'] at h
          rcases h with h | h
          · exact .inl h
          · refine .inr (.inr ⟨_, ?_, ?_, h⟩)
            · rw [addToTrack_track]; exact List.prefix_append _ _
            · rw [checkAdvanced_track]; exact List.prefix_rfl
        · unfold checkAdvanced addToTrack
          rw [if_neg h, if_neg h]
      · rw [if_neg hd]
        have hk : cfg.kind = .grape := by simpa [AlgCfg.hasDsm] using hd
        refine ⟨hrun, by rw [h2], ⟨[⟨x, c, .ok a, s.polls, s.ticks⟩], h3, ?_⟩, fun h => .inl (by rw [h2] at h; exact h),
          fun _ => by rw [h2]⟩
        rw [htr, h2]
        simp [hk]

theorem sendControls (x : V) : Progs cfg (QuOCS.sendControls ops x : Prog (AlgState V C O F) C) := by
  intro s
  unfold QuOCS.sendControls
  rcases ops.getControls s.ctl x with e | ⟨o, c⟩
  · exact .refl s
  · exact .same rfl rfl rfl

theorem routineCall (x : V) (it : ℕ) : Progs cfg (QuOCS.routineCall cfg env ops x it) :=
  bind poll fun _ => bind stopChecks fun _ => bind poll fun _ => bind get fun s => ite (pure _)
    (bind (modify (fun _ => rfl) (fun _ => rfl) (fun _ => rfl)) fun _ => bind (sendControls x) fun c => bind poll fun _ =>
      bind get fun s => ite (pure _) (measure x c))

theorem storeTest (i : ℕ) (f : F) : Progs cfg (QuOCS.storeTest i f : Prog (AlgState V C O F) Unit) := by
  intro s
  unfold QuOCS.storeTest
  rcases setIdx s.fomTest i f with e | ft
  · exact .refl s
  · dsimp only
    rcases setIdx s.sigmaTest i (s.fomDict.std.getD 1) with e | st
    · exact .same rfl rfl rfl
    · exact .same rfl rfl rfl

theorem reEvalLoop (x : V) (it : ℕ) (last : F) (ps : List F) (i : ℕ) :
    Progs cfg (QuOCS.reEvalLoop cfg env ops x it last i ps) := by
  induction ps generalizing i with
  | nil =>
    intro s
    unfold QuOCS.reEvalLoop reEvalFinish
    dsimp only
    split
    · split
      · exact .same rfl rfl rfl
      · rename_i y hy
        exact Progress.trans (s' := { s with bestSigma := (averageSum s).2, bestFoM := (averageSum s).1, isRecord := true
                                             bestXX := some y }) (.same rfl rfl rfl)
          (bind (dumpControls _ _) (fun _ => pure _) _)
    · exact .refl s
  | cons p ps ih =>
    exact bind get fun s => ite (pure _) (bind (routineCall x it) fun f => bind (storeTest _ f) fun _ => ih _)

theorem innerCall (x : V) (it : ℕ) : Progs cfg (QuOCS.innerCall cfg env ops x it) := by
  unfold QuOCS.innerCall
  refine bind (modify (fun _ => rfl) (fun _ => rfl) (fun _ => rfl)) fun _ => bind (routineCall x it) fun f => ?_
  rcases cfg.reEval with _ | steps
  · exact pure _
  · refine bind get fun s => bind (modify (fun _ => rfl) (fun _ => rfl) (fun _ => rfl)) fun _ =>
      bind (storeTest 0 f) fun _ => ?_
    rcases (if s.iter = 1 then [cfg.half] else steps).getLast? with _ | last
    · exact raise _
    · exact reEvalLoop x it last _ 0

theorem innerDrift (v : F) : Progs cfg (QuOCS.innerDrift v : Prog (AlgState V C O F) F) := by
  intro s
  unfold QuOCS.innerDrift
  dsimp only
  split
  · exact .same rfl rfl rfl
  · rename_i y hy
    exact Progress.trans (s' := { s with bestFoM := v, isRecord := true, bestXX := some y }) (.same rfl rfl rfl)
      (bind (dumpControls _ _) (fun _ => pure _) _)

theorem innerGrape (x : V) : Progs cfg (QuOCS.innerGrape cfg env ops x) := by
  refine bind (modify (fun _ => rfl) (fun _ => rfl) (fun _ => rfl)) fun _ => bind (fun s => ?_) fun _ => routineCall x 0
  unfold gradientControls
  rcases ops.getControls s.ctl x with e | ⟨o, c⟩
  · exact .refl s
  · exact .same rfl rfl rfl

end Progs

/-- the calls that do not write the flag directly -/
theorem Progress.handler (o : Op K V F) (h1 : ∀ b, o ≠ .setConv b) (h2 : o ≠ .userStop)
    (h3 : ∀ a b c, o ≠ .checkNM a b c) (h4 : ∀ a b, o ≠ .checkCMA a b) : Progs cfg (algHandler cfg env ops o) := by
  cases o with
  | eval x it => exact .ite (.innerGrape x) (.innerCall x it)
  | drift x it v => exact .innerDrift v
  | readConv => exact .bind .poll fun _ => .bind .get fun s => .pure _
  | setConv b => exact absurd rfl (h1 b)
  | callback => exact .bind .poll fun _ => .bind .get fun s => .pure _
  | userStop => exact absurd rfl h2
  | checkNM a b c => exact absurd rfl (h3 a b c)
  | checkCMA a b => exact absurd rfl (h4 a b)
  | now => exact .readClock
  | reason => exact .bind .get fun s => .pure _
  | fail e => exact .raise e

/-- a criterion is met when it is checked by the call `o` in the state `s` -/
def CheckFires (cfg : AlgCfg K F) (env : Env V C F) (s : AlgState V C O F) : Op K V F → Prop
  | .checkNM size fs calls => ∃ sc, nmCheck env.sqrt cfg.sc s.sc size fs calls (env.clock s.ticks) = .ok sc ∧
      sc.isConverged = true
  | .checkCMA fs calls => (cmaCheck env.sqrt cfg.sc s.sc fs calls (env.clock s.ticks)).isConverged = true
  | _ => False

/-- how the search was stopped, for one call -/
def StopsBy (cfg : AlgCfg K F) (env : Env V C F) (s s' : AlgState V C O F) (o : Op K V F) : Prop :=
  s'.running = false ∨ CheckFires cfg env s o ∨
    ∃ t, s.sc.track <+: t ∧ t <+: s'.sc.track ∧ ChangeFires cfg.sc t

/-- the flag is set for a reason -/
theorem handler_cause {s s' : AlgState V C O F} {o : Op K V F} {r : o.Res}
    (h : algHandler cfg env ops o s = (.ok r, s')) (hs : ∀ b, o = .setConv b → b = false)
    (hu : o = .userStop → s.running = false) (h0 : s.sc.isConverged = false) (h1 : s'.sc.isConverged = true) :
    StopsBy cfg env s s' o := by
  by_cases c1 : ∃ b, o = .setConv b
  · obtain ⟨b, rfl⟩ := c1
    have := hs b rfl
    subst this
    cases h; cases h1
  by_cases c2 : o = .userStop
  · subst c2
    have hr := hu rfl
    cases h
    exact .inl hr
  by_cases c3 : ∃ a b c, o = .checkNM a b c
  · obtain ⟨size, fs, calls, rfl⟩ := c3
    simp only [algHandler] at h
    rw [Prog.bind_apply] at h
    simp only [readClock] at h
    rw [Prog.get_bind, Prog.bind_apply, Prog.lift_apply] at h
    rcases hn : nmCheck env.sqrt cfg.sc s.sc size fs calls (env.clock s.ticks) with e | sc
    · rw [hn] at h; cases h
    · rw [hn] at h
      cases h
      exact .inr (.inl ⟨sc, hn, h1⟩)
  by_cases c4 : ∃ a b, o = .checkCMA a b
  · obtain ⟨fs, calls, rfl⟩ := c4
    simp only [algHandler] at h
    cases h
    exact .inr (.inl h1)
  have := Progress.handler (cfg := cfg) (env := env) (ops := ops) o (fun b hb => c1 ⟨b, hb⟩) c2
    (fun a b c hh => c3 ⟨a, b, c, hh⟩) (fun a b hh => c4 ⟨a, b, hh⟩) s
  rw [h] at this
  rcases this.conv h1 with h | h | h
  · rw [h0] at h; cases h
  · exact .inl h
  · exact .inr (.inr h)

/-- a converged search keeps its reason, if the change-based criterion is not used -/
theorem handler_reason {s s' : AlgState V C O F} {o : Op K V F} {r : o.Res}
    (h : algHandler cfg env ops o s = (.ok r, s')) (hu : o ≠ .userStop) (hc : s.sc.isConverged = true)
    (hb : ¬ 1 < cfg.sc.cbsEvals) : s'.sc.reason = s.sc.reason := by
  by_cases c1 : ∃ b, o = .setConv b
  · obtain ⟨b, rfl⟩ := c1
    cases h; rfl
  by_cases c3 : ∃ a b c, o = .checkNM a b c
  · obtain ⟨size, fs, calls, rfl⟩ := c3
    simp only [algHandler] at h
    rw [Prog.bind_apply] at h
    simp only [readClock] at h
    rw [Prog.get_bind, Prog.bind_apply, Prog.lift_apply] at h
    unfold nmCheck at h
    rw [if_pos hc] at h
    cases h; rfl
  by_cases c4 : ∃ a b, o = .checkCMA a b
  · obtain ⟨fs, calls, rfl⟩ := c4
    simp only [algHandler] at h
    cases h
    show (cmaCheck env.sqrt cfg.sc s.sc fs calls (env.clock s.ticks)).reason = s.sc.reason
    unfold cmaCheck
    rw [if_pos hc]
  have := Progress.handler (cfg := cfg) (env := env) (ops := ops) o (fun b hb => c1 ⟨b, hb⟩) hu
    (fun a b c hh => c3 ⟨a, b, c, hh⟩) (fun a b hh => c4 ⟨a, b, hh⟩) s
  rw [h] at this
  exact this.reason hb

/-- what a search leaves alone or only extends -/
theorem handler_hist {s s' : AlgState V C O F} {o : Op K V F} {r : o.Res}
    (h : algHandler cfg env ops o s = (.ok r, s')) :
    s'.sc.startTime = s.sc.startTime ∧ ∃ l, s'.log = s.log ++ l ∧ s'.sc.track = s.sc.track ++ tracked cfg l := by
  by_cases c1 : ∃ b, o = .setConv b
  · obtain ⟨b, rfl⟩ := c1
    cases h; exact ⟨rfl, [], by simp [withSc, Prog.modify], by simp [tracked_nil, withSc, Prog.modify]⟩
  by_cases c2 : o = .userStop
  · subst c2
    cases h; exact ⟨rfl, [], by simp [withSc, Prog.modify], by simp [tracked_nil, withSc, Prog.modify]⟩
  by_cases c3 : ∃ a b c, o = .checkNM a b c
  · obtain ⟨size, fs, calls, rfl⟩ := c3
    simp only [algHandler] at h
    rw [Prog.bind_apply] at h
    simp only [readClock] at h
    rw [Prog.get_bind, Prog.bind_apply, Prog.lift_apply] at h
    dsimp only at h
    rcases hn : nmCheck env.sqrt cfg.sc s.sc size fs calls (env.clock s.ticks) with e | sc
    · rw [hn] at h; cases h
    · rw [hn] at h
      have h6 : _ = s' := congrArg Prod.snd h
      have h7 : s'.sc = sc := by rw [← h6]; rfl
      have h8 : s'.log = s.log := by rw [← h6]; rfl
      have h9 : sc.startTime = s.sc.startTime ∧ sc.track = s.sc.track := by
        unfold nmCheck at hn
        dsimp only at hn
        repeat' split at hn
        all_goals first | (injection hn with hn; rw [← hn]; exact ⟨rfl, rfl⟩) | cases hn
      exact ⟨by rw [h7, h9.1], [], by simp [h8], by simp [tracked_nil, h7, h9.2]⟩
  by_cases c4 : ∃ a b, o = .checkCMA a b
  · obtain ⟨fs, calls, rfl⟩ := c4
    simp only [algHandler] at h
    have h6 : _ = s' := congrArg Prod.snd h
    have h7 : s'.sc = cmaCheck env.sqrt cfg.sc s.sc fs calls (env.clock s.ticks) := by rw [← h6]; rfl
    have h8 : s'.log = s.log := by rw [← h6]; rfl
    have h9 : (cmaCheck env.sqrt cfg.sc s.sc fs calls (env.clock s.ticks)).startTime = s.sc.startTime ∧
        (cmaCheck env.sqrt cfg.sc s.sc fs calls (env.clock s.ticks)).track = s.sc.track := by
      unfold cmaCheck
      dsimp only
      repeat' split
      all_goals exact ⟨rfl, rfl⟩
    exact ⟨by rw [h7, h9.1], [], by simp [h8], by simp [tracked_nil, h7, h9.2]⟩
  have := Progress.handler (cfg := cfg) (env := env) (ops := ops) o (fun b hb => c1 ⟨b, hb⟩) c2
    (fun a b c hh => c3 ⟨a, b, c, hh⟩) (fun a b hh => c4 ⟨a, b, hh⟩) s
  rw [h] at this
  exact ⟨this.start, this.hist⟩

theorem Handled.hist {s s' : AlgState V C O F} {evs : List (Ev K V F)} (h : Handled (algHandler cfg env ops) s evs s') :
    s'.sc.startTime = s.sc.startTime ∧ ∃ l, s'.log = s.log ++ l ∧ s'.sc.track = s.sc.track ++ tracked cfg l := by
  induction evs generalizing s with
  | nil => cases h; exact ⟨rfl, [], by simp, by simp [tracked_nil]⟩
  | cons e evs ih =>
    obtain ⟨o, r⟩ := e
    obtain ⟨s1, h1, h2⟩ := h
    obtain ⟨a1, l1, b1, c1⟩ := handler_hist h1
    obtain ⟨a2, l2, b2, c2⟩ := ih h2
    exact ⟨a2.trans a1, l1 ++ l2, by rw [b2, b1]; simp, by rw [c2, c1, tracked_append]; simp⟩

/-- once stopped, always stopped -/
theorem handler_running {s s' : AlgState V C O F} {o : Op K V F} {r : o.Res}
    (h : algHandler cfg env ops o s = (.ok r, s')) (hr : s.running = false) : s'.running = false := by
  by_cases c1 : ∃ b, o = .setConv b
  · obtain ⟨b, rfl⟩ := c1
    cases h; exact hr
  by_cases c2 : o = .userStop
  · subst c2; cases h; exact hr
  by_cases c3 : ∃ a b c, o = .checkNM a b c
  · obtain ⟨size, fs, calls, rfl⟩ := c3
    simp only [algHandler] at h
    rw [Prog.bind_apply] at h
    simp only [readClock] at h
    rw [Prog.get_bind, Prog.bind_apply, Prog.lift_apply] at h
    rcases hn : nmCheck env.sqrt cfg.sc s.sc size fs calls (env.clock s.ticks) with e | sc
    · rw [hn] at h; cases h
    · rw [hn] at h
      cases h
      exact hr
  by_cases c4 : ∃ a b, o = .checkCMA a b
  · obtain ⟨fs, calls, rfl⟩ := c4
    simp only [algHandler] at h
    cases h
    exact hr
  have := Progress.handler (cfg := cfg) (env := env) (ops := ops) o (fun b hb => c1 ⟨b, hb⟩) c2
    (fun a b c hh => c3 ⟨a, b, c, hh⟩) (fun a b hh => c4 ⟨a, b, hh⟩) s
  rw [h] at this
  exact this.run hr

theorem Handled.running {s s' : AlgState V C O F} {evs : List (Ev K V F)} (h : Handled (algHandler cfg env ops) s evs s')
    (hr : s.running = false) : s'.running = false := by
  induction evs generalizing s with
  | nil => cases h; exact hr
  | cons e evs ih =>
    obtain ⟨o, r⟩ := e
    obtain ⟨s1, h1, h2⟩ := h
    exact ih h2 (handler_running h1 hr)

/-- A disciplined search: the flag is reset only in the beginning, and `userStop` is only called after the callback said
that the run is stopped. -/
def Disciplined (evs : List (Ev K V F)) : Prop :=
  ∀ pre o r post, evs = pre ++ ⟨o, r⟩ :: post → (∀ b, o = .setConv b → pre = [] ∧ b = false) ∧
    (o = .userStop → ∃ pre', pre = pre' ++ [⟨.callback, false⟩])

theorem Handled.snoc {S : Type} {hd : (o : Op K V F) → Prog S o.Res} {s s' : S} {a : List (Ev K V F)} {o : Op K V F}
    {r : o.Res} : Handled hd s (a ++ [⟨o, r⟩]) s' ↔ ∃ s1, Handled hd s a s1 ∧ hd o s1 = (.ok r, s') := by
  rw [Handled.append]
  constructor
  · rintro ⟨s1, h1, s2, h2, h3⟩; cases h3; exact ⟨s1, h1, h2⟩
  · rintro ⟨s1, h1, h2⟩; exact ⟨s1, h1, s', h2, rfl⟩

theorem Handled.det {S : Type} {hd : (o : Op K V F) → Prog S o.Res} {s s' s'' : S} {a : List (Ev K V F)}
    (h : Handled hd s a s') (h' : Handled hd s a s'') : s' = s'' := by
  induction a generalizing s with
  | nil => exact h.trans h'.symm
  | cons e a ih =>
    obtain ⟨o, r⟩ := e
    obtain ⟨s1, h1, h2⟩ := h
    obtain ⟨s2, h3, h4⟩ := h'
    have hs : s1 = s2 := by rw [h1] at h3; exact congrArg Prod.snd h3
    subst hs
    exact ih h2 h4

/-- A search whose flag is set has been stopped for a reason. -/
theorem Handled.cause {s s' : AlgState V C O F} {evs : List (Ev K V F)} {u : Unit}
    (h : Handled (algHandler cfg env ops) s (⟨.setConv false, u⟩ :: evs) s')
    (hd : Disciplined (⟨.setConv false, u⟩ :: evs)) (hc : s'.sc.isConverged = true) :
    s'.running = false ∨ ∃ pre o r post s1 s2, ⟨.setConv false, u⟩ :: evs = pre ++ ⟨o, r⟩ :: post ∧
      Handled (algHandler cfg env ops) s pre s1 ∧ algHandler cfg env ops o s1 = (.ok r, s2) ∧
      s1.sc.isConverged = false ∧ (CheckFires cfg env s1 o ∨
        ∃ t, s1.sc.track <+: t ∧ t <+: s2.sc.track ∧ ChangeFires cfg.sc t) ∧
      (¬ 1 < cfg.sc.cbsEvals → s'.sc.reason = s2.sc.reason) := by
  induction evs using List.reverseRecOn generalizing s' with
  | nil =>
    obtain ⟨s1, h1, h2⟩ := h
    cases h1; cases h2; cases hc
  | append_singleton evs e ih =>
    obtain ⟨o, r⟩ := e
    rw [← List.cons_append] at h
    obtain ⟨s1, h1, h2⟩ := Handled.snoc.1 h
    have hd' : Disciplined (⟨.setConv false, u⟩ :: evs) := by
      intro pre o' r' post he
      exact hd pre o' r' (post ++ [⟨o, r⟩]) (by rw [← List.cons_append, he]; simp)
    have hdo := hd (⟨.setConv false, u⟩ :: evs) o r [] (by simp)
    have hrun : o = .userStop → s1.running = false := by
      intro hu
      obtain ⟨pre', hp⟩ := hdo.2 hu
      rw [hp] at h1
      obtain ⟨s3, -, h4⟩ := Handled.snoc.1 h1
      simp only [algHandler] at h4
      rw [Prog.bind_apply] at h4
      rcases hpl : poll cfg env s3 with ⟨e | u, s5⟩
      · rw [hpl] at h4; cases h4
      · rw [hpl] at h4
        dsimp only at h4
        rw [Prog.get_bind] at h4
        have h5 : (Except.ok s5.running : Py Bool) = .ok false := congrArg Prod.fst h4
        have h6 : s5 = s1 := congrArg Prod.snd h4
        injection h5 with h5
        rw [← h6]; exact h5
    by_cases hc1 : s1.sc.isConverged = true
    · rcases ih h1 hd' hc1 with h | ⟨pre, o', r', post, s2, s3, he, h3, h4, h5, h6, h7⟩
      · exact .inl (handler_running h2 h)
      · by_cases hu : o = .userStop
        · exact .inl (handler_running h2 (hrun hu))
        · exact .inr ⟨pre, o', r', post ++ [⟨o, r⟩], s2, s3, by rw [← List.cons_append, he]; simp, h3, h4, h5, h6,
            fun hb => (handler_reason h2 hu hc1 hb).trans (h7 hb)⟩
    · have hc1 : s1.sc.isConverged = false := by simpa using hc1
      rcases handler_cause h2 (fun b hb => absurd (hdo.1 b hb).1 (by simp)) hrun hc1 hc with h | h | h
      · exact .inl h
      · exact .inr ⟨_, o, r, [], s1, s', by simp, h1, h2, hc1, .inl h, fun _ => rfl⟩
      · exact .inr ⟨_, o, r, [], s1, s', by simp, h1, h2, hc1, .inr h, fun _ => rfl⟩

end
end QuOCS

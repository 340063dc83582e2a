/-
Two runs that differ only in their stop conditions: the one that stops earlier makes the first calls of the other one.
-/
import Verif.Lemmas.FirstCall

set_option linter.unusedSectionVars false
set_option linter.unusedVariables false

namespace QuOCS

section
variable {K V C O F : Type} [LE K] [DecidableLE K]
variable [Add F] [Sub F] [Mul F] [Div F] [Neg F] [Zero F] [One F] [NatCast F] [LE F] [LT F] [DecidableLE F]
  [DecidableLT F]
variable {α β : Type}

/-- The conditions that end a run: budget, time limit, goal, stop requests. -/
structure Stops (F : Type) where
  budget : ℤ
  time : ℚ
  goal : Option F
  async : ℕ → Async

/-- the settings with these stop conditions -/
def AlgCfg.until (cfg : AlgCfg K F) (a : Stops F) : AlgCfg K F :=
  { cfg with maxEvalTotal := a.budget, totalTimeLim := a.time, userGoal := a.goal }
/-- the environment with these stop requests -/
def Env.until (env : Env V C F) (a : Stops F) : Env V C F := { env with async := a.async }

/-- The conditions `a` are met whenever the conditions `b` are. `E n` must hold if they can differ after `n` calls. -/
structure Stops.Before (a b : Stops F) (E : ℕ → Prop) (maximize : Bool) : Prop where
  budget : a.budget ≤ b.budget
  budgetE : ∀ n : ℕ, a.budget ≤ n → (n : ℤ) < b.budget → E n
  time : a.time ≤ b.time
  timeOn : a.time < 10 ^ 10 ↔ b.time < 10 ^ 10
  timeE : a.time = b.time ∨ ∀ n, E n
  goal : ∀ g, b.goal = some g → ∃ g', a.goal = some g' ∧ ∀ f, f ≤ dirMul maximize g → f ≤ dirMul maximize g'
  goalE : a.goal = b.goal ∨ ∀ n, E n
  async : ∀ n, a.async n = b.async n ∨ (b.async n = .none ∧ ∀ n, E n)

/-- The first run made the first calls of the second one; either `E` holds, or both made the same calls and the second is stopped. -/
def Part (E : ℕ → Prop) (s1 s2 : AlgState V C O F) : Prop :=
  s1.log <+: s2.log ∧ (E s1.log.length ∨ (s1.log = s2.log ∧ s2.running = false))

/-- Outcomes of both runs: the same, or the first one is stopped, or the first one raised an exception. -/
def Out (E : ℕ → Prop) (Q : AlgState V C O F → Prop) (r1 r2 : Py α × AlgState V C O F) : Prop :=
  (r1 = r2 ∧ (isOk r1.1 = true → Q r1.2)) ∨ ((r1.2.running = false ∨ isOk r1.1 = false) ∧ Part E r1.2 r2.2)

/-- Both programs behave the same way from states with `P` until the first one is stopped. -/
structure Sim (E : ℕ → Prop) (P Q : AlgState V C O F → Prop) (m1 m2 : Prog (AlgState V C O F) α) : Prop where
  left : Frames m1
  right : Frames m2
  step : ∀ s, P s → Out E Q (m1 s) (m2 s)

variable {E : ℕ → Prop} {P Q R : AlgState V C O F → Prop}

theorem Part.frames {s1 s2 : AlgState V C O F} (h : Part E s1 s2) {m2 : Prog (AlgState V C O F) α} (h2 : Frames m2) :
    Part E s1 (m2 s2).2 := by
  refine ⟨h.1.trans (h2 s2).1, h.2.imp_right fun h => ?_⟩
  have := (h2 s2).2 h.2
  exact ⟨h.1.trans this.1.symm, this.2⟩

theorem Part.frames_left {s1 s2 : AlgState V C O F} (h : Part E s1 s2) (hr : s1.running = false) {m1 : Prog (AlgState V C O F) α}
    (h1 : Frames m1) : Part E (m1 s1).2 s2 ∧ (m1 s1).2.running = false := by
  have := (h1 s1).2 hr
  unfold Part
  rw [this.1]
  exact ⟨h, this.2⟩

theorem Sim.bind {m1 m2 : Prog (AlgState V C O F) α} {f1 f2 : α → Prog (AlgState V C O F) β} (hm : Sim E P Q m1 m2)
    (hf : ∀ a, Sim E Q R (f1 a) (f2 a)) : Sim E P R (m1 >>= f1) (m2 >>= f2) := by
  refine ⟨hm.left.bind fun a => (hf a).left, hm.right.bind fun a => (hf a).right, fun s hs => ?_⟩
  have h := hm.step s hs
  rw [Prog.bind_apply, Prog.bind_apply]
  rcases e1 : m1 s with ⟨r1, s1⟩
  rcases e2 : m2 s with ⟨r2, s2⟩
  rw [e1, e2] at h
  rcases h with ⟨h, hQ⟩ | ⟨h, hp⟩
  · obtain ⟨rfl, rfl⟩ := Prod.mk.inj h
    rcases r1 with e | a
    · exact .inl ⟨rfl, fun h => by cases h⟩
    · exact (hf a).step s1 (hQ rfl)
  · dsimp only at h hp ⊢
    right
    rcases r1 with e | a
    · rcases r2 with e2 | a2
      · exact ⟨.inr rfl, hp⟩
      · exact ⟨.inr rfl, hp.frames (hf a2).right⟩
    · rcases h with h | h
      · obtain ⟨h1, h2⟩ := hp.frames_left h (hf a).left
        rcases r2 with e2 | a2
        · exact ⟨.inl h2, h1⟩
        · exact ⟨.inl h2, h1.frames (hf a2).right⟩
      · cases h

/-- the same program on both sides -/
theorem Sim.same {m : Prog (AlgState V C O F) α} (hm : Frames m) (h : ∀ s, P s → isOk (m s).1 = true → Q (m s).2) : Sim E P Q m m :=
  ⟨hm, hm, fun s hs => .inl ⟨rfl, h s hs⟩⟩

theorem Sim.get_bind {f1 f2 : AlgState V C O F → Prog (AlgState V C O F) α}
    (h : ∀ s0, Sim E (fun s => P s ∧ s0 = s) Q (f1 s0) (f2 s0)) : Sim E P Q (Prog.get >>= f1) (Prog.get >>= f2) := by
  refine ⟨.bind .get fun s => (h s).left, .bind .get fun s => (h s).right, fun s hs => ?_⟩
  exact (h s).step s ⟨hs, rfl⟩

theorem Sim.imp {m1 m2 : Prog (AlgState V C O F) α} (h : Sim E P Q m1 m2) (hR : ∀ s, R s → P s) : Sim E R Q m1 m2 :=
  ⟨h.left, h.right, fun s hs => h.step s (hR s hs)⟩

theorem Sim.pure (a : α) (h : ∀ s, P s → Q s) : Sim E P Q (Pure.pure a) (Pure.pure a) :=
  .same (Frames.lift (.ok a)) fun s hs _ => h s hs
theorem Sim.lift (x : Py α) : Sim E P P (Prog.lift x) (Prog.lift x) := .same (.lift x) fun s hs _ => hs
theorem Sim.modify {f : AlgState V C O F → AlgState V C O F} (hf : ∀ s, (f s).log = s.log ∧ (f s).running = s.running)
    (h : ∀ s, P s → Q (f s)) : Sim E P Q (Prog.modify f) (Prog.modify f) := .same (.modify hf) fun s hs _ => h s hs

/-- as long as the run is running, `iter` counts the calls, with `d` more of them started -/
def Counting (d : ℕ) (s : AlgState V C O F) : Prop := s.running = true → s.iter = s.log.length + d

/-- A program that stops the first run only. -/
theorem Sim.stops {d : ℕ} {m1 m2 : Prog (AlgState V C O F) Unit}
    (h1 : Frames m1) (h2 : Frames m2)
    (h : ∀ s, Counting d s → (m1 s = m2 s ∧ (isOk (m1 s).1 = true → Counting d (m1 s).2)) ∨
      ((m1 s).2.log = s.log ∧ (m2 s).2 = s ∧ ((m1 s).2.running = false ∨ isOk (m1 s).1 = false) ∧ (s.running = true → E s.log.length)) ∨
      (s.running = false ∧ (m1 s).2.running = false ∧ (m1 s).2.log = s.log)) : Sim E (Counting d) (Counting d) m1 m2 := by
  refine ⟨h1, h2, fun s hs => ?_⟩
  rcases h s hs with h | ⟨a, b, c, e⟩ | ⟨a, b, c⟩
  · exact .inl h
  · refine .inr ⟨c, ?_⟩
    unfold Part
    rw [a, b]
    refine ⟨List.prefix_refl _, ?_⟩
    rcases hr : s.running with _ | _
    · exact .inr ⟨rfl, rfl⟩
    · exact .inl (e hr)
  · refine .inr ⟨.inl b, ?_⟩
    have := (h2 s).2 a
    unfold Part
    rw [c, this.1]
    exact ⟨List.prefix_refl _, .inr ⟨rfl, this.2⟩⟩

variable {cfg : AlgCfg K F} {env : Env V C F} {ops : CtlOps O V C} {a b : Stops F} {d : ℕ}

theorem Frames.poll (cfg : AlgCfg K F) (env : Env V C F) : Frames (poll cfg env : Prog (AlgState V C O F) Unit) := by
  intro s
  unfold QuOCS.poll stopWith
  split
  · exact ⟨List.prefix_refl _, fun h => ⟨rfl, h⟩⟩
  · exact ⟨List.prefix_refl _, fun h => ⟨rfl, rfl⟩⟩
  · split
    · exact ⟨List.prefix_refl _, fun h => ⟨rfl, rfl⟩⟩
    · exact ⟨List.prefix_refl _, fun h => ⟨rfl, h⟩⟩

theorem Counting.poll {s : AlgState V C O F} (hs : Counting d s) : Counting d (poll cfg env s).2 := by
  unfold QuOCS.poll stopWith
  split
  · exact hs
  · intro h; cases h
  · split
    · intro h; cases h
    · exact hs

theorem Sim.poll (hb : a.Before b E cfg.maximize) :
    Sim E (Counting (V := V) (C := C) (O := O) d) (Counting d) (poll (cfg.until a) (env.until a)) (poll (cfg.until b) (env.until b)) := by
  refine ⟨.poll _ _, .poll _ _, fun s hs => ?_⟩
  rcases hb.async s.polls with h | ⟨h, hE⟩
  · left
    have e : QuOCS.poll (cfg.until a) (env.until a) s = QuOCS.poll (cfg.until b) (env.until b) s := by
      unfold QuOCS.poll
      simp only [Env.until, h]
      rfl
    exact ⟨e, fun _ => hs.poll⟩
  · have e2 : QuOCS.poll (cfg.until b) (env.until b) s = (.ok (), { s with polls := s.polls + 1 }) := by
      unfold QuOCS.poll
      simp only [Env.until, h]
    rw [e2]
    rcases h1 : a.async s.polls with _ | _ | _
    · left
      have : QuOCS.poll (cfg.until a) (env.until a) s = (.ok (), { s with polls := s.polls + 1 }) := by
        unfold QuOCS.poll; simp only [Env.until, h1]
      rw [this]
      exact ⟨rfl, fun _ => hs⟩
    · right
      have : QuOCS.poll (cfg.until a) (env.until a) s = (.ok (), { s with polls := s.polls + 1, running := false }) := by
        unfold QuOCS.poll; simp only [Env.until, h1]
      rw [this]
      exact ⟨.inl rfl, List.prefix_refl _, .inl (hE _)⟩
    · right
      unfold QuOCS.poll
      simp only [Env.until, h1]
      split
      · exact ⟨.inl rfl, List.prefix_refl _, .inl (hE _)⟩
      · exact ⟨.inr rfl, List.prefix_refl _, .inl (hE _)⟩

theorem Frames.stopWith (cfg : AlgCfg K F) (r : String) : Frames (stopWith cfg r : Prog (AlgState V C O F) Unit) :=
  fun s => ⟨List.prefix_refl _, fun _ => ⟨rfl, rfl⟩⟩

theorem Frames.budgetCheck (cfg : AlgCfg K F) : Frames (budgetCheck cfg : Prog (AlgState V C O F) Unit) := by
  intro s
  unfold QuOCS.budgetCheck
  split
  · exact Frames.stopWith _ _ s
  · exact ⟨List.prefix_refl _, fun h => ⟨rfl, h⟩⟩

theorem Sim.budgetCheck (hb : a.Before b E cfg.maximize) :
    Sim E (Counting (V := V) (C := C) (O := O) 0) (Counting 0) (budgetCheck (cfg.until a)) (budgetCheck (cfg.until b)) := by
  refine .stops (.budgetCheck _) (.budgetCheck _) fun s hs => ?_
  have e : ∀ c : Stops F, QuOCS.budgetCheck (cfg.until c) s = if (s.iter : ℤ) ≥ c.budget then
      QuOCS.stopWith cfg "Maximum number of total function evaluations reached" s else (.ok (), s) := fun _ => rfl
  rw [e a, e b]
  by_cases h2 : (s.iter : ℤ) ≥ b.budget
  · rw [if_pos h2, if_pos (le_trans hb.budget h2)]
    exact .inl ⟨rfl, fun _ h => by cases h⟩
  · rw [if_neg h2]
    by_cases h1 : (s.iter : ℤ) ≥ a.budget
    · rw [if_pos h1]
      refine .inr (.inl ⟨rfl, rfl, .inl rfl, fun hr => ?_⟩)
      have := hs hr
      rw [Nat.add_zero] at this
      rw [← this]
      exact hb.budgetE _ h1 (not_le.1 h2)
    · rw [if_neg h1]
      exact .inl ⟨rfl, fun _ => hs⟩

theorem Frames.goalCheck (cfg : AlgCfg K F) : Frames (goalCheck cfg : Prog (AlgState V C O F) Unit) := by
  intro s
  unfold QuOCS.goalCheck
  split
  · split
    · exact Frames.stopWith _ _ s
    · exact ⟨List.prefix_refl _, fun h => ⟨rfl, h⟩⟩
  · exact ⟨List.prefix_refl _, fun h => ⟨rfl, h⟩⟩

theorem Sim.goalCheck (hb : a.Before b E cfg.maximize) :
    Sim E (Counting (V := V) (C := C) (O := O) 0) (Counting 0) (goalCheck (cfg.until a)) (goalCheck (cfg.until b)) := by
  refine .stops (.goalCheck _) (.goalCheck _) fun s hs => ?_
  have e : ∀ c : Stops F, QuOCS.goalCheck (cfg.until c) s = match c.goal with
    | some g => if s.bestFoM ≤ dirMul cfg.maximize g then QuOCS.stopWith cfg "Goal FoM reached" s else (.ok (), s)
    | none => (.ok (), s) := by
    intro c
    unfold QuOCS.goalCheck AlgCfg.goal
    simp only [AlgCfg.until]
    rcases c.goal with _ | g <;> rfl
  rw [e a, e b]
  rcases hbg : b.goal with _ | g
  · rcases hag : a.goal with _ | g'
    · exact .inl ⟨rfl, fun _ => hs⟩
    · dsimp only
      by_cases h1 : s.bestFoM ≤ dirMul cfg.maximize g'
      · rw [if_pos h1]
        refine .inr (.inl ⟨rfl, rfl, .inl rfl, fun _ => ?_⟩)
        rcases hb.goalE with h | h
        · rw [hbg, hag] at h; cases h
        · exact h _
      · rw [if_neg h1]
        exact .inl ⟨rfl, fun _ => hs⟩
  · obtain ⟨g', hag, himp⟩ := hb.goal g hbg
    rw [hag]
    dsimp only
    by_cases h2 : s.bestFoM ≤ dirMul cfg.maximize g
    · rw [if_pos h2, if_pos (himp _ h2)]
      exact .inl ⟨rfl, fun _ h => by cases h⟩
    · rw [if_neg h2]
      by_cases h1 : s.bestFoM ≤ dirMul cfg.maximize g'
      · rw [if_pos h1]
        refine .inr (.inl ⟨rfl, rfl, .inl rfl, fun _ => ?_⟩)
        rcases hb.goalE with h | h
        · rw [hbg, hag] at h; cases h; exact absurd h1 h2
        · exact h _
      · rw [if_neg h1]
        exact .inl ⟨rfl, fun _ => hs⟩

theorem Frames.readClock (env : Env V C F) : Frames (readClock env : Prog (AlgState V C O F) ℚ) :=
  fun s => ⟨List.prefix_refl _, fun h => ⟨rfl, h⟩⟩

theorem Frames.timeCheckAt (cfg : AlgCfg K F) (now : ℚ) : Frames (timeCheckAt cfg now : Prog (AlgState V C O F) Unit) := by
  intro s
  unfold QuOCS.timeCheckAt
  split
  · exact Frames.stopWith _ _ s
  · exact ⟨List.prefix_refl _, fun h => ⟨rfl, h⟩⟩

theorem Sim.timeCheck (hb : a.Before b E cfg.maximize) :
    Sim E (Counting (V := V) (C := C) (O := O) 0) (Counting 0) (timeCheck (cfg.until a) (env.until a)) (timeCheck (cfg.until b) (env.until b)) := by
  unfold QuOCS.timeCheck
  by_cases h : b.time < 10 ^ 10
  · rw [if_pos (show (cfg.until b).totalTimeLim < 10 ^ 10 from h), if_pos (show (cfg.until a).totalTimeLim < 10 ^ 10 from hb.timeOn.2 h)]
    refine .bind (Q := Counting 0) (.same (.readClock _) fun s hs _ => hs) fun now => ?_
    refine .stops (.timeCheckAt _ _) (.timeCheckAt _ _) fun s hs => ?_
    have e : ∀ c : Stops F, QuOCS.timeCheckAt (cfg.until c) now s = if now - s.optStart ≥ c.time then
        QuOCS.stopWith cfg "Maximum optimization runtime reached" s else (.ok (), s) := fun _ => rfl
    rw [e a, e b]
    by_cases h2 : now - s.optStart ≥ b.time
    · rw [if_pos h2, if_pos (le_trans hb.time h2)]
      exact .inl ⟨rfl, fun _ h => by cases h⟩
    · rw [if_neg h2]
      by_cases h1 : now - s.optStart ≥ a.time
      · rw [if_pos h1]
        refine .inr (.inl ⟨rfl, rfl, .inl rfl, fun _ => ?_⟩)
        rcases hb.timeE with h | h
        · rw [h] at h1; exact absurd h1 h2
        · exact h _
      · rw [if_neg h1]
        exact .inl ⟨rfl, fun _ => hs⟩
  · rw [if_neg (show ¬ (cfg.until b).totalTimeLim < 10 ^ 10 from h), if_neg (show ¬ (cfg.until a).totalTimeLim < 10 ^ 10 from fun h' => h (hb.timeOn.1 h'))]
    exact .pure () fun s hs => hs

theorem Frames.routineCall (cfg : AlgCfg K F) (env : Env V C F) (ops : CtlOps O V C) (x : V) (it : ℕ) :
    Frames (routineCall cfg env ops x it) := by
  intro s
  have h := (routineCall_spec (cfg := cfg) (env := env) (ops := ops) x it s).eff
  cases h with
  | still hl _ _ hr _ => exact ⟨by rw [hl], fun h => ⟨hl, hr h⟩⟩
  | counted hl _ _ hr _ _ => exact ⟨by rw [hl], fun h => by rw [hr] at h; cases h⟩
  | measured c hl _ _ hr _ _ _ _ _ _ => exact ⟨by rw [hl]; exact List.prefix_append _ _, fun h => by rw [hr] at h; cases h⟩

theorem Frames.sendControls (ops : CtlOps O V C) (x : V) : Frames (sendControls ops x : Prog (AlgState V C O F) C) := by
  intro s
  unfold QuOCS.sendControls
  split <;> exact ⟨List.prefix_refl _, fun h => ⟨rfl, h⟩⟩

/-- nothing more is done in a stopped run -/
def whenRunning (v : α) (m : Prog (AlgState V C O F) α) : Prog (AlgState V C O F) α :=
  fun s => if s.running = false then (.ok v, s) else m s

theorem get_whenRunning (v : α) (m : Prog (AlgState V C O F) α) :
    (Prog.get >>= fun s => if s.running = false then Pure.pure v else m) = whenRunning v m := by
  funext s
  rw [Prog.get_bind]
  unfold whenRunning
  split <;> rfl

theorem Frames.measure_running {c : C} {x : V} :
    Frames (whenRunning cfg.fomMax (measure cfg env x c) : Prog (AlgState V C O F) F) := by
  intro s
  unfold whenRunning
  split
  · rename_i h; exact ⟨List.prefix_refl _, fun _ => ⟨rfl, h⟩⟩
  · rename_i hr
    refine ⟨?_, fun h => absurd h hr⟩
    rcases ha : env.getFoM s.log c with e | a
    · rw [measure_raised x c s e ha]; exact List.prefix_append _ _
    · rcases hf : a.fom with _ | f
      · rw [measure_noValue x c s a ha hf]; exact List.prefix_append _ _
      · obtain ⟨fl, il, sc', hm⟩ := measure_answered (cfg := cfg) x c s a f ha hf
        rw [hm]; exact List.prefix_append _ _

theorem Counting.measure {c : C} {x : V} {s : AlgState V C O F} (hs : Counting 1 s) (h : isOk (measure cfg env x c s).1 = true) :
    Counting 0 (measure cfg env x c s).2 := by
  rcases ha : env.getFoM s.log c with e | a
  · rw [measure_raised x c s e ha] at h; cases h
  · rcases hf : a.fom with _ | f
    · rw [measure_noValue x c s a ha hf] at h; cases h
    · obtain ⟨fl, il, sc', hm⟩ := measure_answered (cfg := cfg) x c s a f ha hf
      rw [hm]
      intro hr
      have hr : (if a.status.getD 0 = 0 then s.running else false) = true := hr
      have : s.running = true := by
        split at hr
        · exact hr
        · cases hr
      simp [hs this]

theorem Sim.whenRunning (v : α) {m1 m2 : Prog (AlgState V C O F) α} (hv : ∀ s, s.running = false → Q s) (h : Sim E P Q m1 m2) :
    Sim E P Q (whenRunning v m1) (whenRunning v m2) := by
  have hf : ∀ m : Prog (AlgState V C O F) α, Frames m → Frames (QuOCS.whenRunning v m) := by
    intro m hm s
    unfold QuOCS.whenRunning
    split
    · rename_i hr; exact ⟨List.prefix_refl _, fun _ => ⟨rfl, hr⟩⟩
    · exact hm s
  refine ⟨hf _ h.left, hf _ h.right, fun s hs => ?_⟩
  unfold QuOCS.whenRunning
  by_cases hr : s.running = false
  · rw [if_pos hr, if_pos hr]
    exact .inl ⟨rfl, fun _ => hv s hr⟩
  · rw [if_neg hr, if_neg hr]
    exact h.step s hs

theorem Sim.routineCall (hb : a.Before b E cfg.maximize) (x : V) (it : ℕ) :
    Sim E (Counting 0) (Counting 0) (routineCall (cfg.until a) (env.until a) ops x it) (routineCall (cfg.until b) (env.until b) ops x it) := by
  have e : ∀ c : Stops F, (QuOCS.routineCall (cfg.until c) (env.until c) ops x it : Prog (AlgState V C O F) F) = (do
      QuOCS.poll (cfg.until c) (env.until c)
      (do QuOCS.budgetCheck (cfg.until c)
          (do QuOCS.goalCheck (cfg.until c)
              QuOCS.timeCheck (cfg.until c) (env.until c)))
      QuOCS.poll (cfg.until c) (env.until c)
      QuOCS.whenRunning cfg.fomMax (do
        Prog.modify (fun s => { s with xx := some x, algIter := it, iter := s.iter + 1 })
        let u ← QuOCS.sendControls ops x
        QuOCS.poll (cfg.until c) (env.until c)
        QuOCS.whenRunning cfg.fomMax (QuOCS.measure cfg env x u))) := by
    intro c
    unfold QuOCS.routineCall QuOCS.stopChecks
    simp only [get_whenRunning]
    rfl
  rw [e a, e b]
  refine .bind (.poll hb) fun _ => .bind (.bind (.budgetCheck hb) fun _ => .bind (.goalCheck hb) fun _ => .timeCheck hb) fun _ =>
    .bind (.poll hb) fun _ => .whenRunning _ (fun s h h' => by rw [h] at h'; cases h') ?_
  refine .bind (Q := Counting 1) (.modify (fun s => ⟨rfl, rfl⟩) fun s hs hr => by
    have := hs hr
    simp only [this]) fun _ => .bind (Q := Counting 1) (.same (.sendControls ops x) fun s hs h => ?_) fun u => .bind (.poll hb) fun _ =>
    .same .measure_running fun s hs h => ?_
  · revert h
    unfold QuOCS.sendControls
    split
    · intro h; cases h
    · intro _; exact hs
  · unfold QuOCS.whenRunning at h ⊢
    by_cases hr : s.running = false
    · rw [if_pos hr]
      intro h'
      dsimp only at h'
      rw [hr] at h'; cases h'
    · rw [if_neg hr] at h ⊢
      exact hs.measure h

/-- a program that makes no call and does not change the counter and the running state -/
def Silent (m : Prog (AlgState V C O F) α) : Prop :=
  ∀ s, (m s).2.log = s.log ∧ (m s).2.running = s.running ∧ (m s).2.iter = s.iter

theorem Sim.silent {m : Prog (AlgState V C O F) α} (h : Silent m) : Sim E (Counting d) (Counting d) m m := by
  refine .same (fun s => ⟨by rw [(h s).1], fun hr => ⟨(h s).1, (h s).2.1.trans hr⟩⟩) fun s hs _ hr => ?_
  rw [(h s).1, (h s).2.2]
  exact hs ((h s).2.1.symm.trans hr)

theorem Silent.modify {f : AlgState V C O F → AlgState V C O F}
    (h : ∀ s, (f s).log = s.log ∧ (f s).running = s.running ∧ (f s).iter = s.iter) : Silent (Prog.modify f) := h
theorem Silent.lift (x : Py α) : Silent (Prog.lift x : Prog (AlgState V C O F) α) := fun s => ⟨rfl, rfl, rfl⟩
theorem Silent.pure (x : α) : Silent (Pure.pure x : Prog (AlgState V C O F) α) := fun s => ⟨rfl, rfl, rfl⟩
theorem Silent.raise (e : PyErr) : Silent (Prog.raise e : Prog (AlgState V C O F) α) := fun s => ⟨rfl, rfl, rfl⟩
theorem Silent.readClock : Silent (readClock env : Prog (AlgState V C O F) ℚ) := fun s => ⟨rfl, rfl, rfl⟩
theorem Silent.withSc (f : Sc F → Sc F) : Silent (withSc f : Prog (AlgState V C O F) Unit) := fun s => ⟨rfl, rfl, rfl⟩

theorem Silent.storeTest (i : ℕ) (f : F) : Silent (storeTest i f : Prog (AlgState V C O F) Unit) := by
  intro s
  unfold QuOCS.storeTest
  split
  · exact ⟨rfl, rfl, rfl⟩
  · dsimp only
    split <;> exact ⟨rfl, rfl, rfl⟩

theorem Silent.reEvalFinish (last : F) : Silent (reEvalFinish cfg env last : Prog (AlgState V C O F) F) := by
  intro s
  unfold QuOCS.reEvalFinish
  dsimp only
  split
  · split <;> exact ⟨rfl, rfl, rfl⟩
  · exact ⟨rfl, rfl, rfl⟩

theorem Silent.innerDrift (v : F) : Silent (innerDrift v : Prog (AlgState V C O F) F) := by
  intro s
  unfold QuOCS.innerDrift
  dsimp only
  split <;> exact ⟨rfl, rfl, rfl⟩

theorem Silent.gradientControls (x : V) : Silent (gradientControls ops x : Prog (AlgState V C O F) Unit) := by
  intro s
  unfold QuOCS.gradientControls
  split <;> exact ⟨rfl, rfl, rfl⟩

theorem Silent.updateBasePulses : Silent (updateBasePulses ops : Prog (AlgState V C O F) Unit) := by
  intro s
  unfold QuOCS.updateBasePulses
  split
  · exact ⟨rfl, rfl, rfl⟩
  · split <;> exact ⟨rfl, rfl, rfl⟩

theorem Sim.get {f1 f2 : AlgState V C O F → Prog (AlgState V C O F) α} (h : ∀ s, Sim E P Q (f1 s) (f2 s)) :
    Sim E P Q (Prog.get >>= f1) (Prog.get >>= f2) := .get_bind fun s => (h s).imp fun _ h => h.1

theorem Sim.reEvalLoop (hb : a.Before b E cfg.maximize) (x : V) (it : ℕ) (last : F) (i : ℕ) (ps : List F) :
    Sim E (Counting 0) (Counting 0) (reEvalLoop (cfg.until a) (env.until a) ops x it last i ps)
      (reEvalLoop (cfg.until b) (env.until b) ops x it last i ps) := by
  induction ps generalizing i with
  | nil => exact .silent (.reEvalFinish (cfg := cfg) (env := env) last)
  | cons p ps ih =>
    refine .get fun s => ?_
    show Sim E _ _ (if probBetter cfg env (averageSum s).1 (averageSum s).2 s.bestFoM s.bestSigma < p then _ else _)
      (if probBetter cfg env (averageSum s).1 (averageSum s).2 s.bestFoM s.bestSigma < p then _ else _)
    split
    · exact .silent (.pure _)
    · exact .bind (.routineCall hb x it) fun f => .bind (.silent (.storeTest _ f)) fun _ => ih (i + 1)

theorem Sim.innerCall (hb : a.Before b E cfg.maximize) (x : V) (it : ℕ) :
    Sim E (Counting 0) (Counting 0) (innerCall (cfg.until a) (env.until a) ops x it) (innerCall (cfg.until b) (env.until b) ops x it) := by
  unfold QuOCS.innerCall
  refine .bind (.silent (.modify fun s => ⟨rfl, rfl, rfl⟩)) fun _ => .bind (.routineCall hb x it) fun f => ?_
  have e : ∀ c : Stops F, (cfg.until c).reEval = cfg.reEval := fun _ => rfl
  rw [e a, e b]
  rcases cfg.reEval with _ | steps
  · exact .silent (.pure f)
  · refine .get fun s => ?_
    refine .bind (.silent (.modify fun s => ⟨rfl, rfl, rfl⟩)) fun _ => .bind (.silent (.storeTest 0 f)) fun _ => ?_
    show Sim E _ _ (match (if s.iter = 1 then [cfg.half] else steps).getLast? with | none => _ | some last => _)
      (match (if s.iter = 1 then [cfg.half] else steps).getLast? with | none => _ | some last => _)
    rcases (if s.iter = 1 then [cfg.half] else steps).getLast? with _ | last
    · exact .silent (.raise _)
    · exact .reEvalLoop hb x it last 0 _

theorem Sim.handler (hb : a.Before b E cfg.maximize) (o : Op K V F) :
    Sim E (Counting 0) (Counting 0) (algHandler (cfg.until a) (env.until a) ops o) (algHandler (cfg.until b) (env.until b) ops o) := by
  cases o with
  | eval x it =>
    show Sim E _ _ (if cfg.kind = .grape then _ else _) (if cfg.kind = .grape then _ else _)
    split
    · exact .bind (.silent (.modify fun s => ⟨rfl, rfl, rfl⟩)) fun _ => .bind (.silent (.gradientControls x)) fun _ => .routineCall hb x 0
    · exact .innerCall hb x it
  | drift x it v => exact .silent (.innerDrift v)
  | readConv => exact .bind (.poll hb) fun _ => .get fun s => .silent (.pure _)
  | setConv c => exact .silent (.withSc _)
  | callback => exact .bind (.poll hb) fun _ => .get fun s => .silent (.pure _)
  | userStop => exact .silent (.withSc _)
  | checkNM size fsim calls =>
    exact .bind (.silent .readClock) fun now => .get fun s => .bind (.silent (.lift _)) fun sc => .silent (.withSc _)
  | checkCMA fsim calls => exact .bind (.silent .readClock) fun now => .silent (.withSc _)
  | now => exact .silent .readClock
  | reason => exact .get fun s => .silent (.pure _)
  | fail e => exact .silent (.raise e)

theorem Sim.interp (hb : a.Before b E cfg.maximize) (st : Strat K V F α) :
    Sim E (Counting 0) (Counting 0) (st.interp (algHandler (cfg.until a) (env.until a) ops))
      (st.interp (algHandler (cfg.until b) (env.until b) ops)) := by
  induction st with
  | ret r => exact .silent (.pure r)
  | op o k ih => exact .bind (.handler hb o) ih

theorem Sim.dsmBuild (hb : a.Before b E cfg.maximize) (dsm : Dsm K V F) :
    Sim E (Counting 0) (Counting 0) (dsmBuild (cfg.until a) (env.until a) ops dsm) (dsmBuild (cfg.until b) (env.until b) ops dsm) :=
  .get fun s => .bind (.silent (.lift _)) fun x => .bind (.silent (.lift _)) fun sg => .bind (.silent (.lift _)) fun sim =>
    .bind (.silent (.modify fun s => ⟨rfl, rfl, rfl⟩)) fun _ => .bind (.interp hb _) fun r =>
    .silent (.modify fun s => ⟨rfl, rfl, rfl⟩)

theorem Sim.sumRoutine (hb : a.Before b E cfg.maximize) (x : V) (n : ℕ) (acc : F) :
    Sim E (Counting 0) (Counting 0) (sumRoutine (cfg.until a) (env.until a) ops x n acc) (sumRoutine (cfg.until b) (env.until b) ops x n acc) := by
  induction n generalizing acc with
  | zero => exact .silent (.pure acc)
  | succ n ih => exact .bind (.routineCall hb x 0) fun f => ih _

theorem Sim.updateFoM (hb : a.Before b E cfg.maximize) :
    Sim E (Counting 0) (Counting 0) (updateFoM (cfg.until a) (env.until a) ops) (updateFoM (cfg.until b) (env.until b) ops) := by
  refine .get fun s => .bind (.silent (.lift _)) fun x => .bind (.silent (.modify fun s => ⟨rfl, rfl, rfl⟩)) fun _ =>
    .bind (.sumRoutine hb x _ _) fun f => ?_
  show Sim E _ _ (if cfg.driftAverage = 0 then _ else _) (if cfg.driftAverage = 0 then _ else _)
  split
  · exact .silent (.raise _)
  · exact .silent (.modify fun s => ⟨rfl, rfl, rfl⟩)

theorem Sim.superIteration (hb : a.Before b E cfg.maximize) (dsm : Dsm K V F) (k : ℕ) :
    Sim E (Counting 0) (Counting 0) (superIteration (cfg.until a) (env.until a) ops dsm k)
      (superIteration (cfg.until b) (env.until b) ops dsm k) := by
  refine .bind (.silent .readClock) fun now => .bind (.silent (.withSc _)) fun _ => .bind (.silent (.modify fun s => ⟨rfl, rfl, rfl⟩))
    fun _ => .bind ?_ fun _ => .get fun s => .bind (.silent (.lift _)) fun o => .bind (.silent (.modify fun s => ⟨rfl, rfl, rfl⟩))
    fun _ => .bind (.dsmBuild hb dsm) fun _ => .silent .updateBasePulses
  show Sim E _ _ (if cfg.driftAfterSI = true ∧ k ≥ 2 then _ else _) (if cfg.driftAfterSI = true ∧ k ≥ 2 then _ else _)
  split
  · exact .updateFoM hb
  · exact .silent (.pure _)

theorem Sim.dcrabLoop (hb : a.Before b E cfg.maximize) (dsm : Dsm K V F) (n k : ℕ) :
    Sim E (Counting 0) (Counting 0) (dcrabLoop (cfg.until a) (env.until a) ops dsm n k) (dcrabLoop (cfg.until b) (env.until b) ops dsm n k) := by
  induction n generalizing k with
  | zero => exact .silent (.pure ())
  | succ n ih =>
    refine .bind (.poll hb) fun _ => .get fun s => ?_
    split
    · exact .silent (.pure ())
    · exact .bind (.superIteration hb dsm k) fun _ => ih (k + 1)

theorem Sim.run (hb : a.Before b E cfg.maximize) (dsm : Dsm K V F) :
    Sim E (Counting 0) (Counting 0) (run (cfg.until a) (env.until a) ops dsm) (run (cfg.until b) (env.until b) ops dsm) := by
  unfold QuOCS.run
  have e : ∀ c : Stops F, (cfg.until c).kind = cfg.kind := fun _ => rfl
  rw [e a, e b]
  rcases cfg.kind with _ | _ | _
  · exact .dcrabLoop hb dsm _ 1
  · exact .dsmBuild hb dsm
  · exact .get fun s => .bind (.silent (.lift _)) fun x => .bind (.silent (.lift _)) fun sg => .bind (.silent (.lift _)) fun sim =>
      .bind (.interp hb _) fun r => .silent .updateBasePulses

/-- The run that stops earlier makes the first calls of the other run. -/
theorem execute_before (hb : a.Before b E cfg.maximize) (dsm : Dsm K V F) (o : O) :
    (execute (cfg.until a) (env.until a) ops dsm o).2.log <+: (execute (cfg.until b) (env.until b) ops dsm o).2.log ∧
    (E (execute (cfg.until a) (env.until a) ops dsm o).2.log.length ∨
      (execute (cfg.until a) (env.until a) ops dsm o).2.log = (execute (cfg.until b) (env.until b) ops dsm o).2.log) := by
  have h := (Sim.run (ops := ops) (env := env) hb dsm).step (initState cfg env o) (fun _ => rfl)
  have e : ∀ c : Stops F, execute (cfg.until c) (env.until c) ops dsm o = QuOCS.run (cfg.until c) (env.until c) ops dsm (initState cfg env o) :=
    fun _ => rfl
  rw [e a, e b]
  rcases h with ⟨h, _⟩ | ⟨_, h⟩
  · rw [h]; exact ⟨List.prefix_refl _, .inr rfl⟩
  · exact ⟨h.1, h.2.imp_right fun h => h.1⟩

end
end QuOCS

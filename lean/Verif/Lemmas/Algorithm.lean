/-
Every program of the algorithm layer changes the state by a sequence of a few kinds of actions.
-/
import Mathlib.Logic.Relation
import Verif.Spec.Run
import Verif.Lemmas.Prog

set_option linter.unusedSectionVars false

namespace QuOCS
open Relation

variable {K V C O F : Type} [LE K] [DecidableLE K]
variable [Add F] [Sub F] [Mul F] [Div F] [Neg F] [Zero F] [One F] [NatCast F] [LE F] [LT F] [DecidableLE F]
  [DecidableLT F]

/-- Only the running state (which never comes back), the stopping criteria, the higher-order reason and the
counters of polls and clock readings may have changed, and a stop request that was seen has stopped the run. -/
structure Quiet (env : Env V C F) (s s' : AlgState V C O F) : Prop where
  frame : s' = { s with running := s'.running, hoReason := s'.hoReason, sc := s'.sc, polls := s'.polls,
                        ticks := s'.ticks }
  mono : s.running = false → s'.running = false
  polls_le : s.polls ≤ s'.polls
  ticks_le : s.ticks ≤ s'.ticks
  seen : s'.running = true → ∀ n, s.polls ≤ n → n < s'.polls → env.async n = .none

theorem Quiet.refl (env : Env V C F) (s : AlgState V C O F) : Quiet env s s :=
  ⟨rfl, id, le_rfl, le_rfl, fun _ n h1 h2 => absurd h2 (by omega)⟩

theorem Quiet.trans {env : Env V C F} {s s' s'' : AlgState V C O F} (h : Quiet env s s') (h' : Quiet env s' s'') :
    Quiet env s s'' := by
  refine ⟨?_, fun h0 => h'.mono (h.mono h0), h.polls_le.trans h'.polls_le, h.ticks_le.trans h'.ticks_le, ?_⟩
  · rw [h'.frame, h.frame]
  · intro hr n h1 h2
    by_cases hn : n < s'.polls
    · refine h.seen ?_ n h1 hn
      by_contra hf
      have := h'.mono (by simpa using hf)
      rw [this] at hr; cases hr
    · exact h'.seen hr n (by omega) h2

/-- One action. The flag tells whether the program goes on (`true`) or ends with an exception (`false`).
`d` : drift-compensated values may be announced. -/
inductive Act (cfg : AlgCfg K F) (env : Env V C F) (ops : CtlOps O V C) (d : Bool) :
    Bool → AlgState V C O F → AlgState V C O F → Prop
  | quiet {s s'} (h : Quiet env s s') : Act cfg env ops d true s s'
  | fail (s) : Act cfg env ops d false s s
  | sigint (s r) (hk : cfg.hasDsm = false) : Act cfg env ops d false s { s with polls := s.polls + 1, hoReason := r }
  /-- an evaluation requested by the search -/
  | fresh (x it s s0 r s') (h0 : s0 = { s with isRecord := false, stepNumber := s0.stepNumber })
      (h1 : cfg.kind ≠ .grape → s0.stepNumber = 0) (h2 : cfg.kind = .grape → s0.stepNumber = s.stepNumber)
      (h : routineCall cfg env ops x it s0 = (r, s')) : Act cfg env ops d (isOk r) s s'
  /-- a re-evaluation or an evaluation for drift compensation -/
  | again (x it s) (h : (cfg.kind ≠ .grape ∧ cfg.reEval ≠ none) ∨ (cfg.kind = .dcrab ∧ cfg.driftAfterSI = true)) :
      Act cfg env ops d (isOk (routineCall cfg env ops x it s).1) s (routineCall cfg env ops x it s).2
  | tests (b s ft st n) (hk : cfg.kind ≠ .grape) (h : cfg.reEval ≠ none) (hf : ft.length = s.fomTest.length)
      (hs : st.length = s.sigmaTest.length) :
      Act cfg env ops d b s { s with fomTest := ft, sigmaTest := st, stepNumber := n }
  | record (s mu sg x) (hk : cfg.kind ≠ .grape) (h : cfg.reEval ≠ none) (hx : s.xx = some x) :
      Act cfg env ops d true s
        { s with bestSigma := sg, bestFoM := mu, isRecord := true, bestXX := some x
                 dumps := s.dumps ++ [⟨s.commCtl, true, mu, s.iter, s.log.length⟩] }
  | recordFail (s mu sg) (hk : cfg.kind ≠ .grape) (h : cfg.reEval ≠ none) (hx : s.xx = none) :
      Act cfg env ops d false s { s with bestSigma := sg, bestFoM := mu, isRecord := true }
  | drift (s v x) (hd : d = true) (hx : s.xx = some x) :
      Act cfg env ops d true s
        { s with bestFoM := v, isRecord := true, bestXX := some x
                 dumps := s.dumps ++ [⟨s.commCtl, true, v, s.iter, s.log.length⟩] }
  | driftFail (s v) (hd : d = true) (hx : s.xx = none) :
      Act cfg env ops d false s { s with bestFoM := v, isRecord := true }
  | grapeControls (b s x o c) (hk : cfg.kind = .grape) (h : ops.getControls s.ctl x = .ok (o, c)) :
      Act cfg env ops d b s { s with ctl := o, isRecord := false }
  | grapeFail (s) (hk : cfg.kind = .grape) : Act cfg env ops d false s { s with isRecord := false }
  | selectBasis (s k o) (hk : cfg.kind = .dcrab) (h : ops.selectBasis k s.ctl = .ok o) :
      Act cfg env ops d true s { s with ctl := o }
  | superIt (s k) (hk : cfg.kind = .dcrab) (hm : 1 ≤ k ∧ k ≤ cfg.maxSI) :
      Act cfg env ops d true s
        { s with superIt := k, sc := { s.sc with startTime := env.clock s.ticks, track := [] }, ticks := s.ticks + 1 }
  | driftBegin (s) (hk : cfg.kind = .dcrab) (hd : cfg.driftAfterSI = true) :
      Act cfg env ops d true s { s with isRecord := true, stepNumber := 0 }
  | driftEnd (s f) (hk : cfg.kind = .dcrab) (hd : cfg.driftAfterSI = true) :
      Act cfg env ops d true s { s with bestFoM := f }
  | startX (s x) (h : ops.mean s.ctl = .ok x) : Act cfg env ops d true s { s with bestXX := some x }
  | reason (s r) : Act cfg env ops d true s { s with terminateReason := r }
  | updateBase (s x o) (hx : s.bestXX = some x) (h : ops.updateBase s.ctl x = .ok o) :
      Act cfg env ops d true s { s with ctl := o, paraList := s.paraList ++ [x] }

/-- A sequence of actions without exception. -/
abbrev Trace (cfg : AlgCfg K F) (env : Env V C F) (ops : CtlOps O V C) (d : Bool) :
    AlgState V C O F → AlgState V C O F → Prop := ReflTransGen (Act cfg env ops d true)

/-- `m` changes the state by a sequence of actions, the last of which raises if `m` raises. -/
def Traced {α : Type} (cfg : AlgCfg K F) (env : Env V C F) (ops : CtlOps O V C) (d : Bool)
    (m : Prog (AlgState V C O F) α) : Prop :=
  ∀ s, ∃ s1, Trace cfg env ops d s s1 ∧
    ((isOk (m s).1 = true ∧ (m s).2 = s1) ∨ (isOk (m s).1 = false ∧ Act cfg env ops d false s1 (m s).2))

section
variable {cfg : AlgCfg K F} {env : Env V C F} {ops : CtlOps O V C} {d : Bool} {α β : Type}

theorem Traced.act {m : Prog (AlgState V C O F) α} (h : ∀ s, Act cfg env ops d (isOk (m s).1) s (m s).2) :
    Traced cfg env ops d m := by
  intro s
  have hs := h s
  rcases hb : isOk (m s).1 with _ | _
  · exact ⟨s, .refl, .inr ⟨rfl, hb ▸ hs⟩⟩
  · exact ⟨(m s).2, .single (hb ▸ hs), .inl ⟨rfl, rfl⟩⟩

theorem Traced.pure (a : α) : Traced cfg env ops d (Pure.pure a : Prog (AlgState V C O F) α) :=
  fun s => ⟨s, .refl, .inl ⟨rfl, rfl⟩⟩

theorem Traced.get : Traced cfg env ops d (Prog.get : Prog (AlgState V C O F) _) :=
  fun s => ⟨s, .refl, .inl ⟨rfl, rfl⟩⟩

theorem Traced.raise (e : PyErr) : Traced cfg env ops d (Prog.raise e : Prog (AlgState V C O F) α) :=
  fun s => ⟨s, .refl, .inr ⟨rfl, .fail s⟩⟩

theorem Traced.lift (x : Py α) : Traced cfg env ops d (Prog.lift x : Prog (AlgState V C O F) α) := by
  rcases x with e | a
  · exact fun s => ⟨s, .refl, .inr ⟨rfl, .fail s⟩⟩
  · exact fun s => ⟨s, .refl, .inl ⟨rfl, rfl⟩⟩

/-- sequencing, with knowledge about the state between the two parts -/
theorem Traced.bind' {m : Prog (AlgState V C O F) α} {f : α → Prog (AlgState V C O F) β}
    (hm : Traced cfg env ops d m) (s : AlgState V C O F)
    (hf : ∀ a s', m s = (.ok a, s') → ∃ s1, Trace cfg env ops d s' s1 ∧
      ((isOk (f a s').1 = true ∧ (f a s').2 = s1) ∨
        (isOk (f a s').1 = false ∧ Act cfg env ops d false s1 (f a s').2))) :
    ∃ s1, Trace cfg env ops d s s1 ∧
      ((isOk ((m >>= f) s).1 = true ∧ ((m >>= f) s).2 = s1) ∨
        (isOk ((m >>= f) s).1 = false ∧ Act cfg env ops d false s1 ((m >>= f) s).2)) := by
  obtain ⟨s1, t1, h1⟩ := hm s
  rcases hms : m s with ⟨e | a, s'⟩
  · rw [Prog.bind_error hms]
    rw [hms] at h1
    rcases h1 with ⟨h, _⟩ | ⟨_, h⟩
    · cases h
    · exact ⟨s1, t1, .inr ⟨rfl, h⟩⟩
  · rw [Prog.bind_ok hms]
    rw [hms] at h1
    rcases h1 with ⟨_, h⟩ | ⟨h, _⟩
    · cases h
      obtain ⟨s2, t2, h2⟩ := hf a s' hms
      exact ⟨s2, t1.trans t2, h2⟩
    · cases h

theorem Traced.bind {m : Prog (AlgState V C O F) α} {f : α → Prog (AlgState V C O F) β}
    (hm : Traced cfg env ops d m) (hf : ∀ a, Traced cfg env ops d (f a)) : Traced cfg env ops d (m >>= f) :=
  fun s => hm.bind' s (fun a s' _ => hf a s')

theorem Traced.ite {p : Prop} [Decidable p] {m m' : Prog (AlgState V C O F) α}
    (h : p → Traced cfg env ops d m) (h' : ¬ p → Traced cfg env ops d m') :
    Traced cfg env ops d (if p then m else m') := by
  by_cases hp : p
  · rw [if_pos hp]; exact h hp
  · rw [if_neg hp]; exact h' hp

theorem Traced.quiet {m : Prog (AlgState V C O F) α} (h : ∀ s, isOk (m s).1 = true ∧ Quiet env s (m s).2) :
    Traced cfg env ops d m :=
  .act fun s => by rw [(h s).1]; exact .quiet (h s).2

theorem Traced.modify {f : AlgState V C O F → AlgState V C O F} (h : ∀ s, Act cfg env ops d true s (f s)) :
    Traced cfg env ops d (Prog.modify f) := .act fun s => h s

theorem quiet_readClock (s : AlgState V C O F) : Quiet env s (readClock env s).2 :=
  ⟨rfl, id, le_rfl, Nat.le_succ _, fun _ n h1 h2 => absurd h2 (Nat.not_lt.2 h1)⟩

theorem Traced.readClock : Traced cfg env ops d (QuOCS.readClock env : Prog (AlgState V C O F) ℚ) :=
  .quiet fun s => ⟨rfl, quiet_readClock s⟩

theorem quiet_withSc (f : Sc F → Sc F) (s : AlgState V C O F) : Quiet env s (withSc f s).2 :=
  ⟨rfl, id, le_rfl, le_rfl, fun _ n h1 h2 => absurd h2 (Nat.not_lt.2 h1)⟩

theorem Traced.withSc (f : Sc F → Sc F) : Traced cfg env ops d (QuOCS.withSc f : Prog (AlgState V C O F) Unit) :=
  .quiet fun s => ⟨rfl, quiet_withSc f s⟩

theorem quiet_stopWith (r : String) (s : AlgState V C O F) : Quiet env s (stopWith cfg r s).2 :=
  ⟨rfl, fun _ => rfl, le_rfl, le_rfl, fun h => by cases h⟩

/-- Outcome of a poll. -/
theorem poll_cases (s : AlgState V C O F) :
    (isOk (poll cfg env s).1 = true ∧ Quiet env s (poll cfg env s).2) ∨
    (cfg.hasDsm = false ∧ ∃ e, poll cfg env s = (.error e, { s with polls := s.polls + 1, hoReason := "User stopped the optimization" })) := by
  unfold poll
  rcases ha : env.async s.polls with _ | _ | _
  · refine .inl ⟨rfl, rfl, id, Nat.le_succ _, le_rfl, ?_⟩
    intro _ n h1 h2
    have : n = s.polls := by simp at h2; omega
    rw [this, ha]
  · exact .inl ⟨rfl, rfl, fun _ => rfl, Nat.le_succ _, le_rfl, fun h => by cases h⟩
  · by_cases hd : cfg.hasDsm = true
    · simp only [hd, if_true]
      refine .inl ⟨rfl, ⟨rfl, fun _ => rfl, Nat.le_succ _, le_rfl, fun h => by cases h⟩⟩
    · have hd : cfg.hasDsm = false := by simpa using hd
      simp only [hd]
      exact .inr ⟨trivial, _, rfl⟩

theorem Traced.poll : Traced cfg env ops d (QuOCS.poll cfg env : Prog (AlgState V C O F) Unit) := by
  refine .act fun s => ?_
  rcases poll_cases (cfg := cfg) (env := env) s with ⟨h1, h2⟩ | ⟨h1, e, h2⟩
  · rw [h1]; exact .quiet h2
  · rw [h2]; exact .sigint s _ h1

/-- The three checks before an evaluation only stop the run; if it goes on they all passed. -/
theorem checks_spec (s : AlgState V C O F) :
    ∃ s', stopChecks cfg env s = (.ok (), s') ∧
      Quiet env s s' ∧
      (s'.running = true → (s.iter : ℤ) < cfg.maxEvalTotal ∧ (∀ g, cfg.goal = some g → ¬ s.bestFoM ≤ g) ∧
        (cfg.totalTimeLim < 10 ^ 10 → env.clock (s'.ticks - 1) - s.optStart < cfg.totalTimeLim)) := by
  obtain ⟨s1, h1, q1, p1⟩ : ∃ s1, budgetCheck cfg s = (.ok (), s1) ∧ Quiet env s s1 ∧
      (s1.running = true → (s.iter : ℤ) < cfg.maxEvalTotal) := by
    unfold budgetCheck
    by_cases h : (s.iter : ℤ) ≥ cfg.maxEvalTotal
    · rw [if_pos h]; exact ⟨_, rfl, quiet_stopWith _ s, fun h => by cases h⟩
    · rw [if_neg h]; exact ⟨_, rfl, .refl _ _, fun _ => by omega⟩
  obtain ⟨s2, h2, q2, p2⟩ : ∃ s2, goalCheck cfg s1 = (.ok (), s2) ∧ Quiet env s1 s2 ∧
      (s2.running = true → ∀ g, cfg.goal = some g → ¬ s1.bestFoM ≤ g) := by
    unfold goalCheck
    rcases cfg.goal with _ | g
    · exact ⟨_, rfl, .refl _ _, fun _ g h => by cases h⟩
    · by_cases h : s1.bestFoM ≤ g
      · simp only [h, if_true]; exact ⟨_, rfl, quiet_stopWith _ s1, fun h => by cases h⟩
      · simp only [h, if_false]
        refine ⟨_, rfl, .refl _ _, fun _ g' h' => ?_⟩
        cases h'; exact h
  obtain ⟨s3, h3, q3, p3⟩ : ∃ s3, timeCheck cfg env s2 = (.ok (), s3) ∧ Quiet env s2 s3 ∧
      (s3.running = true → cfg.totalTimeLim < 10 ^ 10 → env.clock (s3.ticks - 1) - s2.optStart < cfg.totalTimeLim) := by
    unfold timeCheck
    by_cases hl : cfg.totalTimeLim < 10 ^ 10
    · rw [if_pos hl, Prog.bind_apply]
      unfold QuOCS.readClock timeCheckAt
      by_cases h : env.clock s2.ticks - s2.optStart ≥ cfg.totalTimeLim
      · simp only [h, if_true]
        exact ⟨_, rfl, (quiet_readClock s2).trans (quiet_stopWith _ _), fun h => by cases h⟩
      · simp only [h, if_false]
        exact ⟨_, rfl, quiet_readClock s2, fun _ _ => Rat.not_le.1 h⟩
    · rw [if_neg hl]
      exact ⟨_, rfl, .refl _ _, fun _ h => absurd h hl⟩
  refine ⟨s3, ?_, (q1.trans q2).trans q3, ?_⟩
  · unfold stopChecks
    rw [Prog.bind_ok h1, Prog.bind_ok h2, h3]
  · intro hr
    have r2 : s2.running = true := by
      by_contra h; have := q3.mono (by simpa using h); rw [this] at hr; cases hr
    have r1 : s1.running = true := by
      by_contra h; have := q2.mono (by simpa using h); rw [this] at r2; cases r2
    have e1 : s1.bestFoM = s.bestFoM := by rw [q1.frame]
    have e2 : s2.optStart = s.optStart := by rw [q2.frame, q1.frame]
    refine ⟨p1 r1, ?_, ?_⟩
    · rw [← e1]; exact p2 r2
    · rw [← e2]; exact p3 hr

/-- What a routine call does. -/
inductive RoutineSpec (cfg : AlgCfg K F) (env : Env V C F) (ops : CtlOps O V C) (x : V) (it : ℕ)
    (s : AlgState V C O F) : Py F → AlgState V C O F → Prop
  /-- the run is stopped -/
  | stopped (s1) (q : Quiet env s s1) (hr : s1.running = false) : RoutineSpec cfg env ops x it s (.ok cfg.fomMax) s1
  /-- SIGINT without `dsm_obj` -/
  | sigint (s1 r e) (q : Quiet env s s1) (hk : cfg.hasDsm = false) :
      RoutineSpec cfg env ops x it s (.error e) { s1 with polls := s1.polls + 1, hoReason := r }
  /-- building the controls failed -/
  | noControls (s1 e) (q : Quiet env s s1) (hr : s1.running = true) (hi : (s.iter : ℤ) < cfg.maxEvalTotal)
      (h : ops.getControls s.ctl x = .error e) :
      RoutineSpec cfg env ops x it s (.error e) { s1 with xx := some x, algIter := it, iter := s.iter + 1 }
  /-- stopped after the controls were sent -/
  | window (s1 o c s2) (q : Quiet env s s1) (hr : s1.running = true) (hi : (s.iter : ℤ) < cfg.maxEvalTotal)
      (h : ops.getControls s.ctl x = .ok (o, c))
      (q2 : Quiet env { s1 with xx := some x, algIter := it, iter := s.iter + 1, ctl := o, commCtl := some c, signals := s1.signals ++ [.controls c] } s2)
      (hr2 : s2.running = false) (ha : ∃ n, env.async n ≠ .none) : RoutineSpec cfg env ops x it s (.ok cfg.fomMax) s2
  | windowSigint (s1 o c s2 r e) (q : Quiet env s s1) (hr : s1.running = true) (hi : (s.iter : ℤ) < cfg.maxEvalTotal)
      (h : ops.getControls s.ctl x = .ok (o, c))
      (q2 : Quiet env { s1 with xx := some x, algIter := it, iter := s.iter + 1, ctl := o, commCtl := some c, signals := s1.signals ++ [.controls c] } s2)
      (hk : cfg.hasDsm = false) :
      RoutineSpec cfg env ops x it s (.error e) { s2 with polls := s2.polls + 1, hoReason := r }
  /-- the user's function is called -/
  | measured (s1 o c s2) (q : Quiet env s s1) (hr : s1.running = true) (hi : (s.iter : ℤ) < cfg.maxEvalTotal)
      (hg : ∀ g, cfg.goal = some g → ¬ s.bestFoM ≤ g)
      (ht : cfg.totalTimeLim < 10 ^ 10 → env.clock (s2.ticks - 1) - s.optStart < cfg.totalTimeLim)
      (h : ops.getControls s.ctl x = .ok (o, c))
      (q2 : Quiet env { s1 with xx := some x, algIter := it, iter := s.iter + 1, ctl := o, commCtl := some c, signals := s1.signals ++ [.controls c] } s2)
      (hr2 : s2.running = true) :
      RoutineSpec cfg env ops x it s (measure cfg env x c s2).1 (measure cfg env x c s2).2

theorem poll_running (s : AlgState V C O F) (h : s.running = true) (h' : (poll cfg env s).2.running = false) :
    env.async s.polls ≠ .none := by
  intro ha
  unfold poll at h'
  rw [ha] at h'
  exact absurd (h.symm.trans h') (by decide)

theorem poll_ticks (s : AlgState V C O F) : (poll cfg env s).2.ticks = s.ticks := by
  unfold poll stopWith
  rcases env.async s.polls with _ | _ | _ <;> (try rfl)
  dsimp only
  split <;> rfl

theorem routineCall_spec (x : V) (it : ℕ) (s : AlgState V C O F) :
    RoutineSpec cfg env ops x it s (routineCall cfg env ops x it s).1 (routineCall cfg env ops x it s).2 := by
  unfold routineCall
  rw [Prog.bind_apply]
  rcases poll_cases (cfg := cfg) (env := env) s with ⟨h1, q0⟩ | ⟨h1, e, h2⟩
  swap
  · rw [h2]; exact .sigint s _ e (.refl _ _) h1
  rcases hp : poll cfg env s with ⟨e | u, s0⟩
  · rw [hp] at h1; cases h1
  rw [hp] at q0
  dsimp only at q0 ⊢
  obtain ⟨s1, hc, q1, hchk⟩ := checks_spec (cfg := cfg) (env := env) s0
  rw [Prog.bind_ok hc, Prog.bind_apply]
  rcases poll_cases (cfg := cfg) (env := env) s1 with ⟨h1', q2⟩ | ⟨h1', e, h2⟩
  swap
  · rw [h2]; exact .sigint s1 _ e (q0.trans q1) h1'
  have htk := poll_ticks (cfg := cfg) (env := env) s1
  rcases hp' : poll cfg env s1 with ⟨e | u', s2⟩
  · rw [hp'] at h1'; cases h1'
  rw [hp'] at q2 htk
  dsimp only at q2 htk ⊢
  have q := (q0.trans q1).trans q2
  rw [Prog.get_bind]
  by_cases hr : s2.running = false
  · rw [if_pos hr]; exact .stopped s2 q hr
  rw [if_neg hr]
  have hr : s2.running = true := by simpa using hr
  have hr1 : s1.running = true := by
    by_contra h; have := q2.mono (by simpa using h); rw [this] at hr; cases hr
  obtain ⟨hi, hg, ht⟩ := hchk hr1
  have ei : s2.iter = s.iter := by rw [q.frame]
  have e0 : s0.iter = s.iter := by rw [q0.frame]
  have e0b : s0.bestFoM = s.bestFoM := by rw [q0.frame]
  have e0o : s0.optStart = s.optStart := by rw [q0.frame]
  have ec : s2.ctl = s.ctl := by rw [q.frame]
  rw [e0] at hi; rw [e0b] at hg; rw [e0o] at ht
  rw [Prog.modify_bind, ei, Prog.bind_apply]
  unfold sendControls
  dsimp only
  rcases hgc : ops.getControls s2.ctl x with e | ⟨o, c⟩
  · rw [ec] at hgc
    exact .noControls s2 e q hr hi hgc
  rw [ec] at hgc
  dsimp only
  rw [Prog.bind_apply]
  have htk3 := poll_ticks (cfg := cfg) (env := env)
    { s2 with xx := some x, algIter := it, iter := s.iter + 1, ctl := o, commCtl := some c, signals := s2.signals ++ [.controls c] }
  rcases poll_cases (cfg := cfg) (env := env)
    { s2 with xx := some x, algIter := it, iter := s.iter + 1, ctl := o, commCtl := some c, signals := s2.signals ++ [.controls c] } with ⟨h1'', q3⟩ | ⟨h1'', e, h2⟩
  swap
  · rw [h2]
    exact .windowSigint s2 o c _ _ e q hr hi hgc (.refl _ _) h1''
  rcases hp'' : poll cfg env
    { s2 with xx := some x, algIter := it, iter := s.iter + 1, ctl := o, commCtl := some c, signals := s2.signals ++ [.controls c] } with ⟨e | u'', s3⟩
  · rw [hp''] at h1''; cases h1''
  rw [hp''] at q3 htk3
  dsimp only at q3 htk3 ⊢
  rw [Prog.get_bind]
  by_cases hr3 : s3.running = false
  · rw [if_pos hr3]
    exact .window s2 o c s3 q hr hi hgc q3 hr3 ⟨_, poll_running (cfg := cfg) (env := env)
      { s2 with xx := some x, algIter := it, iter := s.iter + 1, ctl := o, commCtl := some c, signals := s2.signals ++ [.controls c] } hr (by rw [hp'']; exact hr3)⟩
  · rw [if_neg hr3]
    exact .measured s2 o c s3 q hr hi hg (by rw [htk3, htk]; exact ht) hgc q3 (by simpa using hr3)

theorem Traced.again (h : (cfg.kind ≠ .grape ∧ cfg.reEval ≠ none) ∨ (cfg.kind = .dcrab ∧ cfg.driftAfterSI = true))
    (x : V) (it : ℕ) : Traced cfg env ops d (routineCall cfg env ops x it) :=
  .act fun s => .again x it s h

theorem setIdx_length {l l' : List F} {i : ℕ} {v : F} (h : setIdx l i v = .ok l') : l'.length = l.length := by
  unfold setIdx at h
  split at h
  · cases h; simp
  · cases h

theorem Traced.storeTest (hk : cfg.kind ≠ .grape) (h : cfg.reEval ≠ none) (i : ℕ) (f : F) :
    Traced cfg env ops d (QuOCS.storeTest i f : Prog (AlgState V C O F) Unit) := by
  refine .act fun s => ?_
  unfold QuOCS.storeTest
  rcases hft : setIdx s.fomTest i f with e | ft
  · exact .fail s
  · have e1 := setIdx_length hft
    dsimp only
    rcases hst : setIdx s.sigmaTest i (s.fomDict.std.getD 1) with e | st
    · exact .tests _ s _ _ _ hk h e1 rfl
    · exact .tests _ s _ _ _ hk h e1 (setIdx_length hst)

theorem Traced.reEvalFinish (hk : cfg.kind ≠ .grape) (h : cfg.reEval ≠ none) (last : F) :
    Traced cfg env ops d (QuOCS.reEvalFinish cfg env last : Prog (AlgState V C O F) F) := by
  refine .act fun s => ?_
  unfold QuOCS.reEvalFinish
  dsimp only
  split
  · split
    · rename_i hx
      exact .recordFail s _ _ hk h hx
    · rename_i x hx
      exact .record s _ _ x hk h hx
  · exact .quiet (.refl _ _)

theorem Traced.reEvalLoop (hk : cfg.kind ≠ .grape) (h : cfg.reEval ≠ none) (x : V) (it : ℕ) (last : F)
    (ps : List F) (i : ℕ) : Traced cfg env ops d (QuOCS.reEvalLoop cfg env ops x it last i ps) := by
  induction ps generalizing i with
  | nil => exact .reEvalFinish hk h last
  | cons p ps ih =>
    refine .bind .get fun s => .ite (fun _ => .pure _) fun _ => ?_
    exact .bind (.again (.inl ⟨hk, h⟩) x it) fun f => .bind (.storeTest hk h _ f) fun _ => ih _

theorem Traced.innerCall (hk : cfg.kind ≠ .grape) (x : V) (it : ℕ) :
    Traced cfg env ops d (QuOCS.innerCall cfg env ops x it) := by
  have hfresh : Traced cfg env ops d (do
      Prog.modify (fun s => { s with isRecord := false, stepNumber := 0 })
      routineCall cfg env ops x it) := by
    refine .act fun s => ?_
    rw [Prog.modify_bind]
    exact .fresh x it s _ _ _ rfl (fun _ => rfl) (fun h => absurd h hk) rfl
  unfold QuOCS.innerCall
  refine (?_ : Traced cfg env ops d ((do
      Prog.modify (fun s => { s with isRecord := false, stepNumber := 0 })
      routineCall cfg env ops x it) >>= _))
  refine .bind hfresh fun f => ?_
  rcases hre : cfg.reEval with _ | steps
  · exact .pure f
  · have h : cfg.reEval ≠ none := by rw [hre]; simp
    refine .bind .get fun s => .bind (.modify fun s => ?_) fun _ => .bind (.storeTest hk h 0 f) fun _ => ?_
    · exact .tests true s _ _ s.stepNumber hk h (by simp) (by simp)
    · rcases (if s.iter = 1 then [cfg.half] else steps).getLast? with _ | last
      · exact .raise _
      · exact .reEvalLoop hk h x it last _ 0

theorem Traced.innerDrift (v : F) : Traced cfg env ops true (QuOCS.innerDrift v : Prog (AlgState V C O F) F) := by
  refine .act fun s => ?_
  unfold QuOCS.innerDrift
  dsimp only
  split
  · rename_i hx
    exact .driftFail s v rfl hx
  · rename_i x hx
    exact .drift s v x rfl hx

theorem Traced.innerGrape (hk : cfg.kind = .grape) (x : V) : Traced cfg env ops d (QuOCS.innerGrape cfg env ops x) := by
  unfold QuOCS.innerGrape
  intro s
  rw [Prog.modify_bind, Prog.bind_apply]
  unfold gradientControls
  dsimp only
  rcases hg : ops.getControls s.ctl x with e | ⟨o, c⟩
  · exact ⟨s, .refl, .inr ⟨rfl, .grapeFail s hk⟩⟩
  · have ht : Traced cfg env ops d (do
        Prog.modify (fun s => { s with isRecord := false })
        routineCall cfg env ops x 0) := by
      refine .act fun s => ?_
      rw [Prog.modify_bind]
      exact .fresh x 0 s { s with isRecord := false } _ _ rfl (fun h => absurd hk h) (fun _ => rfl) rfl
    obtain ⟨s1, t1, h1⟩ := ht { s with ctl := o, isRecord := false }
    exact ⟨s1, .head (.grapeControls true s x o c hk hg) t1, h1⟩

theorem Traced.handler (o : Op K V F) (h : d = true ∨ ∀ x it v, o ≠ .drift x it v) :
    Traced cfg env ops d (algHandler cfg env ops o) := by
  cases o with
  | eval x it =>
    refine .ite (fun hk => ?_) fun hk => ?_
    · exact .innerGrape hk x
    · exact .innerCall hk x it
  | drift x it v =>
    rcases h with rfl | h
    · exact .innerDrift v
    · exact absurd rfl (h x it v)
  | readConv => exact .bind .poll fun _ => .bind .get fun s => .pure _
  | setConv b => exact .withSc _
  | callback => exact .bind .poll fun _ => .bind .get fun s => .pure _
  | userStop => exact .withSc _
  | checkNM size fsim calls =>
    exact .bind .readClock fun _ => .bind .get fun s => .bind (.lift _) fun _ => .withSc _
  | checkCMA fsim calls => exact .bind .readClock fun _ => .withSc _
  | now => exact .readClock
  | reason => exact .bind .get fun s => .pure _
  | fail e => exact .raise _

theorem Traced.interp (st : Strat K V F α) (h : d = true ∨ st.NoDrift) :
    Traced cfg env ops d (st.interp (algHandler cfg env ops)) := by
  induction st with
  | ret a => exact .pure a
  | op o k ih =>
    exact .bind (.handler o (h.imp_right fun h => h.1)) fun r => ih r (h.imp_right fun h => h.2 r)

theorem Traced.dsmBuild (dsm : Dsm K V F) (h : d = true ∨ ∀ i x sim sg, (dsm i x sim sg).NoDrift) :
    Traced cfg env ops d (QuOCS.dsmBuild cfg env ops dsm) := by
  unfold QuOCS.dsmBuild
  intro s
  rw [Prog.get_bind]
  rcases hm : ops.mean s.ctl with e | x0
  · exact (Traced.raise e).bind' s (fun a s' h => by cases h)
  · have : Traced cfg env ops d (do
        let sigma ← Prog.lift (ops.sigma s.ctl)
        let sim ← Prog.lift (ops.simplex s.superIt x0 sigma)
        let r ← (dsm s.superIt x0 sim sigma).interp (algHandler cfg env ops)
        Prog.modify (fun s => { s with terminateReason := r.reason })) :=
      .bind (.lift _) fun _ => .bind (.lift _) fun _ => .bind (.interp _ (h.imp_right fun h => h _ _ _ _)) fun r =>
        .modify fun s => .reason s _
    rcases hsg : ops.sigma s.ctl with e | sg
    · exact ⟨s, .refl, .inr ⟨rfl, .fail s⟩⟩
    rcases hsi : ops.simplex s.superIt x0 sg with e | sim
    · have hx : (Prog.lift (.ok x0 : Py V) >>= fun x0 => Prog.lift (.ok sg : Py V) >>= fun sigma =>
          Prog.lift (ops.simplex s.superIt x0 sigma) >>= fun sim =>
          Prog.modify (fun s => { s with bestXX := some x0 }) >>= fun _ =>
          (dsm s.superIt x0 sim sigma).interp (algHandler cfg env ops) >>= fun r =>
          Prog.modify (fun s => { s with terminateReason := r.reason }) : Prog (AlgState V C O F) Unit) s
          = (.error e, s) := by
        simp only [Prog.bind_apply, Prog.lift_apply, hsi]
      rw [hx]
      exact ⟨s, .refl, .inr ⟨rfl, .fail s⟩⟩
    · have hx : (Prog.lift (.ok x0 : Py V) >>= fun x0 => Prog.lift (.ok sg : Py V) >>= fun sigma =>
          Prog.lift (ops.simplex s.superIt x0 sigma) >>= fun sim =>
          Prog.modify (fun s => { s with bestXX := some x0 }) >>= fun _ =>
          (dsm s.superIt x0 sim sigma).interp (algHandler cfg env ops) >>= fun r =>
          Prog.modify (fun s => { s with terminateReason := r.reason }) : Prog (AlgState V C O F) Unit) s
          = ((dsm s.superIt x0 sim sg).interp (algHandler cfg env ops) >>= fun r =>
          Prog.modify (fun s => { s with terminateReason := r.reason })) { s with bestXX := some x0 } := by
        simp only [Prog.bind_apply, Prog.lift_apply, hsi, Prog.modify_apply]
      rw [hx]
      have ht : Traced cfg env ops d ((dsm s.superIt x0 sim sg).interp (algHandler cfg env ops) >>= fun r =>
          Prog.modify (fun s => { s with terminateReason := r.reason })) :=
        .bind (.interp _ (h.imp_right fun h => h _ _ _ _)) fun r => .modify fun s => .reason s _
      obtain ⟨s1, t1, h1⟩ := ht { s with bestXX := some x0 }
      exact ⟨s1, ReflTransGen.head (.startX s x0 hm) t1, h1⟩

theorem Traced.sumRoutine (hk : cfg.kind = .dcrab) (hd : cfg.driftAfterSI = true) (x : V) (n : ℕ) (acc : F) : Traced cfg env ops d (QuOCS.sumRoutine cfg env ops x n acc) := by
  induction n generalizing acc with
  | zero => exact .pure _
  | succ n ih => exact .bind (.again (.inr ⟨hk, hd⟩) x 0) fun f => ih _

theorem Traced.updateFoM (hk : cfg.kind = .dcrab) (hd : cfg.driftAfterSI = true) :
    Traced cfg env ops d (QuOCS.updateFoM cfg env ops) := by
  unfold QuOCS.updateFoM
  refine .bind .get fun s => .bind (.lift _) fun x0 => .bind (.modify fun s => .driftBegin s hk hd) fun _ =>
    .bind (.sumRoutine hk hd x0 _ _) fun f => .ite (fun _ => .raise _) fun _ => .modify fun s => .driftEnd s _ hk hd

theorem Traced.updateBasePulses : Traced cfg env ops d (QuOCS.updateBasePulses ops : Prog (AlgState V C O F) Unit) := by
  refine .act fun s => ?_
  unfold QuOCS.updateBasePulses
  split
  · exact .fail s
  · rename_i x hx
    split
    · exact .fail s
    · rename_i o hu
      exact .updateBase s x o hx hu

theorem Traced.superIteration (hk : cfg.kind = .dcrab) (dsm : Dsm K V F)
    (h : d = true ∨ ∀ i x sim sg, (dsm i x sim sg).NoDrift) (k : ℕ) (hm : 1 ≤ k ∧ k ≤ cfg.maxSI) :
    Traced cfg env ops d (QuOCS.superIteration cfg env ops dsm k) := by
  have hrest : Traced cfg env ops d (do
      driftStep cfg env ops k
      let s ← Prog.get
      let o ← Prog.lift (ops.selectBasis k s.ctl)
      Prog.modify (fun s => { s with ctl := o })
      QuOCS.dsmBuild cfg env ops dsm
      QuOCS.updateBasePulses ops) := by
    refine .bind (.ite (fun (hd : cfg.driftAfterSI = true ∧ k ≥ 2) => .updateFoM hk hd.1) fun _ => .pure _) fun _ => ?_
    have hsel : Traced cfg env ops d ((do
        let s ← Prog.get
        let o ← Prog.lift (ops.selectBasis k s.ctl)
        Prog.modify (fun s => { s with ctl := o }) : Prog (AlgState V C O F) Unit)) := by
      refine .act fun s => ?_
      rw [Prog.get_bind, Prog.bind_apply, Prog.lift_apply]
      rcases ho : ops.selectBasis k s.ctl with e | o
      · exact .fail s
      · exact .selectBasis s k o hk ho
    have := Traced.bind hsel fun _ => Traced.bind (.dsmBuild dsm h) fun _ =>
      (Traced.updateBasePulses : Traced cfg env ops d (QuOCS.updateBasePulses ops))
    simpa only [bind_assoc] using this
  intro s
  obtain ⟨s1, t1, h1⟩ := hrest
    { s with superIt := k, sc := { s.sc with startTime := env.clock s.ticks, track := [] }, ticks := s.ticks + 1 }
  exact ⟨s1, ReflTransGen.head (.superIt s k hk hm) t1, h1⟩

theorem Traced.dcrabLoop (hk : cfg.kind = .dcrab) (dsm : Dsm K V F)
    (h : d = true ∨ ∀ i x sim sg, (dsm i x sim sg).NoDrift) (n k : ℕ) (hm : 1 ≤ k ∧ n + k ≤ cfg.maxSI + 1) :
    Traced cfg env ops d (QuOCS.dcrabLoop cfg env ops dsm n k) := by
  induction n generalizing k with
  | zero => exact .pure _
  | succ n ih =>
    refine .bind .poll fun _ => .bind .get fun s => .ite (fun _ => .pure _) fun _ =>
      .bind (.superIteration hk dsm h k ⟨hm.1, by omega⟩) fun _ => ih (k + 1) ⟨by omega, by omega⟩

theorem Traced.run (dsm : Dsm K V F) (h : d = true ∨ ∀ i x sim sg, (dsm i x sim sg).NoDrift) :
    Traced cfg env ops d (QuOCS.run cfg env ops dsm) := by
  unfold QuOCS.run
  rcases hk : cfg.kind
  · exact .dcrabLoop hk dsm h _ 1 ⟨le_rfl, by omega⟩
  · exact .dsmBuild dsm h
  · exact .bind .get fun s => .bind (.lift _) fun _ => .bind (.lift _) fun _ => .bind (.lift _) fun _ =>
      .bind (.interp _ (h.imp_right fun h => h _ _ _ _)) fun _ => .updateBasePulses

end
end QuOCS

/-
Effects of the actions on the call log, the counter, the best figure of merit and the reports.
-/
import Verif.Lemmas.Algorithm

set_option linter.unusedSectionVars false

namespace QuOCS
open Relation

variable {K V C O F : Type} [LE K] [DecidableLE K]
variable [Add F] [Sub F] [Mul F] [Div F] [Neg F] [Zero F] [One F] [NatCast F] [LE F] [LT F] [DecidableLE F]
  [DecidableLT F]
variable {cfg : AlgCfg K F} {env : Env V C F} {ops : CtlOps O V C} {d : Bool}

namespace Quiet
variable {s s' : AlgState V C O F}
theorem log (q : Quiet env s s') : s'.log = s.log := by rw [q.frame]
theorem iter (q : Quiet env s s') : s'.iter = s.iter := by rw [q.frame]
theorem bestFoM (q : Quiet env s s') : s'.bestFoM = s.bestFoM := by rw [q.frame]
theorem bestXX (q : Quiet env s s') : s'.bestXX = s.bestXX := by rw [q.frame]
theorem xx (q : Quiet env s s') : s'.xx = s.xx := by rw [q.frame]
theorem dumps (q : Quiet env s s') : s'.dumps = s.dumps := by rw [q.frame]
theorem optStart (q : Quiet env s s') : s'.optStart = s.optStart := by rw [q.frame]
theorem stepNumber (q : Quiet env s s') : s'.stepNumber = s.stepNumber := by rw [q.frame]
theorem isRecord (q : Quiet env s s') : s'.isRecord = s.isRecord := by rw [q.frame]
theorem commCtl (q : Quiet env s s') : s'.commCtl = s.commCtl := by rw [q.frame]
theorem ctl (q : Quiet env s s') : s'.ctl = s.ctl := by rw [q.frame]
theorem fomTest (q : Quiet env s s') : s'.fomTest = s.fomTest := by rw [q.frame]
theorem fomDict (q : Quiet env s s') : s'.fomDict = s.fomDict := by rw [q.frame]
theorem superIt (q : Quiet env s s') : s'.superIt = s.superIt := by rw [q.frame]
theorem paraList (q : Quiet env s s') : s'.paraList = s.paraList := by rw [q.frame]
theorem running (q : Quiet env s s') (h : s'.running = true) : s.running = true := by
  by_contra hf
  rw [q.mono (by simpa using hf)] at h
  cases h
end Quiet

/-- The figure of merit shown for a measured value `m` in state `s`. -/
def shownFoM (cfg : AlgCfg K F) (s : AlgState V C O F) (m : F) : F :=
  if cfg.kind = .dcrab then
    if s.stepNumber = 0 then m
    else (mean (s.fomTest.take s.stepNumber) * ((s.stepNumber : F) - 1) + m) / (s.stepNumber : F)
  else m

/-- State after an answered evaluation. -/
theorem measure_answered (x : V) (c : C) (s : AlgState V C O F) (a : Answer F) (f : F)
    (h : env.getFoM s.log c = .ok a) (hf : a.fom = some f) :
    ∃ fl il sc', measure cfg env x c s = (.ok (dirMul cfg.maximize f),
      { s with
        log := s.log ++ [⟨x, c, .ok a, s.polls, s.ticks⟩]
        fomDict := { fom := dirMul cfg.maximize f, std := a.std, status := some (a.status.getD 0) }
        running := if a.status.getD 0 = 0 then s.running else false
        bestFoM := if (cfg.kind = .grape ∨ cfg.reEval.isNone) ∧ shownFoM cfg s (dirMul cfg.maximize f) < s.bestFoM
          then shownFoM cfg s (dirMul cfg.maximize f) else s.bestFoM
        bestXX := if (cfg.kind = .grape ∨ cfg.reEval.isNone) ∧ shownFoM cfg s (dirMul cfg.maximize f) < s.bestFoM
          then s.xx else s.bestXX
        isRecord := if (cfg.kind = .grape ∨ cfg.reEval.isNone) ∧ shownFoM cfg s (dirMul cfg.maximize f) < s.bestFoM
          then true else s.isRecord
        dumps := if a.status.getD 0 = 0 then s.dumps ++ [⟨s.commCtl,
          (if (cfg.kind = .grape ∨ cfg.reEval.isNone) ∧ shownFoM cfg s (dirMul cfg.maximize f) < s.bestFoM
            then true else s.isRecord), shownFoM cfg s (dirMul cfg.maximize f), s.iter, s.log.length + 1⟩] else s.dumps
        signals := if a.status.getD 0 = 0 then s.signals ++ [.plot s.iter (shownFoM cfg s (dirMul cfg.maximize f))] else s.signals
        fomList := fl
        iterList := il
        sc := sc' }) := by
  have hg : getData cfg env x c s = (.ok (), { s with
      log := s.log ++ [⟨x, c, .ok a, s.polls, s.ticks⟩]
      fomDict := { fom := dirMul cfg.maximize f, std := a.std, status := some (a.status.getD 0) }
      running := if a.status.getD 0 = 0 then s.running else false }) := by
    unfold getData
    simp only [h, hf]
  have hresp : ∃ fl il, response cfg ({ s with
      log := s.log ++ [⟨x, c, .ok a, s.polls, s.ticks⟩]
      fomDict := { fom := dirMul cfg.maximize f, std := a.std, status := some (a.status.getD 0) }
      running := if a.status.getD 0 = 0 then s.running else false } : AlgState V C O F) =
      (.ok (shownFoM cfg s (dirMul cfg.maximize f)), { s with
      log := s.log ++ [⟨x, c, .ok a, s.polls, s.ticks⟩]
      fomDict := { fom := dirMul cfg.maximize f, std := a.std, status := some (a.status.getD 0) }
      running := if a.status.getD 0 = 0 then s.running else false
      bestFoM := if (cfg.kind = .grape ∨ cfg.reEval.isNone) ∧ shownFoM cfg s (dirMul cfg.maximize f) < s.bestFoM
          then shownFoM cfg s (dirMul cfg.maximize f) else s.bestFoM
      bestXX := if (cfg.kind = .grape ∨ cfg.reEval.isNone) ∧ shownFoM cfg s (dirMul cfg.maximize f) < s.bestFoM
          then s.xx else s.bestXX
      isRecord := if (cfg.kind = .grape ∨ cfg.reEval.isNone) ∧ shownFoM cfg s (dirMul cfg.maximize f) < s.bestFoM
          then true else s.isRecord
      fomList := fl
      iterList := il }) := by
    have hsh : (if cfg.kind = .dcrab then averageCurrent ({ s with
        log := s.log ++ [⟨x, c, .ok a, s.polls, s.ticks⟩]
        fomDict := { fom := dirMul cfg.maximize f, std := a.std, status := some (a.status.getD 0) }
        running := if a.status.getD 0 = 0 then s.running else false } : AlgState V C O F)
        else dirMul cfg.maximize f) = shownFoM cfg s (dirMul cfg.maximize f) := by
      unfold shownFoM averageCurrent
      split <;> rfl
    unfold response
    simp only [hsh]
    by_cases hrec : (cfg.kind = .grape ∨ cfg.reEval.isNone) ∧ shownFoM cfg s (dirMul cfg.maximize f) < s.bestFoM
    · simp only [hrec, and_self, if_true]
      by_cases hst : a.status.getD 0 = 0
      · simp only [Option.getD_some, hst, if_true]; exact ⟨_, _, rfl⟩
      · simp only [Option.getD_some, hst, if_false]; exact ⟨_, _, rfl⟩
    · simp only [hrec, if_false]
      by_cases hst : a.status.getD 0 = 0
      · simp only [Option.getD_some, hst, if_true]; exact ⟨_, _, rfl⟩
      · simp only [Option.getD_some, hst, if_false]; exact ⟨_, _, rfl⟩
  obtain ⟨fl, il, hresp⟩ := hresp
  unfold measure
  rw [Prog.bind_ok hg, Prog.bind_ok hresp, Prog.bind_apply]
  unfold sendResponse dumpControls trackFoM
  by_cases hst : a.status.getD 0 = 0
  · simp only [Option.getD_some, hst, ne_eq, not_true_eq_false, if_false, if_true, Prog.modify_apply]
    rw [Prog.modify_bind, Prog.get_bind]
    by_cases hdsm : cfg.hasDsm = true
    · simp only [hdsm, if_true, List.length_append, List.length_singleton]; exact ⟨_, _, _, rfl⟩
    · simp only [hdsm, List.length_append, List.length_singleton]; exact ⟨_, _, _, rfl⟩
  · simp only [Option.getD_some, hst, ne_eq, not_false_eq_true, if_false, if_true]
    rw [Prog.modify_bind, Prog.get_bind]
    by_cases hdsm : cfg.hasDsm = true
    · simp only [hdsm, if_true]; exact ⟨_, _, _, rfl⟩
    · simp only [hdsm]; exact ⟨_, _, _, rfl⟩

theorem measure_raised (x : V) (c : C) (s : AlgState V C O F) (e : PyErr) (h : env.getFoM s.log c = .error e) :
    measure cfg env x c s = (.error e, { s with log := s.log ++ [⟨x, c, .error e, s.polls, s.ticks⟩] }) := by
  have hg : getData cfg env x c s =
      (.error e, { s with log := s.log ++ [⟨x, c, .error e, s.polls, s.ticks⟩] }) := by
    unfold getData
    simp only [h]
  unfold measure
  rw [Prog.bind_error hg]

theorem measure_noValue (x : V) (c : C) (s : AlgState V C O F) (a : Answer F) (h : env.getFoM s.log c = .ok a)
    (hf : a.fom = none) :
    measure cfg env x c s = (.error .typeError, { s with log := s.log ++ [⟨x, c, .ok a, s.polls, s.ticks⟩] }) := by
  have hg : getData cfg env x c s =
      (.error .typeError, { s with log := s.log ++ [⟨x, c, .ok a, s.polls, s.ticks⟩] }) := by
    unfold getData
    simp only [h, hf]
  unfold measure
  rw [Prog.bind_error hg]

/-- Effect of an action on log, counter, running state. -/
inductive Eff (cfg : AlgCfg K F) (env : Env V C F) (b : Bool) (s s' : AlgState V C O F) : Prop
  | still (hl : s'.log = s.log) (hi : s'.iter = s.iter) (ho : s'.optStart = s.optStart)
      (hr : s.running = false → s'.running = false)
      (hs : b = true → s'.running = true → ∀ n, s.polls ≤ n → n < s'.polls → env.async n = .none)
  | counted (hl : s'.log = s.log) (hi : s'.iter = s.iter + 1) (ho : s'.optStart = s.optStart)
      (hr : s.running = true) (hm : (s.iter : ℤ) < cfg.maxEvalTotal)
      (hs : b = true → s'.running = false ∧ ∃ n, env.async n ≠ .none)
  | measured (c : Call V C F) (hl : s'.log = s.log ++ [c]) (hi : s'.iter = s.iter + 1) (ho : s'.optStart = s.optStart)
      (hr : s.running = true) (hm : (s.iter : ℤ) < cfg.maxEvalTotal)
      (hp : ∀ n, s.polls ≤ n → n < c.polls → env.async n = .none) (hp' : s'.polls = c.polls)
      (ht : cfg.totalTimeLim < 10 ^ 10 → env.clock (c.ticks - 1) - s.optStart < cfg.totalTimeLim)
      (hc : b = true → s'.running = true → c.Succeeded)
      (hf : ∀ a, c.ans = .ok a → a.fom ≠ none → a.status.getD 0 ≠ 0 → s'.running = false)

theorem RoutineSpec.eff {x : V} {it : ℕ} {s s' : AlgState V C O F} {r : Py F}
    (h : RoutineSpec cfg env ops x it s r s') : Eff cfg env (isOk r) s s' := by
  cases h with
  | stopped s1 q hr => exact .still q.log q.iter q.optStart q.mono (fun _ => q.seen)
  | sigint s1 r e q hk => exact .still q.log q.iter q.optStart q.mono (fun h => by cases h)
  | noControls s1 e q hr hi h => exact .counted q.log rfl q.optStart (q.running hr) hi (fun h => by cases h)
  | window s1 o c s2 q hr hi h q2 hr2 ha =>
    exact .counted (q2.log.trans q.log) q2.iter (q2.optStart.trans q.optStart) (q.running hr) hi (fun _ => ⟨hr2, ha⟩)
  | windowSigint s1 o c s2 r e q hr hi h q2 hk =>
    exact .counted (q2.log.trans q.log) q2.iter (q2.optStart.trans q.optStart) (q.running hr) hi (fun h => by cases h)
  | measured s1 o c s2 q hr hi hg ht h q2 hr2 =>
    have hp : ∀ n, s.polls ≤ n → n < s2.polls → env.async n = .none := by
      intro n h1 h2
      by_cases hn : n < s1.polls
      · exact q.seen hr n h1 hn
      · exact q2.seen hr2 n (not_lt.1 hn) h2
    have hlog : s2.log = s.log := q2.log.trans q.log
    rcases ha : env.getFoM s2.log c with e | a
    · rw [measure_raised x c s2 e ha]
      exact .measured ⟨x, c, .error e, s2.polls, s2.ticks⟩ (by rw [← hlog]) q2.iter (q2.optStart.trans q.optStart) (q.running hr) hi hp rfl ht
        (fun h => by cases h) (fun a h => by cases h)
    · rcases hf : a.fom with _ | f
      · rw [measure_noValue x c s2 a ha hf]
        exact .measured ⟨x, c, .ok a, s2.polls, s2.ticks⟩ (by rw [← hlog]) q2.iter (q2.optStart.trans q.optStart) (q.running hr) hi hp rfl ht
          (fun h => by cases h) (fun a' h h' => by cases h; exact absurd hf h')
      · obtain ⟨fl, il, sc', hm⟩ := measure_answered (cfg := cfg) x c s2 a f ha hf
        rw [hm]
        refine .measured ⟨x, c, .ok a, s2.polls, s2.ticks⟩ (by rw [← hlog]) q2.iter (q2.optStart.trans q.optStart) (q.running hr) hi hp rfl ht ?_ ?_
        · intro _ h
          refine ⟨a, f, rfl, hf, ?_⟩
          by_contra hst
          simp [hst] at h
        · intro a' h _ h'
          cases h
          simp [h']

theorem Act.eff {b : Bool} {s s' : AlgState V C O F} (h : Act cfg env ops d b s s') : Eff cfg env b s s' := by
  have triv : ∀ n, s.polls ≤ n → n < s.polls → env.async n = .none := fun n h1 h2 => absurd h2 (by omega)
  cases h with
  | quiet q => exact .still q.log q.iter q.optStart q.mono (fun _ => q.seen)
  | fail => exact .still rfl rfl rfl id (fun h => by cases h)
  | sigint s r hk => exact .still rfl rfl rfl id (fun h => by cases h)
  | fresh x it s s0 r s' h0 h1 h2 h =>
    have hr := routineCall_spec (cfg := cfg) (env := env) (ops := ops) x it s0
    rw [h] at hr
    have he := hr.eff
    rw [h0] at he
    cases he with
    | still hl hi ho hr hs => exact .still hl hi ho hr hs
    | counted hl hi ho hr hm hs => exact .counted hl hi ho hr hm hs
    | measured c hl hi ho hr hm hp hp' ht hc hf => exact .measured c hl hi ho hr hm hp hp' ht hc hf
  | again x it s h => exact (routineCall_spec x it s).eff
  | superIt s k hk hm => exact .still rfl rfl rfl id (fun _ _ => triv)
  | _ => exact .still rfl rfl rfl id (fun _ _ => triv)

/-- Effect of an action without re-evaluation and drift compensation. -/
inductive SimpleEff (cfg : AlgCfg K F) (env : Env V C F) (b : Bool) (s s' : AlgState V C O F) : Prop
  | still (hl : s'.log = s.log) (hb : s'.bestFoM = s.bestFoM) (hd : s'.dumps = s.dumps)
      (hr : s.running = false → s'.running = false) (hp : s'.stepNumber = s.stepNumber ∨ s'.stepNumber = 0)
  | raised (c : Call V C F) (hl : s'.log = s.log ++ [c]) (hc : c.value = none) (hbf : b = false)
      (hb : s'.bestFoM = s.bestFoM) (hd : s'.dumps = s.dumps) (hr : s.running = true)
      (hg : ∀ g, cfg.goal = some g → ¬ s.bestFoM ≤ g)
  | answered (x : V) (c : C) (a : Answer F) (f : F) (p t i : ℕ) (hf : a.fom = some f) (hbt : b = true)
      (hl : s'.log = s.log ++ [⟨x, c, .ok a, p, t⟩])
      (hb : s'.bestFoM = if dirMul cfg.maximize f < s.bestFoM then dirMul cfg.maximize f else s.bestFoM)
      (hd : s'.dumps = if a.status.getD 0 = 0 then
        s.dumps ++ [⟨some c, decide (dirMul cfg.maximize f < s.bestFoM), dirMul cfg.maximize f, i, s.log.length + 1⟩]
        else s.dumps)
      (hr : s.running = true) (hr' : s'.running = decide (a.status.getD 0 = 0))
      (hg : ∀ g, cfg.goal = some g → ¬ s.bestFoM ≤ g) (hp : s'.stepNumber = s.stepNumber ∨ s'.stepNumber = 0)
      (hi : i = s.iter + 1)

theorem RoutineSpec.simple (hre : NoReEval cfg) {x : V} {it : ℕ} {s s' : AlgState V C O F} {r : Py F}
    (hrec : s.isRecord = false) (hstep : cfg.kind ≠ .grape → s.stepNumber = 0)
    (h : RoutineSpec cfg env ops x it s r s') : SimpleEff cfg env (isOk r) s s' := by
  cases h with
  | stopped s1 q hr => exact .still q.log q.bestFoM q.dumps q.mono (.inl q.stepNumber)
  | sigint s1 r e q hk => exact .still q.log q.bestFoM q.dumps q.mono (.inl q.stepNumber)
  | noControls s1 e q hr hi h => exact .still q.log q.bestFoM q.dumps q.mono (.inl q.stepNumber)
  | window s1 o c s2 q hr hi h q2 hr2 ha =>
    exact .still (q2.log.trans q.log) (q2.bestFoM.trans q.bestFoM) (q2.dumps.trans q.dumps)
      (fun h => q2.mono (q.mono h)) (.inl (q2.stepNumber.trans q.stepNumber))
  | windowSigint s1 o c s2 r e q hr hi h q2 hk =>
    exact .still (q2.log.trans q.log) (q2.bestFoM.trans q.bestFoM) (q2.dumps.trans q.dumps)
      (fun h => q2.mono (q.mono h)) (.inl (q2.stepNumber.trans q.stepNumber))
  | measured s1 o c s2 q hr hi hg ht h q2 hr2 =>
    have hlog : s2.log = s.log := q2.log.trans q.log
    have hbest : s2.bestFoM = s.bestFoM := q2.bestFoM.trans q.bestFoM
    have hdumps : s2.dumps = s.dumps := q2.dumps.trans q.dumps
    have hcomm : s2.commCtl = some c := q2.commCtl
    have hrec2 : s2.isRecord = false := (q2.isRecord.trans q.isRecord).trans hrec
    have hst2 : s2.stepNumber = s.stepNumber := q2.stepNumber.trans q.stepNumber
    rcases ha : env.getFoM s2.log c with e | a
    · rw [measure_raised x c s2 e ha]
      exact .raised ⟨x, c, .error e, s2.polls, s2.ticks⟩ (by rw [← hlog]) rfl rfl hbest hdumps (q.running hr) hg
    · rcases hf : a.fom with _ | f
      · rw [measure_noValue x c s2 a ha hf]
        exact .raised ⟨x, c, .ok a, s2.polls, s2.ticks⟩ (by rw [← hlog]) hf rfl hbest hdumps (q.running hr) hg
      · obtain ⟨fl, il, sc', hm⟩ := measure_answered (cfg := cfg) x c s2 a f ha hf
        have hsh : shownFoM cfg s2 (dirMul cfg.maximize f) = dirMul cfg.maximize f := by
          unfold shownFoM
          by_cases hk : cfg.kind = .dcrab
          · rw [if_pos hk, if_pos]
            rw [hst2]; exact hstep (by rw [hk]; decide)
          · rw [if_neg hk]
        have hcond : (cfg.kind = .grape ∨ cfg.reEval.isNone = true) := by
          rcases hre with h | h
          · exact .inl h
          · exact .inr (by rw [h]; rfl)
        rw [hm]
        refine .answered x c a f s2.polls s2.ticks s2.iter hf rfl (by rw [← hlog]) ?_ ?_ (q.running hr) ?_ hg (.inl hst2) q2.iter
        · simp only [hsh, hcond, true_and, hbest]
        · simp only [hsh, hcond, true_and, hbest, hcomm, hrec2, hdumps, hlog]
          by_cases hlt : dirMul cfg.maximize f < s.bestFoM <;> simp [hlt]
        · simp only [hr2]
          by_cases hst : a.status.getD 0 = 0 <;> simp [hst]

theorem Act.simple (hre : NoReEval cfg) (hdr : cfg.driftAfterSI = false) {b : Bool} {s s' : AlgState V C O F}
    (h : Act cfg env ops false b s s') : SimpleEff cfg env b s s' := by
  cases h with
  | quiet q => exact .still q.log q.bestFoM q.dumps q.mono (.inl q.stepNumber)
  | fail => exact .still rfl rfl rfl id (.inl rfl)
  | sigint s r hk => exact .still rfl rfl rfl id (.inl rfl)
  | fresh x it s s0 r s' h0 h1 h2 h =>
    have hr := routineCall_spec (cfg := cfg) (env := env) (ops := ops) x it s0
    rw [h] at hr
    have hrec : s0.isRecord = false := by rw [h0]
    have he := hr.simple hre hrec h1
    have hsn : s0.stepNumber = s.stepNumber ∨ s0.stepNumber = 0 := by
      by_cases hk : cfg.kind = .grape
      · exact .inl (h2 hk)
      · exact .inr (h1 hk)
    have el : s0.log = s.log := by rw [h0]
    have eb : s0.bestFoM = s.bestFoM := by rw [h0]
    have ed : s0.dumps = s.dumps := by rw [h0]
    have er : s0.running = s.running := by rw [h0]
    have trans' : s'.stepNumber = s0.stepNumber ∨ s'.stepNumber = 0 → s'.stepNumber = s.stepNumber ∨ s'.stepNumber = 0 := by
      rintro (h | h)
      · rw [h]; exact hsn
      · exact .inr h
    cases he with
    | still hl hb hd hr hp => exact .still (hl.trans el) (hb.trans eb) (hd.trans ed) (er ▸ hr) (trans' hp)
    | raised c hl hc hbf hb hd hr hg => exact .raised c (el ▸ hl) hc hbf (hb.trans eb) (hd.trans ed) (er ▸ hr) (eb ▸ hg)
    | answered x c a f p t i hf hbt hl hb hd hr hr' hg hp hi =>
      have ei : s0.iter = s.iter := by rw [h0]
      refine .answered x c a f p t i hf hbt (el ▸ hl) (eb ▸ hb) ?_ (er ▸ hr) hr' (eb ▸ hg) (trans' hp) (ei ▸ hi)
      rw [hd, el, eb, ed]
  | again x it s h =>
    rcases h with ⟨hk, h⟩ | ⟨_, h⟩
    · rcases hre with h' | h'
      · exact absurd h' hk
      · exact absurd h' h
    · rw [hdr] at h; cases h
  | tests b s ft st n hk h =>
    rcases hre with h' | h'
    · exact absurd h' hk
    · exact absurd h' h
  | record s mu sg x hk h hx =>
    rcases hre with h' | h'
    · exact absurd h' hk
    · exact absurd h' h
  | recordFail s mu sg hk h hx =>
    rcases hre with h' | h'
    · exact absurd h' hk
    · exact absurd h' h
  | drift s v x hd hx => cases hd
  | driftFail s v hd hx => cases hd
  | driftBegin s hk hd => rw [hdr] at hd; cases hd
  | driftEnd s f hk hd => rw [hdr] at hd; cases hd
  | _ => exact .still rfl rfl rfl id (.inl rfl)

/-- Invariants of executions: `P` holds between actions, `Q` also after a failing one. -/
theorem execute_inv (P Q : AlgState V C O F → Prop) (dsm : Dsm K V F) (o : O)
    (hd : d = true ∨ ∀ i x sim sg, (dsm i x sim sg).NoDrift)
    (h0 : P (initState cfg env o))
    (ht : ∀ s s', Act cfg env ops d true s s' → P s → P s')
    (hf : ∀ s s', Act cfg env ops d false s s' → P s → Q s')
    (hPQ : ∀ s, P s → Q s) :
    Q (execute cfg env ops dsm o).2 ∧ (isOk (execute cfg env ops dsm o).1 = true → P (execute cfg env ops dsm o).2) := by
  obtain ⟨s1, t1, h1⟩ := Traced.run (cfg := cfg) (env := env) (ops := ops) dsm hd (initState cfg env o)
  have hp : P s1 := by
    clear h1
    induction t1 with
    | refl => exact h0
    | tail _ a ih => exact ht _ _ a ih
  rcases h1 with ⟨h, e⟩ | ⟨h, a⟩
  · have hp' : P (execute cfg env ops dsm o).2 := by rw [show (execute cfg env ops dsm o).2 = s1 from e]; exact hp
    exact ⟨hPQ _ hp', fun _ => hp'⟩
  · refine ⟨hf _ _ a hp, fun h' => ?_⟩
    rw [show isOk (execute cfg env ops dsm o).1 = false from h] at h'
    cases h'

/-- The same for one program. -/
theorem Traced.inv {α : Type} {m : Prog (AlgState V C O F) α} (hm : Traced cfg env ops d m)
    (P : AlgState V C O F → Prop) (ht : ∀ b s s', Act cfg env ops d b s s' → P s → P s') (s : AlgState V C O F)
    (h : P s) : P (m s).2 := by
  obtain ⟨s1, t1, h1⟩ := hm s
  have hp : P s1 := by
    clear h1
    induction t1 with
    | refl => exact h
    | tail _ a ih => exact ht _ _ _ a ih
  rcases h1 with ⟨_, e⟩ | ⟨_, a⟩
  · rw [e]; exact hp
  · exact ht _ _ _ a hp

end QuOCS

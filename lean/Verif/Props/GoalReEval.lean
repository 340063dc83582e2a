/-
C03 for whole runs with re-evaluation: a record that reaches the goal is the last thing of the run.
-/
import Verif.Props.Records

set_option linter.unusedSectionVars false
set_option linter.unusedVariables false

namespace QuOCS

variable {K V C O F : Type} [LE K] [DecidableLE K]
variable [Add F] [Sub F] [Mul F] [Div F] [Neg F] [Zero F] [One F] [NatCast F] [LE F] [LT F] [DecidableLE F]
  [DecidableLT F] [FloatOrder F]
variable {cfg : AlgCfg K F} {env : Env V C F} {ops : CtlOps O V C}

/-- Every record that reaches `g` was reported after the last call, and the run cannot go on. -/
def Sealed (g : F) (s : AlgState V C O F) : Prop :=
  ∀ r ∈ s.dumps, r.isRecord = true → r.fom ≤ g → r.calls = s.log.length ∧ (s.running = false ∨ s.bestFoM ≤ g)

/-- No record reaches `g`. -/
def NoneReached (g : F) (s : AlgState V C O F) : Prop := ∀ r ∈ s.dumps, r.isRecord = true → ¬ r.fom ≤ g

/-- `m` keeps `P`, whether it raises or not. -/
def KeepsAll {S α : Type} (P : S → Prop) (m : Prog S α) : Prop := ∀ s, P s → P (m s).2

theorem KeepsAll.bind {S α β : Type} {P : S → Prop} {m : Prog S α} {f : α → Prog S β} (hm : KeepsAll P m)
    (hf : ∀ a, KeepsAll P (f a)) : KeepsAll P (m >>= f) := by
  intro s h
  rw [Prog.bind_apply]
  have := hm s h
  rcases hms : m s with ⟨e | a, s'⟩
  · rw [hms] at this; exact this
  · rw [hms] at this; exact hf a s' this

theorem KeepsAll.pure {S α : Type} {P : S → Prop} (a : α) : KeepsAll P (Pure.pure a : Prog S α) := fun _ h => h
theorem KeepsAll.get {S : Type} {P : S → Prop} : KeepsAll P (Prog.get : Prog S S) := fun _ h => h
theorem KeepsAll.lift {S α : Type} {P : S → Prop} (x : Py α) : KeepsAll P (Prog.lift x : Prog S α) := fun _ h => h
theorem KeepsAll.raise {S α : Type} {P : S → Prop} (e : PyErr) : KeepsAll P (Prog.raise e : Prog S α) := fun _ h => h
theorem KeepsAll.modify {S : Type} {P : S → Prop} {f : S → S} (h : ∀ s, P s → P (f s)) : KeepsAll P (Prog.modify f) := h

theorem Sealed.frame {g : F} {s s' : AlgState V C O F} (h : Sealed g s) (h1 : s'.dumps = s.dumps) (h2 : s'.log = s.log)
    (h3 : s'.bestFoM = s.bestFoM) (h4 : s.running = false → s'.running = false) : Sealed g s' := by
  intro r hr hb hf
  rw [h1] at hr
  have := h r hr hb hf
  rw [h2, h3]
  exact ⟨this.1, this.2.imp_left h4⟩

theorem Sealed.quiet {g : F} {s s' : AlgState V C O F} (h : Sealed g s) (q : Quiet env s s') : Sealed g s' :=
  h.frame (by rw [q.frame]) q.log q.bestFoM q.mono

theorem Quiet.seals {g : F} {s s' : AlgState V C O F} (q : Quiet env s s') (h : Sealed g s) : Sealed g s' := h.quiet q

theorem NoneReached.sealed {g : F} {s : AlgState V C O F} (h : NoneReached g s) : Sealed g s :=
  fun r hr hb hf => absurd hf (h r hr hb)

theorem Sealed.poll {g : F} : KeepsAll (Sealed g) (QuOCS.poll cfg env : Prog (AlgState V C O F) Unit) := by
  intro s h
  rcases poll_cases (cfg := cfg) (env := env) s with ⟨_, q⟩ | ⟨_, e, h2⟩
  · exact h.quiet q
  · rw [h2]; exact h

/-- a stopped run stays as it is, only records of the present evaluation may be added -/
theorem Stopped.keeps {g : F} {α : Type} {m : Prog (AlgState V C O F) α} (hm : Traced cfg env ops false m) :
    KeepsAll (fun s : AlgState V C O F => Sealed g s ∧ s.running = false) m := by
  intro s h
  refine hm.inv (fun s => Sealed g s ∧ s.running = false) ?_ s h
  intro b s1 s2 ha hs
  have hr : s2.running = false := by
    cases ha.eff with
    | still _ _ _ hr _ => exact hr hs.2
    | counted _ _ _ hr _ _ => rw [hs.2] at hr; cases hr
    | measured c _ _ _ hr _ _ _ _ _ _ => rw [hs.2] at hr; cases hr
  refine ⟨?_, hr⟩
  have hrout : ∀ (s0 : AlgState V C O F) x it, Sealed g s0 → s0.running = false →
      Sealed g (routineCall cfg env ops x it s0).2 := by
    intro s0 x it h0 hr0
    have h := routineCall_spec (cfg := cfg) (env := env) (ops := ops) x it s0
    generalize routineCall cfg env ops x it s0 = rs at h ⊢
    obtain ⟨r, s'⟩ := rs
    have dead : ∀ s1 : AlgState V C O F, Quiet env s0 s1 → s1.running = true → False := fun s1 q h => by
      rw [q.mono hr0] at h; cases h
    cases h with
    | stopped s1 q hr => exact h0.quiet q
    | sigint s1 r e q hk => exact (h0.quiet q).frame rfl rfl rfl id
    | noControls s1 e q hr hi h => exact (dead _ q hr).elim
    | window s1 o c s2 q hr hi h q2 hr2 ha => exact (dead _ q hr).elim
    | windowSigint s1 o c s2 r e q hr hi h q2 hk => exact (dead _ q hr).elim
    | measured s1 o c s2 q hr hi hg ht h q2 hr2 => exact (dead _ q hr).elim
  have add : ∀ (s1 : AlgState V C O F) (mu sg) (x : V) (bx), Sealed g s1 → s1.running = false →
      Sealed g { s1 with bestSigma := sg, bestFoM := mu, isRecord := true, bestXX := bx
                         dumps := s1.dumps ++ [⟨s1.commCtl, true, mu, s1.iter, s1.log.length⟩] } := by
    intro s1 mu sg x bx h1 hr1 r hrm hb hf
    rcases List.mem_append.mp hrm with h | h
    · exact ⟨(h1 r h hb hf).1, .inl hr1⟩
    · rw [List.mem_singleton] at h
      subst h
      exact ⟨rfl, .inl hr1⟩
  cases ha with
  | quiet q => exact hs.1.quiet q
  | fail => exact hs.1
  | sigint r hk => exact hs.1.frame rfl rfl rfl id
  | fresh x it _ s0 r _ h0 h1 h2 h =>
    have := hrout s0 x it (by rw [h0]; exact hs.1.frame rfl rfl rfl id) (by rw [h0]; exact hs.2)
    rw [h] at this
    exact this
  | again x it _ h => exact hrout s1 x it hs.1 hs.2
  | tests => exact hs.1.frame rfl rfl rfl id
  | record _ mu sg x hk h hx => exact add s1 mu sg x _ hs.1 hs.2
  | recordFail _ mu sg hk h hx => exact fun r h1 h2 h3 => ⟨(hs.1 r h1 h2 h3).1, .inl hs.2⟩
  | drift _ v x hd hx => cases hd
  | driftFail _ v hd hx => cases hd
  | grapeControls => exact hs.1.frame rfl rfl rfl id
  | grapeFail => exact hs.1.frame rfl rfl rfl id
  | selectBasis => exact hs.1.frame rfl rfl rfl id
  | superIt => exact hs.1.frame rfl rfl rfl id
  | driftBegin => exact hs.1.frame rfl rfl rfl id
  | driftEnd => exact fun r h1 h2 h3 => ⟨(hs.1 r h1 h2 h3).1, .inl hs.2⟩
  | startX => exact hs.1.frame rfl rfl rfl id
  | reason => exact hs.1.frame rfl rfl rfl id
  | updateBase => exact hs.1.frame rfl rfl rfl id

/-- with re-evaluation a routine call outside a record reports no record -/
theorem NoneReached.routine {g : F} (hk : cfg.kind ≠ .grape) (hre : cfg.reEval ≠ none) (x : V) (it : ℕ) :
    KeepsAll (fun s : AlgState V C O F => NoneReached g s ∧ s.isRecord = false) (routineCall cfg env ops x it) := by
  intro s0 h0
  have hq : ∀ s s' : AlgState V C O F, Quiet env s s' → NoneReached g s ∧ s.isRecord = false → NoneReached g s' ∧ s'.isRecord = false := by
    intro s s' q h
    rw [q.frame]; exact h
  have h := routineCall_spec (cfg := cfg) (env := env) (ops := ops) x it s0
  generalize routineCall cfg env ops x it s0 = rs at h ⊢
  obtain ⟨r, s'⟩ := rs
  cases h with
  | stopped s1 q hr => exact hq _ _ q h0
  | sigint s1 r e q hk => exact (hq _ s1 q h0 :)
  | noControls s1 e q hr hi h => exact (hq _ s1 q h0 :)
  | window s1 o c s2 q hr hi h q2 hr2 ha => exact (hq _ _ q2 (hq _ s1 q h0 :) :)
  | windowSigint s1 o c s2 r e q hr hi h q2 hk => exact (hq _ s2 q2 (hq _ s1 q h0 :) :)
  | measured s1 o c s2 q hr hi hg ht h q2 hr2 =>
    have h2 := hq _ s2 q2 (hq _ s1 q h0 :)
    show NoneReached g (measure cfg env x c s2).2 ∧ (measure cfg env x c s2).2.isRecord = false
    have hP : KeepsAll (fun s : AlgState V C O F => NoneReached g s ∧ s.isRecord = false) (measure cfg env x c) := by
      unfold measure
      refine .bind ?_ fun _ => .bind ?_ fun fom => .bind ?_ fun _ => .bind ?_ fun _ => .bind .get fun _ => .pure _
      · intro s h
        unfold getData
        dsimp only
        rcases env.getFoM s.log c with e | a
        · exact h
        · rcases ha : a.fom with _ | f
          · simp only [ha]; exact h
          · simp only [ha]; exact h
      · intro s h
        have hno : ¬ ((cfg.kind = .grape ∨ cfg.reEval.isNone = true) ∧
            (if cfg.kind = .dcrab then averageCurrent s else s.fomDict.fom) < s.bestFoM) := by
          rintro ⟨h1 | h1, _⟩
          · exact hk h1
          · exact hre (Option.isNone_iff_eq_none.mp h1)
        unfold response
        dsimp only
        rw [if_neg hno]
        split <;> exact h
      · intro s h
        unfold sendResponse
        split
        · exact h
        · refine ⟨?_, h.2⟩
          intro r hr hb
          rcases List.mem_append.mp hr with h1 | h1
          · exact h.1 r h1 hb
          · rw [List.mem_singleton] at h1
            subst h1
            have : s.isRecord = true := hb
            rw [h.2] at this; cases this
      · refine .modify fun s h => ?_
        split <;> exact h
    exact hP s2 h2

theorem NoneReached.storeTest {g : F} (i : ℕ) (f : F) :
    KeepsAll (fun s : AlgState V C O F => NoneReached g s ∧ s.isRecord = false) (QuOCS.storeTest i f) := by
  intro s h
  unfold QuOCS.storeTest
  rcases setIdx s.fomTest i f with e | ft
  · exact h
  · dsimp only
    rcases setIdx s.sigmaTest i (s.fomDict.std.getD 1) with e | st
    · exact h
    · exact h

theorem Sealed.finish {g : F} (last : F) (s : AlgState V C O F) (h : NoneReached g s ∧ s.isRecord = false) :
    Sealed g (reEvalFinish cfg env last s).2 := by
  unfold reEvalFinish
  dsimp only
  split
  · rcases hx : s.xx with _ | x
    · exact fun r hr hb hf => absurd hf (h.1 r hr hb)
    · intro r hr hb hf
      rcases List.mem_append.mp hr with h1 | h1
      · exact absurd hf (h.1 r h1 hb)
      · rw [List.mem_singleton] at h1
        subst h1
        exact ⟨rfl, .inr hf⟩
  · exact h.1.sealed

theorem Sealed.reEvalLoop {g : F} (hk : cfg.kind ≠ .grape) (hre : cfg.reEval ≠ none) (x : V) (it : ℕ) (last : F) (ps : List F) :
    ∀ (i : ℕ) (s : AlgState V C O F), NoneReached g s ∧ s.isRecord = false →
      Sealed g (QuOCS.reEvalLoop cfg env ops x it last i ps s).2 := by
  induction ps with
  | nil => exact fun i s h => Sealed.finish last s h
  | cons p ps ih =>
    intro i s h
    unfold QuOCS.reEvalLoop
    rw [Prog.get_bind]
    split
    · exact h.1.sealed
    · rw [Prog.bind_apply]
      have h1 := NoneReached.routine (env := env) (ops := ops) hk hre x it s h
      rcases hr : routineCall cfg env ops x it s with ⟨e | f, s1⟩
      · rw [hr] at h1; exact h1.1.sealed
      · rw [hr] at h1
        dsimp only
        rw [Prog.bind_apply]
        have h2 := NoneReached.storeTest (g := g) (i + 1) f s1 h1
        rcases hs : QuOCS.storeTest (i + 1) f s1 with ⟨e | u, s2⟩
        · rw [hs] at h2; exact h2.1.sealed
        · rw [hs] at h2; exact ih (i + 1) s2 h2

theorem Sealed.inner {g : F} (hg : cfg.goal = some g) (hk : cfg.kind ≠ .grape) (hre : cfg.reEval ≠ none) (x : V) (it : ℕ) :
    KeepsAll (Sealed g) (innerCall cfg env ops x it : Prog (AlgState V C O F) F) := by
  intro s h
  obtain ⟨steps, hst⟩ := Option.ne_none_iff_exists'.mp hre
  unfold innerCall
  rw [Prog.modify_bind, hst]
  dsimp only
  by_cases hno : NoneReached g s
  · have h0 : NoneReached g ({ s with isRecord := false, stepNumber := 0 } : AlgState V C O F) ∧
        ({ s with isRecord := false, stepNumber := 0 } : AlgState V C O F).isRecord = false := ⟨hno, rfl⟩
    generalize ({ s with isRecord := false, stepNumber := 0 } : AlgState V C O F) = s0 at h0 ⊢
    rw [Prog.bind_apply]
    have h1 := NoneReached.routine (env := env) (ops := ops) hk hre x it s0 h0
    rcases hr : routineCall cfg env ops x it s0 with ⟨e | f, s1⟩
    · rw [hr] at h1; exact h1.1.sealed
    · rw [hr] at h1
      dsimp only
      rw [Prog.get_bind, Prog.modify_bind, Prog.bind_apply]
      have h2 : NoneReached g ({ s1 with fomTest := s1.fomTest.map (fun v => 0 * v), sigmaTest := s1.sigmaTest.map (fun v => 0 * v) } :
          AlgState V C O F) ∧ s1.isRecord = false := h1
      have h3 := NoneReached.storeTest (g := g) 0 f _ h2
      rcases hs : QuOCS.storeTest 0 f ({ s1 with fomTest := s1.fomTest.map (fun v => 0 * v), sigmaTest := s1.sigmaTest.map (fun v => 0 * v) } :
          AlgState V C O F) with ⟨e | u, s2⟩
      · rw [hs] at h3; exact h3.1.sealed
      · rw [hs] at h3
        dsimp only
        rcases (if s1.iter = 1 then [cfg.half] else steps).getLast? with _ | last
        · exact h3.1.sealed
        · exact Sealed.reEvalLoop hk hre x it last _ 0 s2 h3
  · -- a record has reached the goal: the first thing the evaluation does is to stop the run
    have hstop : s.running = false ∨ s.bestFoM ≤ g := by
      unfold NoneReached at hno
      push Not at hno
      obtain ⟨r, hr, hb, hf⟩ := hno
      exact (h r hr hb hf).2
    have h0 : Sealed g ({ s with isRecord := false, stepNumber := 0 } : AlgState V C O F) := h.frame rfl rfl rfl id
    have hstop0 : ({ s with isRecord := false, stepNumber := 0 } : AlgState V C O F).running = false ∨
      ({ s with isRecord := false, stepNumber := 0 } : AlgState V C O F).bestFoM ≤ g := hstop
    generalize ({ s with isRecord := false, stepNumber := 0 } : AlgState V C O F) = s0 at h0 hstop0 ⊢
    have hr : Sealed g (routineCall cfg env ops x it s0).2 ∧
        (isOk (routineCall cfg env ops x it s0).1 = true → (routineCall cfg env ops x it s0).2.running = false) := by
      have h := routineCall_spec (cfg := cfg) (env := env) (ops := ops) x it s0
      generalize routineCall cfg env ops x it s0 = rs at h ⊢
      obtain ⟨r, s'⟩ := rs
      cases h with
      | stopped s1 q hr => exact ⟨h0.quiet q, fun _ => hr⟩
      | sigint s1 r e q hk => exact ⟨(h0.quiet q :).frame rfl rfl rfl id, fun h => by cases h⟩
      | noControls s1 e q hr hi h => exact ⟨(h0.quiet q :).frame rfl rfl rfl id, fun h => by cases h⟩
      | window s1 o c s2 q hr hi h q2 hr2 ha =>
        have h1 := h0.quiet q
        exact ⟨q2.seals (fun r a b d => h1 r a b d), fun _ => hr2⟩
      | windowSigint s1 o c s2 r e q hr hi h q2 hk =>
        have h1 := h0.quiet q
        have h2 : Sealed g s2 := q2.seals (fun r a b d => h1 r a b d)
        exact ⟨fun r a b d => h2 r a b d, fun h => by cases h⟩
      | measured s1 o c s2 q hr hi hg' ht h q2 hr2 =>
        rcases hstop0 with h1 | h1
        · rw [q.mono h1] at hr; cases hr
        · exact absurd h1 (hg' _ hg)
    rw [Prog.bind_apply]
    rcases hrc : routineCall cfg env ops x it s0 with ⟨e | f, s1⟩
    · rw [hrc] at hr; exact hr.1
    · rw [hrc] at hr
      refine (Stopped.keeps (cfg := cfg) (env := env) (ops := ops) (g := g) ?_ s1 ⟨hr.1, hr.2 rfl⟩).1
      refine .bind .get fun s => .bind (.modify fun s => ?_) fun _ => .bind (.storeTest hk hre 0 f) fun _ => ?_
      · exact .tests true s _ _ s.stepNumber hk hre (by simp) (by simp)
      · rcases (if s.iter = 1 then [cfg.half] else steps).getLast? with _ | last
        · exact .raise _
        · exact .reEvalLoop hk hre x it last _ 0

theorem Sealed.handler {g : F} (hg : cfg.goal = some g) (hk : cfg.kind ≠ .grape) (hre : cfg.reEval ≠ none) (o : Op K V F)
    (hd : ∀ x it v, o ≠ .drift x it v) : KeepsAll (Sealed g) (algHandler cfg env ops o : Prog (AlgState V C O F) o.Res) := by
  have hsc : ∀ f, KeepsAll (Sealed g) (withSc f : Prog (AlgState V C O F) Unit) := fun f => .modify fun s h => h.frame rfl rfl rfl id
  have hcl : KeepsAll (Sealed g) (readClock env : Prog (AlgState V C O F) ℚ) := fun s h => h.frame rfl rfl rfl id
  cases o with
  | eval x it =>
    show KeepsAll (Sealed g) (if cfg.kind = .grape then innerGrape cfg env ops x else innerCall cfg env ops x it : Prog _ F)
    rw [if_neg hk]; exact Sealed.inner hg hk hre x it
  | drift x it v => exact absurd rfl (hd x it v)
  | readConv => exact .bind Sealed.poll fun _ => .bind .get fun s => .pure _
  | setConv b => exact hsc _
  | callback => exact .bind Sealed.poll fun _ => .bind .get fun s => .pure _
  | userStop => exact hsc _
  | checkNM size fsim calls => exact .bind hcl fun now => .bind .get fun s => .bind (.lift _) fun sc => hsc _
  | checkCMA fsim calls => exact .bind hcl fun now => hsc _
  | now => exact hcl
  | reason => exact .bind .get fun s => .pure _
  | fail e => exact .raise e

theorem Sealed.interp {g : F} (hg : cfg.goal = some g) (hk : cfg.kind ≠ .grape) (hre : cfg.reEval ≠ none) {α : Type}
    (st : Strat K V F α) (hd : st.NoDrift) :
    KeepsAll (Sealed g) (st.interp (algHandler cfg env ops) : Prog (AlgState V C O F) α) := by
  induction st with
  | ret a => exact .pure a
  | op o k ih => exact .bind (Sealed.handler hg hk hre o hd.1) fun r => ih r (hd.2 r)

theorem Sealed.build {g : F} (hg : cfg.goal = some g) (hk : cfg.kind ≠ .grape) (hre : cfg.reEval ≠ none) (dsm : Dsm K V F)
    (hd : ∀ i x sim sg, (dsm i x sim sg).NoDrift) :
    KeepsAll (Sealed g) (dsmBuild cfg env ops dsm : Prog (AlgState V C O F) Unit) :=
  .bind .get fun s => .bind (.lift _) fun x0 => .bind (.lift _) fun sg => .bind (.lift _) fun sim =>
    .bind (.modify fun s h => h.frame rfl rfl rfl id) fun _ => .bind (Sealed.interp hg hk hre _ (hd _ _ _ _)) fun r =>
    .modify fun s h => h.frame rfl rfl rfl id

theorem Sealed.loop {g : F} (hg : cfg.goal = some g) (hk : cfg.kind ≠ .grape) (hre : cfg.reEval ≠ none) (dsm : Dsm K V F)
    (hdr : NoDriftRun cfg dsm) (n : ℕ) : ∀ k,
    KeepsAll (Sealed g) (dcrabLoop cfg env ops dsm n k : Prog (AlgState V C O F) Unit) := by
  induction n with
  | zero => exact fun k => .pure _
  | succ n ih =>
    intro k
    refine .bind Sealed.poll fun _ => .bind .get fun s => ?_
    split
    · exact .pure _
    · refine .bind ?_ fun _ => ih (k + 1)
      refine .bind (fun s h => h.frame rfl rfl rfl id) fun now => .bind (.modify fun s h => h.frame rfl rfl rfl id) fun _ =>
        .bind (.modify fun s h => h.frame rfl rfl rfl id) fun _ => .bind ?_ fun _ => .bind .get fun s => .bind (.lift _) fun o =>
        .bind (.modify fun s h => h.frame rfl rfl rfl id) fun _ => .bind (Sealed.build hg hk hre dsm hdr.2) fun _ => ?_
      · unfold driftStep
        rw [if_neg (by rw [hdr.1]; simp)]
        exact .pure _
      · intro s h
        unfold updateBasePulses
        rcases s.bestXX with _ | x
        · exact h
        · dsimp only
          rcases ops.updateBase s.ctl x with e | o
          · exact h
          · exact h.frame rfl rfl rfl id

/-- **C03.** A whole run with re-evaluation steps (and without drift compensation): when the client reports a record whose figure
of merit is at least as good as the goal, the user's function is never called again. `r.calls` is the number of calls made before
the report. Nothing is assumed about the figures of merit (they may be `NaN`), the re-evaluation thresholds, the search method, the
time the calls take, or stops and exceptions. -/
theorem C03_goal_record_ends_run (hre : ¬ NoReEval cfg) (dsm : Dsm K V F) (hdr : NoDriftRun cfg dsm) (o : O) (goal : F)
    (hgoal : cfg.userGoal = some goal) (r : DumpCall C F) (hr : r ∈ (execute cfg env ops dsm o).2.dumps) (hrec : r.isRecord = true)
    (hgood : AtLeastAsGood cfg.maximize (dirMul cfg.maximize r.fom) goal) :
    (execute cfg env ops dsm o).2.log.length = r.calls := by
  have hcg : cfg.goal = some (dirMul cfg.maximize goal) := by
    unfold AlgCfg.goal; rw [hgoal]; rfl
  unfold NoReEval at hre
  push Not at hre
  have hle : r.fom ≤ dirMul cfg.maximize goal := by
    rw [← dirMul_le, dirMul_dirMul] at hgood; exact hgood
  have h0 : Sealed (dirMul cfg.maximize goal) (initState cfg env o : AlgState V C O F) := fun r h => by simp [initState] at h
  have : Sealed (dirMul cfg.maximize goal) (execute cfg env ops dsm o).2 := by
    unfold execute run
    rcases hkd : cfg.kind with _ | _ | _
    · exact Sealed.loop hcg hre.1 hre.2 dsm hdr _ _ _ h0
    · exact Sealed.build hcg hre.1 hre.2 dsm hdr.2 _ h0
    · exact absurd hkd hre.1
  exact (this r hr hrec hle).1.symm

/-- With re-evaluation, a goal of 2 and seven prepared answers: the fifth call completes a record with mean 1, and the run ends there. -/
example : ((execute (exCfg .dcrab 100 false (some 2) (some [1 / 2])) (exEnv (exAns [5, 5, 6, 1, 1, 0, 0]) (fun _ => .none))
    exOps (exDsm [1, 2, 3, 4, 5]) ()).2.dumps.filterMap (fun r => if r.isRecord then some (r.fom, r.calls) else none)) =
    [(5, 2), (1, 5)] := by decide +kernel

/-! ### The rest of a run after the goal was reached -/

/-- The calls are `l`, and the run is stopped or its best figure of merit reaches `g`. -/
def GoalMet (g : F) (l : List (Call V C F)) (s : AlgState V C O F) : Prop := s.log = l ∧ (s.running = false ∨ s.bestFoM ≤ g)

variable {g : F} {l : List (Call V C F)}

theorem GoalMet.frame {s s' : AlgState V C O F} (h : GoalMet g l s) (h2 : s'.log = s.log) (h3 : s'.bestFoM = s.bestFoM)
    (h4 : s.running = false → s'.running = false) : GoalMet g l s' := by
  unfold GoalMet
  rw [h2, h3]
  exact ⟨h.1, h.2.imp_left h4⟩

theorem GoalMet.poll : KeepsAll (GoalMet g l) (QuOCS.poll cfg env : Prog (AlgState V C O F) Unit) := by
  intro s h
  rcases poll_cases (cfg := cfg) (env := env) s with ⟨_, q⟩ | ⟨_, e, h2⟩
  · exact h.frame q.log q.bestFoM q.mono
  · rw [h2]; exact h

/-- a routine call only stops the run -/
theorem GoalMet.routine (hg : cfg.goal = some g) (x : V) (it : ℕ) (s : AlgState V C O F) (h : GoalMet g l s) :
    GoalMet g l (routineCall cfg env ops x it s).2 ∧
    (isOk (routineCall cfg env ops x it s).1 = true → (routineCall cfg env ops x it s).2.running = false) := by
  have hs := routineCall_spec (cfg := cfg) (env := env) (ops := ops) x it s
  generalize routineCall cfg env ops x it s = rs at hs ⊢
  obtain ⟨r, s'⟩ := rs
  have hq : ∀ s s' : AlgState V C O F, Quiet env s s' → GoalMet g l s → GoalMet g l s' := fun s s' q h => h.frame q.log q.bestFoM q.mono
  cases hs with
  | stopped s1 q hr => exact ⟨hq _ _ q h, fun _ => hr⟩
  | sigint s1 r e q hk => exact ⟨(hq _ s1 q h :), fun h => by cases h⟩
  | noControls s1 e q hr hi _ => exact ⟨(hq _ s1 q h :), fun h => by cases h⟩
  | window s1 o c s2 q hr hi _ q2 hr2 ha => exact ⟨hq _ _ q2 (hq _ s1 q h :), fun _ => hr2⟩
  | windowSigint s1 o c s2 r e q hr hi _ q2 hk => exact ⟨(hq _ s2 q2 (hq _ s1 q h :) :), fun h => by cases h⟩
  | measured s1 o c s2 q hr hi hg' ht _ q2 hr2 =>
    rcases h.2 with h1 | h1
    · rw [q.mono h1] at hr; cases hr
    · exact absurd h1 (hg' _ hg)

/-- a stopped run makes no calls -/
theorem GoalMet.stopped {α : Type} {m : Prog (AlgState V C O F) α} (hm : Traced cfg env ops true m) (s : AlgState V C O F)
    (h : s.log = l ∧ s.running = false) : GoalMet g l (m s).2 := by
  have := hm.inv (fun s => s.log = l ∧ s.running = false) ?_ s h
  · exact ⟨this.1, .inl this.2⟩
  · intro b s1 s2 ha hs
    cases ha.eff with
    | still hl _ _ hr _ => exact ⟨hl.trans hs.1, hr hs.2⟩
    | counted hl _ _ hr _ _ => rw [hs.2] at hr; cases hr
    | measured c hl _ _ hr _ _ _ _ _ _ => rw [hs.2] at hr; cases hr

theorem GoalMet.afterRoutine {α : Type} (hg : cfg.goal = some g) (x : V) (it : ℕ) {f : F → Prog (AlgState V C O F) α}
    (hf : ∀ a, Traced cfg env ops true (f a)) : KeepsAll (GoalMet g l) (routineCall cfg env ops x it >>= f) := by
  intro s h
  have h1 := GoalMet.routine (env := env) (ops := ops) hg x it s h
  rw [Prog.bind_apply]
  rcases hr : routineCall cfg env ops x it s with ⟨e | a, s1⟩
  · rw [hr] at h1; exact h1.1
  · rw [hr] at h1
    exact GoalMet.stopped (hf a) s1 ⟨h1.1.1, h1.2 rfl⟩

theorem GoalMet.handler (hg : cfg.goal = some g) (o : Op K V F) (hd : ∀ x it v, o ≠ .drift x it v) :
    KeepsAll (GoalMet g l) (algHandler cfg env ops o : Prog (AlgState V C O F) o.Res) := by
  have hsc : ∀ f, KeepsAll (GoalMet g l) (withSc f : Prog (AlgState V C O F) Unit) := fun f => .modify fun s h => h.frame rfl rfl id
  have hcl : KeepsAll (GoalMet g l) (readClock env : Prog (AlgState V C O F) ℚ) := fun s h => h.frame rfl rfl id
  cases o with
  | eval x it =>
    show KeepsAll (GoalMet g l) (if cfg.kind = .grape then innerGrape cfg env ops x else innerCall cfg env ops x it : Prog _ F)
    by_cases hk : cfg.kind = .grape
    · rw [if_pos hk]
      refine .bind (.modify fun s h => h.frame rfl rfl id) fun _ => .bind ?_ fun _ => fun s h => (GoalMet.routine hg x 0 s h).1
      intro s h
      unfold gradientControls
      rcases ops.getControls s.ctl x with e | ⟨o, c⟩
      · exact h
      · exact h.frame rfl rfl id
    · rw [if_neg hk]
      refine .bind (.modify fun s h => h.frame rfl rfl id) fun _ => GoalMet.afterRoutine hg x it fun f => ?_
      rcases hre : cfg.reEval with _ | steps
      · exact .pure _
      · have hne : cfg.reEval ≠ none := by rw [hre]; simp
        refine .bind .get fun s => .bind (.modify fun s => ?_) fun _ => .bind (.storeTest hk hne 0 f) fun _ => ?_
        · exact .tests true s _ _ s.stepNumber hk hne (by simp) (by simp)
        · rcases (if s.iter = 1 then [cfg.half] else steps).getLast? with _ | last
          · exact .raise _
          · exact .reEvalLoop hk hne x it last _ 0
  | drift x it v => exact absurd rfl (hd x it v)
  | readConv => exact .bind GoalMet.poll fun _ => .bind .get fun s => .pure _
  | setConv b => exact hsc _
  | callback => exact .bind GoalMet.poll fun _ => .bind .get fun s => .pure _
  | userStop => exact hsc _
  | checkNM size fsim calls => exact .bind hcl fun now => .bind .get fun s => .bind (.lift _) fun sc => hsc _
  | checkCMA fsim calls => exact .bind hcl fun now => hsc _
  | now => exact hcl
  | reason => exact .bind .get fun s => .pure _
  | fail e => exact .raise e

theorem GoalMet.interp (hg : cfg.goal = some g) {α : Type} (st : Strat K V F α) (hd : st.NoDrift) :
    KeepsAll (GoalMet g l) (st.interp (algHandler cfg env ops) : Prog (AlgState V C O F) α) := by
  induction st with
  | ret a => exact .pure a
  | op o k ih => exact .bind (GoalMet.handler hg o hd.1) fun r => ih r (hd.2 r)

theorem GoalMet.build (hg : cfg.goal = some g) (dsm : Dsm K V F) (hd : ∀ i x sim sg, (dsm i x sim sg).NoDrift) :
    KeepsAll (GoalMet g l) (dsmBuild cfg env ops dsm : Prog (AlgState V C O F) Unit) :=
  .bind .get fun s => .bind (.lift _) fun x0 => .bind (.lift _) fun sg => .bind (.lift _) fun sim =>
    .bind (.modify fun s h => h.frame rfl rfl id) fun _ => .bind (GoalMet.interp hg _ (hd _ _ _ _)) fun r =>
    .modify fun s h => h.frame rfl rfl id

theorem GoalMet.drift (hg : cfg.goal = some g) (hk : cfg.kind = .dcrab) (k : ℕ) :
    KeepsAll (GoalMet g l) (driftStep cfg env ops k : Prog (AlgState V C O F) Unit) := by
  unfold driftStep
  by_cases hd : cfg.driftAfterSI = true ∧ k ≥ 2
  · rw [if_pos hd]
    refine .bind .get fun s => .bind (.lift _) fun x0 => .bind (.modify fun s h => h.frame rfl rfl id) fun _ => ?_
    have hend : ∀ (f : F), Traced cfg env ops true (if cfg.driftAverage = 0 then Prog.raise .zeroDivision
        else Prog.modify (fun s : AlgState V C O F => { s with bestFoM := f / (cfg.driftAverage : F) })) := by
      intro f
      split
      · exact .raise _
      · exact .modify fun s => .driftEnd s _ hk hd.1
    rcases hn : cfg.driftAverage with _ | n
    · unfold sumRoutine
      exact .bind (.pure _) fun f => by rw [if_pos rfl]; exact .raise _
    · have hassoc : (sumRoutine cfg env ops x0 (n + 1) 0 >>= fun f => (if n + 1 = 0 then Prog.raise .zeroDivision
          else Prog.modify (fun s : AlgState V C O F => { s with bestFoM := f / ((n + 1 : ℕ) : F) }) : Prog (AlgState V C O F) Unit)) =
          (routineCall cfg env ops x0 0 >>= fun f0 => sumRoutine cfg env ops x0 n (0 + f0) >>= fun f =>
            (if n + 1 = 0 then Prog.raise .zeroDivision
              else Prog.modify (fun s : AlgState V C O F => { s with bestFoM := f / ((n + 1 : ℕ) : F) }) : Prog (AlgState V C O F) Unit)) := by
        funext s
        conv_lhs => unfold sumRoutine
        simp only [Prog.bind_apply]
        rcases routineCall cfg env ops x0 0 s with ⟨e | a, s1⟩ <;> rfl
      rw [hassoc]
      refine GoalMet.afterRoutine hg x0 0 fun f0 => .bind (.sumRoutine hk hd.1 x0 n _) fun f => ?_
      have := hend f
      rw [hn] at this
      exact this
  · rw [if_neg hd]; exact .pure _

theorem GoalMet.loop (hg : cfg.goal = some g) (hk : cfg.kind = .dcrab) (dsm : Dsm K V F)
    (hd : ∀ i x sim sg, (dsm i x sim sg).NoDrift) (n : ℕ) : ∀ k,
    KeepsAll (GoalMet g l) (dcrabLoop cfg env ops dsm n k : Prog (AlgState V C O F) Unit) := by
  induction n with
  | zero => exact fun k => .pure _
  | succ n ih =>
    intro k
    refine .bind GoalMet.poll fun _ => .bind .get fun s => ?_
    split
    · exact .pure _
    · refine .bind ?_ fun _ => ih (k + 1)
      refine .bind (fun s h => h.frame rfl rfl id) fun now => .bind (.modify fun s h => h.frame rfl rfl id) fun _ =>
        .bind (.modify fun s h => h.frame rfl rfl id) fun _ => .bind (GoalMet.drift hg hk k) fun _ => .bind .get fun s => .bind (.lift _) fun o =>
        .bind (.modify fun s h => h.frame rfl rfl id) fun _ => .bind (GoalMet.build hg dsm hd) fun _ => ?_
      intro s h
      unfold updateBasePulses
      rcases s.bestXX with _ | x
      · exact h
      · dsimp only
        rcases ops.updateBase s.ctl x with e | o
        · exact h
        · exact h.frame rfl rfl id

/-- **C03.** With re-evaluation and with drift compensation between super-iterations: when the best figure of merit is at least as
good as the goal at the beginning of a super-iteration, then in all the remaining super-iterations, including the measurements for
drift compensation, the user's function is not called. (Inside a super-iteration see `C03_search_stops_at_goal`.) -/
theorem C03_remaining_super_iterations (hk : cfg.kind = .dcrab) (goal : F) (hgoal : cfg.userGoal = some goal) (dsm : Dsm K V F)
    (hd : ∀ i x sim sg, (dsm i x sim sg).NoDrift) (n k : ℕ) (s : AlgState V C O F)
    (hs : AtLeastAsGood cfg.maximize (finalFoM cfg s) goal) : (dcrabLoop cfg env ops dsm n k s).2.log = s.log := by
  have hcg : cfg.goal = some (dirMul cfg.maximize goal) := by
    unfold AlgCfg.goal; rw [hgoal]; rfl
  replace hs : s.bestFoM ≤ dirMul cfg.maximize goal := by
    rw [← dirMul_le] at hs
    unfold finalFoM at hs
    rwa [dirMul_dirMul] at hs
  exact (GoalMet.loop (l := s.log) hcg hk dsm hd n k s ⟨rfl, .inr hs⟩).1

/-- Two super-iterations with drift compensation by two measurements: the last point of the first super-iteration reaches the goal, and
neither the drift compensation nor the second super-iteration calls the user's function. -/
example : ((execute { exCfg .dcrab 100 false (some 2) none with driftAfterSI := true, driftAverage := 2 }
    (exEnv (exAns [5, 1, 7, 7, 7, 7]) (fun _ => .none)) exOps (exDsm [1, 2]) ()).2.log.map (fun c => c.value)) = [some 5, some 1] := by
  decide +kernel

/-- With a goal that is not reached all six calls are made. -/
example : ((execute { exCfg .dcrab 100 false (some 0) none with driftAfterSI := true, driftAverage := 2 }
    (exEnv (exAns [5, 1, 7, 7, 7, 7]) (fun _ => .none)) exOps (exDsm [1, 2]) ()).2.log.length) = 6 := by
  decide +kernel

end QuOCS

/-
Runs of dCRAB, super-iteration by super-iteration.
-/
import Verif.Lemmas.Delivered
import Verif.Props.Records
import Verif.Spec.Dcrab

set_option linter.unusedSectionVars false
set_option linter.unusedVariables false

namespace QuOCS

section
variable {K V C O F β : Type} [LE K] [DecidableLE K]
variable [Add F] [Sub F] [Mul F] [Div F] [Neg F] [Zero F] [One F] [NatCast F] [LE F] [LT F] [DecidableLE F]
  [DecidableLT F] [FloatOrder F]
variable {cfg : AlgCfg K F} {env : Env V C F} {ops : CtlOps O V C}

/-- The calls of at most `n` super-iterations, the first one with number `k`, which start with the object `o` after the calls `before`.
Within a super-iteration the objects have the property `I` and agree in `view`. `Q k o l`: the search of super-iteration `k` with the object
`o` makes the calls `l`. -/
inductive Stages (cfg : AlgCfg K F) (ops : CtlOps O V C) (I : O → Prop) (view : O → β) (Q : ℕ → O → List (Call V C F) → Prop) :
    ℕ → ℕ → O → List (Call V C F) → List (Call V C F) → Prop
  | stop (n k o before) : Stages cfg ops I view Q n k o before []
  | last {n k o before o1 calls} (hs : ops.selectBasis k o = .ok o1)
      (hb : ∀ c ∈ calls, BuiltBy ops (fun o' => I o' ∧ view o' = view o1) c.vec c.ctl) (hq : Q k o1 calls) :
      Stages cfg ops I view Q (n + 1) k o before calls
  | next {n k o before o1 calls x0 x o2 o3 rest} (hs : ops.selectBasis k o = .ok o1)
      (hb : ∀ c ∈ calls, BuiltBy ops (fun o' => I o' ∧ view o' = view o1) c.vec c.ctl) (hq : Q k o1 calls)
      (hm : ops.mean o1 = .ok x0) (hk : KeptVector cfg before calls x0 x) (h2 : I o2 ∧ view o2 = view o1)
      (hu : ops.updateBase o2 x = .ok o3) (hr : Stages cfg ops I view Q n (k + 1) o3 (before ++ calls) rest) :
      Stages cfg ops I view Q (n + 1) k o before (calls ++ rest)

/-- The object without the methods that are not used inside of a search. -/
def inner (ops : CtlOps O V C) : CtlOps O V C :=
  { ops with mean := fun _ => .error .notImplemented, updateBase := fun _ _ => .error .notImplemented, selectBasis := fun _ _ => .error .notImplemented }

theorem handler_inner (o : Op K V F) : algHandler cfg env ops o = algHandler cfg env (inner ops) o := by
  have hr : ∀ x it, routineCall cfg env ops x it = routineCall cfg env (inner ops) x it := fun _ _ => rfl
  cases o with
  | eval x it =>
    simp only [algHandler]
    have h1 : ∀ x, gradientControls (F := F) ops x = gradientControls (inner ops) x := fun _ => rfl
    have h2 : ∀ x it last i l, reEvalLoop cfg env ops x it last i l = reEvalLoop cfg env (inner ops) x it last i l := by
      intro x it last i l
      induction l generalizing i with
      | nil => rfl
      | cons a l ih => simp only [reEvalLoop, hr, ih]
    simp only [innerGrape, innerCall, hr, h1, h2]
  | _ => rfl

theorem interp_inner {α : Type} (st : Strat K V F α) :
    st.interp (algHandler cfg env ops) = st.interp (algHandler cfg env (inner ops)) := by
  induction st with
  | ret a => rfl
  | op o k ih => simp only [Strat.interp, handler_inner (ops := ops) o, ih]

/-- Inside of a super-iteration that started with the best value `b0` after the calls `before` at the vector `x0`. -/
structure InStage (cfg : AlgCfg K F) (ops : CtlOps O V C) (J : O → Prop) (x0 : V) (before : List (Call V C F)) (b0 : F)
    (s : AlgState V C O F) : Prop where
  ctl : J s.ctl
  calls : ∃ l, s.log = before ++ l ∧ (∀ c ∈ l, BuiltBy ops J c.vec c.ctl) ∧
    ((s.bestXX = some x0 ∧ s.bestFoM = b0 ∧ ∀ c ∈ l, ∀ f, c.value = some f → ¬ dirMul cfg.maximize f < b0) ∨
     ∃ c ∈ l, ∃ f, c.value = some f ∧ s.bestXX = some c.vec ∧ s.bestFoM = dirMul cfg.maximize f)

variable {J : O → Prop} {x0 : V} {before : List (Call V C F)} {b0 : F}

theorem InStage.frame {s s' : AlgState V C O F} (h : InStage cfg ops J x0 before b0 s) (h1 : s'.ctl = s.ctl) (h2 : s'.log = s.log)
    (h3 : s'.bestXX = s.bestXX) (h4 : s'.bestFoM = s.bestFoM) : InStage cfg ops J x0 before b0 s' := by
  refine ⟨h1 ▸ h.ctl, ?_⟩
  rw [h2, h3, h4]; exact h.calls

theorem InStage.quiet {s s' : AlgState V C O F} (h : InStage cfg ops J x0 before b0 s) (q : Quiet env s s') :
    InStage cfg ops J x0 before b0 s' := h.frame q.ctl q.log q.bestXX q.bestFoM

theorem InStage.routine (hJ : ∀ o x o' c, J o → ops.getControls o x = .ok (o', c) → J o') (hre : NoReEval cfg)
    {s s' : AlgState V C O F} {x : V} {it : ℕ} {r : Py F} (h : InStage cfg ops J x0 before b0 s)
    (hstep : cfg.kind ≠ .grape → s.stepNumber = 0) (hr : RoutineSpec cfg env ops x it s r s') :
    InStage cfg ops J x0 before b0 s' := by
  have sent : ∀ (s1 : AlgState V C O F) (o : O) (c : C), Quiet env s s1 → ops.getControls s.ctl x = .ok (o, c) →
      InStage cfg ops J x0 before b0
        { s1 with xx := some x, algIter := it, iter := s.iter + 1, ctl := o, commCtl := some c, signals := s1.signals ++ [.controls c] } := by
    intro s1 o c q hg
    have h1 := h.quiet q
    exact ⟨hJ _ _ _ _ h.ctl hg, h1.calls⟩
  cases hr with
  | stopped s1 q hr => exact h.quiet q
  | sigint s1 r e q hk => exact (h.quiet q).frame rfl rfl rfl rfl
  | noControls s1 e q hr hi hg => exact (h.quiet q).frame rfl rfl rfl rfl
  | window s1 o c s2 q hr hi hg q2 hr2 ha => exact (sent s1 o c q hg).quiet q2
  | windowSigint s1 o c s2 r e q hr hi hg q2 hk => exact ((sent s1 o c q hg).quiet q2).frame rfl rfl rfl rfl
  | measured s1 o c s2 q hr hi hgoal ht hg q2 hr2 =>
    have hs2 := (sent s1 o c q hg).quiet q2
    have hxx : s2.xx = some x := q2.xx
    have hst2 : s2.stepNumber = s.stepNumber := q2.stepNumber.trans q.stepNumber
    have hbuilt : BuiltBy ops J x c := ⟨s.ctl, o, h.ctl, hg⟩
    obtain ⟨l, hl, hbl, hbest⟩ := hs2.calls
    have app : ∀ k : Call V C F, k.vec = x → k.ctl = c → s2.log ++ [k] = before ++ (l ++ [k]) ∧
        ∀ c' ∈ l ++ [k], BuiltBy ops J c'.vec c'.ctl := by
      intro k e1 e2
      refine ⟨by rw [hl, List.append_assoc], fun c' hc' => ?_⟩
      rcases List.mem_append.1 hc' with hc' | hc'
      · exact hbl c' hc'
      · rw [List.mem_singleton.1 hc', e1, e2]; exact hbuilt
    have keep : ∀ k : Call V C F, k.value = none →
        ((s2.bestXX = some x0 ∧ s2.bestFoM = b0 ∧ ∀ c ∈ l ++ [k], ∀ f, c.value = some f → ¬ dirMul cfg.maximize f < b0) ∨
         ∃ c ∈ l ++ [k], ∃ f, c.value = some f ∧ s2.bestXX = some c.vec ∧ s2.bestFoM = dirMul cfg.maximize f) := by
      intro k hk
      rcases hbest with ⟨e1, e2, e3⟩ | ⟨c', hc', f, hf, e1, e2⟩
      · refine .inl ⟨e1, e2, fun c' hc' f hf => ?_⟩
        rcases List.mem_append.1 hc' with hc' | hc'
        · exact e3 c' hc' f hf
        · rw [List.mem_singleton.1 hc', hk] at hf; cases hf
      · exact .inr ⟨c', List.mem_append_left _ hc', f, hf, e1, e2⟩
    rcases ha : env.getFoM s2.log c with e | a
    · rw [measure_raised x c s2 e ha]
      obtain ⟨a1, a2⟩ := app ⟨x, c, .error e, s2.polls, s2.ticks⟩ rfl rfl
      exact ⟨hs2.ctl, _, a1, a2, keep _ rfl⟩
    · rcases hf : a.fom with _ | f
      · rw [measure_noValue x c s2 a ha hf]
        obtain ⟨a1, a2⟩ := app ⟨x, c, .ok a, s2.polls, s2.ticks⟩ rfl rfl
        exact ⟨hs2.ctl, _, a1, a2, keep _ hf⟩
      · obtain ⟨fl, il, sc', hm⟩ := measure_answered (cfg := cfg) x c s2 a f ha hf
        have hsh : shownFoM cfg s2 (dirMul cfg.maximize f) = dirMul cfg.maximize f := by
          unfold shownFoM
          by_cases hk : cfg.kind = .dcrab
          · rw [if_pos hk, if_pos]
            rw [hst2]; exact hstep (by rw [hk]; decide)
          · rw [if_neg hk]
        have hcond : (cfg.kind = .grape ∨ cfg.reEval.isNone = true) := by
          rcases hre with h | h
          · exact .inl h
          · exact .inr (by rw [h]; rfl)
        obtain ⟨a1, a2⟩ := app ⟨x, c, .ok a, s2.polls, s2.ticks⟩ rfl rfl
        rw [hm]
        refine ⟨hs2.ctl, _, a1, a2, ?_⟩
        simp only [hsh, hcond, true_and]
        by_cases hlt : dirMul cfg.maximize f < s2.bestFoM
        · simp only [hlt, if_true]
          exact .inr ⟨⟨x, c, .ok a, s2.polls, s2.ticks⟩, by simp, f, hf, hxx, rfl⟩
        · simp only [hlt, if_false]
          rcases hbest with ⟨e1, e2, e3⟩ | ⟨c', hc', f', hf', e1, e2⟩
          · refine .inl ⟨e1, e2, fun c' hc' f' hf' => ?_⟩
            rcases List.mem_append.1 hc' with hc' | hc'
            · exact e3 c' hc' f' hf'
            · rw [List.mem_singleton.1 hc'] at hf'
              have : a.fom = some f' := hf'
              rw [hf] at this
              cases this
              rw [← e2]; exact hlt
          · exact .inr ⟨c', List.mem_append_left _ hc', f', hf', e1, e2⟩

theorem InStage.act (hJ : ∀ o x o' c, J o → ops.getControls o x = .ok (o', c) → J o') (hre : NoReEval cfg)
    (hdr : cfg.driftAfterSI = false) {b : Bool} {s s' : AlgState V C O F}
    (h : InStage cfg ops J x0 before b0 s) (a : Act cfg env (inner ops) false b s s') : InStage cfg ops J x0 before b0 s' := by
  have hre' : ∀ P : Prop, cfg.kind ≠ .grape → cfg.reEval ≠ none → P := fun P h1 h2 => by
    rcases hre with h | h
    · exact absurd h h1
    · exact absurd h h2
  cases a with
  | quiet q => exact h.quiet q
  | fail => exact h
  | sigint s r hk => exact h.frame rfl rfl rfl rfl
  | fresh x it s s0 r s' h0 h1 h2 hr =>
    have hspec := routineCall_spec (cfg := cfg) (env := env) (ops := ops) x it s0
    have hr : routineCall cfg env ops x it s0 = (r, s') := hr
    rw [hr] at hspec
    exact InStage.routine hJ hre (h.frame (by rw [h0]) (by rw [h0]) (by rw [h0]) (by rw [h0])) h1 hspec
  | again x it s hh =>
    rcases hh with ⟨h1, h2⟩ | ⟨_, h2⟩
    · exact hre' _ h1 h2
    · rw [hdr] at h2; cases h2
  | tests b s ft st n hk hh => exact hre' _ hk hh
  | record s mu sg x hk hh hx => exact hre' _ hk hh
  | recordFail s mu sg hk hh hx => exact hre' _ hk hh
  | drift s v x hd hx => cases hd
  | driftFail s v hd hx => cases hd
  | grapeControls b s x o c hk hg => exact ⟨hJ _ _ _ _ h.ctl hg, h.calls⟩
  | grapeFail s hk => exact h.frame rfl rfl rfl rfl
  | selectBasis s k o hk hg => cases hg
  | superIt s k hk hm => exact h.frame rfl rfl rfl rfl
  | driftBegin s hk hd => exact h.frame rfl rfl rfl rfl
  | driftEnd s f hk hd => rw [hdr] at hd; cases hd
  | startX s x hx => cases hx
  | reason s r => exact h.frame rfl rfl rfl rfl
  | updateBase s x o hx hg => cases hg

theorem InStage.interp (hJ : ∀ o x o' c, J o → ops.getControls o x = .ok (o', c) → J o') (hre : NoReEval cfg)
    (hdr : cfg.driftAfterSI = false) {α : Type} (st : Strat K V F α) (hd : st.NoDrift) {s : AlgState V C O F}
    (h : InStage cfg ops J x0 before b0 s) : InStage cfg ops J x0 before b0 (st.interp (algHandler cfg env ops) s).2 := by
  rw [interp_inner]
  exact (Traced.interp (d := false) st (.inr hd)).inv _ (fun b s s' a h => InStage.act hJ hre hdr h a) s h

variable {I : O → Prop} {view : O → β} {Q : ℕ → O → List (Call V C F) → Prop}

/-- What the kept vector is at the end of a super-iteration. -/
theorem InStage.kept {s0 s : AlgState V C O F} (h0 : BestInv cfg s0) (hb : BestInv cfg s)
    (h : InStage cfg ops J x0 s0.log s0.bestFoM s) :
    ∃ l, s.log = s0.log ++ l ∧ (∀ c ∈ l, BuiltBy ops J c.vec c.ctl) ∧ ∀ x, s.bestXX = some x → KeptVector cfg s0.log l x0 x := by
  obtain ⟨l, hl, hbl, hbest⟩ := h.calls
  refine ⟨l, hl, hbl, fun x hx => ?_⟩
  rcases hbest with ⟨e1, e2, e3⟩ | ⟨c, hc, f, hf, e1, e2⟩
  · rw [hx] at e1
    cases e1
    refine .inl ⟨rfl, fun c hc f hf => ?_⟩
    rcases h0.mem with hm | ⟨c', hc', g, hg, hm⟩
    · refine ⟨_, .inl rfl, ?_⟩
      rw [← dirMul_lt, dirMul_dirMul, ← hm]
      exact e3 c hc f hf
    · refine ⟨g, .inr ⟨c', hc', hg⟩, ?_⟩
      rw [← dirMul_lt, ← hm]
      exact e3 c hc f hf
  · rw [hx] at e1
    cases e1
    refine .inr ⟨c, hc, f, hf, rfl, fun c' hc' g hg => ?_⟩
    rw [← dirMul_lt, ← e2]
    exact hb.le c' (by rw [hl]; exact hc') g hg

/-- A search with the object `o`. -/
theorem dsmBuild_stage (hJ : ∀ o x o' c, J o → ops.getControls o x = .ok (o', c) → J o') (hre : NoReEval cfg)
    (dsm : Dsm K V F) (hdr : NoDriftRun cfg dsm) {s : AlgState V C O F} (hb : BestInv cfg s) (hc : J s.ctl) :
    ∃ l, (dsmBuild cfg env ops dsm s).2.log = s.log ++ l ∧ (∀ c ∈ l, BuiltBy ops J c.vec c.ctl) ∧
      BestInv cfg (dsmBuild cfg env ops dsm s).2 ∧
      (isOk (dsmBuild cfg env ops dsm s).1 = true → ∃ x0, ops.mean s.ctl = .ok x0 ∧ J (dsmBuild cfg env ops dsm s).2.ctl ∧
        ∀ x, (dsmBuild cfg env ops dsm s).2.bestXX = some x → KeptVector cfg s.log l x0 x) := by
  have hbest : BestInv cfg (dsmBuild cfg env ops dsm s).2 :=
    (Traced.dsmBuild (d := false) dsm (.inr hdr.2)).inv _ (fun b s s' a h => BestInv.step (a.simple hre hdr.1) h) s hb
  rcases hm : ops.mean s.ctl with e | x0
  · have e : dsmBuild cfg env ops dsm s = (.error e, s) := by
      unfold dsmBuild
      rw [Prog.get_bind, Prog.bind_apply, Prog.lift_apply, hm]
    rw [e]
    exact ⟨[], by simp, by simp, hb, fun h => by cases h⟩
  rcases hsg : ops.sigma s.ctl with e | sg
  · have e : dsmBuild cfg env ops dsm s = (.error e, s) := by
      unfold dsmBuild
      simp only [Prog.get, Prog.bind_apply, Prog.lift_apply, hm, hsg]
    rw [e]
    exact ⟨[], by simp, by simp, hb, fun h => by cases h⟩
  rcases hsi : ops.simplex s.superIt x0 sg with e | sim
  · have e : dsmBuild cfg env ops dsm s = (.error e, s) := by
      unfold dsmBuild
      simp only [Prog.get, Prog.bind_apply, Prog.lift_apply, hm, hsg, hsi]
    rw [e]
    exact ⟨[], by simp, by simp, hb, fun h => by cases h⟩
  have hstart : InStage cfg ops J x0 s.log s.bestFoM { s with bestXX := some x0 } :=
    ⟨hc, [], by simp, by simp, .inl ⟨rfl, rfl, by simp⟩⟩
  have hin := InStage.interp (env := env) hJ hre hdr.1 (dsm s.superIt x0 sim sg) (hdr.2 _ _ _ _) hstart
  have e : dsmBuild cfg env ops dsm s = ((dsm s.superIt x0 sim sg).interp (algHandler cfg env ops) >>= fun r =>
      Prog.modify (fun s => { s with terminateReason := r.reason })) { s with bestXX := some x0 } := by
    unfold dsmBuild
    simp only [Prog.get, Prog.bind_apply, Prog.lift_apply, hm, hsg, hsi, Prog.modify_apply]
  have hfin : InStage cfg ops J x0 s.log s.bestFoM (dsmBuild cfg env ops dsm s).2 := by
    rw [e, Prog.bind_apply]
    rcases hi : (dsm s.superIt x0 sim sg).interp (algHandler cfg env ops) { s with bestXX := some x0 } with ⟨e' | r, s'⟩
    · rw [hi] at hin; exact hin
    · rw [hi] at hin; exact hin.frame rfl rfl rfl rfl
  obtain ⟨l, h1, h2, h3⟩ := hfin.kept hb hbest
  exact ⟨l, h1, h2, hbest, fun _ => ⟨x0, rfl, hfin.ctl, h3⟩⟩

/-- What a class of objects has to satisfy. -/
structure KeepsView (ops : CtlOps O V C) (I : O → Prop) (view : O → β) : Prop where
  get : ∀ o x o' c, I o → ops.getControls o x = .ok (o', c) → I o' ∧ view o' = view o
  select : ∀ k o o', I o → ops.selectBasis k o = .ok o' → I o'
  base : ∀ o x o', I o → ops.updateBase o x = .ok o' → I o'

/-- The searches make the calls `Q`. -/
def Searches (cfg : AlgCfg K F) (env : Env V C F) (ops : CtlOps O V C) (dsm : Dsm K V F) (Q : ℕ → O → List (Call V C F) → Prop) : Prop :=
  ∀ s : AlgState V C O F, ∃ l, (dsmBuild cfg env ops dsm s).2.log = s.log ++ l ∧ Q s.superIt s.ctl l

/-- One super-iteration. -/
theorem superIteration_stage (hV : KeepsView ops I view) (hre : NoReEval cfg) (dsm : Dsm K V F) (hdr : NoDriftRun cfg dsm)
    (hQ : Searches cfg env ops dsm Q)
    (k : ℕ) {s : AlgState V C O F} (hb : BestInv cfg s) (hc : I s.ctl) :
    ((superIteration cfg env ops dsm k s).2.log = s.log ∧ isOk (superIteration cfg env ops dsm k s).1 = false) ∨
    ∃ o1 l, ops.selectBasis k s.ctl = .ok o1 ∧ (superIteration cfg env ops dsm k s).2.log = s.log ++ l ∧
      (∀ c ∈ l, BuiltBy ops (fun o' => I o' ∧ view o' = view o1) c.vec c.ctl) ∧ Q k o1 l ∧
      (isOk (superIteration cfg env ops dsm k s).1 = true →
        ∃ x0 x o2, ops.mean o1 = .ok x0 ∧ KeptVector cfg s.log l x0 x ∧ (I o2 ∧ view o2 = view o1) ∧
          ops.updateBase o2 x = .ok (superIteration cfg env ops dsm k s).2.ctl ∧
          BestInv cfg (superIteration cfg env ops dsm k s).2 ∧ I (superIteration cfg env ops dsm k s).2.ctl) := by
  have hds : driftStep cfg env ops k = pure () := by
    unfold driftStep; rw [if_neg (by rw [hdr.1]; simp)]
  generalize hs0 : ({ s with superIt := k, sc := { s.sc with startTime := env.clock s.ticks, track := [] }, ticks := s.ticks + 1 } :
    AlgState V C O F) = s0
  have l0 : s0.log = s.log := by rw [← hs0]
  have c0 : s0.ctl = s.ctl := by rw [← hs0]
  rcases ho : ops.selectBasis k s.ctl with e | o1
  · left
    have e : superIteration cfg env ops dsm k s = (.error e, s0) := by
      unfold superIteration
      rw [hds, ← hs0]
      simp only [readClock, withSc, Prog.bind_apply, Prog.modify_apply, Prog.pure_apply, Prog.get, Prog.lift_apply, ho]
    rw [e]
    exact ⟨l0, rfl⟩
  right
  have b0 : BestInv cfg { s0 with ctl := o1 } := by
    refine ⟨?_, ?_, ?_, ?_⟩ <;> rw [← hs0]
    · exact hb.num
    · exact hb.le
    · exact hb.init
    · exact hb.mem
  have i1 : I o1 := hV.select k _ _ hc ho
  obtain ⟨l, h1, h2, h3, h4⟩ := dsmBuild_stage (cfg := cfg) (env := env) (ops := ops) (J := fun o' => I o' ∧ view o' = view o1)
    (fun o x o' c h hg => ⟨(hV.get o x o' c h.1 hg).1, (hV.get o x o' c h.1 hg).2.trans h.2⟩) hre dsm hdr
    (s := { s0 with ctl := o1 }) b0 ⟨i1, rfl⟩
  have hq : Q k o1 l := by
    obtain ⟨l', q1, q2⟩ := hQ { s0 with ctl := o1 }
    rw [h1] at q1
    obtain rfl := List.append_cancel_left q1
    have : s0.superIt = k := by rw [← hs0]
    rw [← this]; exact q2
  have e : superIteration cfg env ops dsm k s =
      (dsmBuild cfg env ops dsm >>= fun _ => updateBasePulses ops) { s0 with ctl := o1 } := by
    unfold superIteration
    rw [hds, ← hs0]
    simp only [readClock, withSc, Prog.bind_apply, Prog.modify_apply, Prog.pure_apply, Prog.get, Prog.lift_apply, ho]
  refine ⟨o1, l, rfl, ?_⟩
  rw [e, Prog.bind_apply]
  rcases hd : dsmBuild cfg env ops dsm { s0 with ctl := o1 } with ⟨e' | u, s1⟩
  · rw [hd] at h1
    refine ⟨by rw [← l0]; exact h1, h2, hq, fun h => by cases h⟩
  · rw [hd] at h1 h3 h4
    obtain ⟨x0, m1, m2, m3⟩ := h4 rfl
    dsimp only
    unfold updateBasePulses
    rcases hx : s1.bestXX with _ | x
    · exact ⟨by rw [← l0]; exact h1, h2, hq, fun h => by cases h⟩
    · dsimp only
      rcases hu : ops.updateBase s1.ctl x with e' | o3
      · exact ⟨by rw [← l0]; exact h1, h2, hq, fun h => by cases h⟩
      · refine ⟨by rw [← l0]; exact h1, h2, hq, fun _ => ⟨x0, x, s1.ctl, m1, by rw [← l0]; exact m3 x hx, m2, hu, ?_, hV.base _ _ _ m2.1 hu⟩⟩
        exact ⟨h3.num, h3.le, h3.init, h3.mem⟩

/-- The loop over the super-iterations. -/
theorem loop_stages (hV : KeepsView ops I view) (hre : NoReEval cfg) (dsm : Dsm K V F) (hdr : NoDriftRun cfg dsm)
    (hQ : Searches cfg env ops dsm Q) (n k : ℕ) {s : AlgState V C O F} (hb : BestInv cfg s) (hc : I s.ctl) :
    ∃ l, (dcrabLoop cfg env ops dsm n k s).2.log = s.log ++ l ∧ Stages cfg ops I view Q n k s.ctl s.log l := by
  induction n generalizing k s with
  | zero => exact ⟨[], by simp [dcrabLoop, Prog.pure_apply], .stop _ _ _ _⟩
  | succ n ih =>
    unfold dcrabLoop
    rw [Prog.bind_apply]
    rcases poll_cases (cfg := cfg) (env := env) s with ⟨hok, q⟩ | ⟨hok, e', he⟩
    · rcases hp : poll cfg env s with ⟨e | u, s1⟩
      · rw [hp] at hok; cases hok
      rw [hp] at q
      dsimp only at q ⊢
      rw [Prog.get_bind]
      by_cases hr : s1.running = false
      · rw [if_pos hr]
        exact ⟨[], by simp [Prog.pure_apply, q.log], .stop _ _ _ _⟩
      rw [if_neg hr]
      have b1 : BestInv cfg s1 := ⟨q.bestFoM ▸ hb.num, by rw [q.log, q.bestFoM]; exact hb.le, q.bestFoM ▸ hb.init,
        by rw [q.log, q.bestFoM]; exact hb.mem⟩
      have c1 : I s1.ctl := by rw [q.ctl]; exact hc
      rw [Prog.bind_apply]
      rcases superIteration_stage (env := env) hV hre dsm hdr hQ k b1 c1 with ⟨h1, h2⟩ | ⟨o1, l, h1, h2, h3, hq, h4⟩
      · rcases hsi : superIteration cfg env ops dsm k s1 with ⟨e | u, s2⟩
        · rw [hsi] at h1
          exact ⟨[], by simp only [List.append_nil]; exact h1.trans q.log, .stop _ _ _ _⟩
        · rw [hsi] at h2; cases h2
      · rw [q.ctl] at h1
        rcases hsi : superIteration cfg env ops dsm k s1 with ⟨e | u, s2⟩
        · rw [hsi] at h2
          exact ⟨l, by rw [← q.log]; exact h2, .last h1 h3 hq⟩
        · rw [hsi] at h2 h4
          obtain ⟨x0, x, o2, m1, m2, m3, m4, m5, m6⟩ := h4 rfl
          dsimp only at h2 m4 m5 m6 ⊢
          obtain ⟨l', e1, e2⟩ := ih (k + 1) m5 m6
          refine ⟨l ++ l', by rw [e1, h2, q.log, List.append_assoc], .next h1 h3 hq m1 (by rw [← q.log]; exact m2) m3 m4 ?_⟩
          rw [← q.log, ← h2]
          exact e2
    · rw [he]
      exact ⟨[], by simp, .stop _ _ _ _⟩

/-- A whole run. -/
theorem execute_stages (hV : KeepsView ops I view) (hk : cfg.kind = .dcrab) (hre : cfg.reEval = none) (hmax : ¬ FloatOrder.IsNaN cfg.fomMax)
    (dsm : Dsm K V F) (hdr : NoDriftRun cfg dsm) (hQ : Searches cfg env ops dsm Q) {o : O} (ho : I o) :
    Stages cfg ops I view Q cfg.maxSI 1 o [] (execute cfg env ops dsm o).2.log := by
  obtain ⟨l, h1, h2⟩ := loop_stages (cfg := cfg) (env := env) hV (.inr hre) dsm hdr hQ cfg.maxSI 1 (.initial env o hmax) ho
  have e : (execute cfg env ops dsm o).2.log = l := by
    unfold execute run
    simp only [hk]
    rw [h1]
    rfl
  rw [e]
  exact h2

end
end QuOCS

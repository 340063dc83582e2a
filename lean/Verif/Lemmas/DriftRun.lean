/-
Runs of dCRAB with drift compensation, super-iteration by super-iteration.
-/
import Verif.Lemmas.Stages
import Verif.Lemmas.FirstCall
import Verif.Spec.DriftRun

set_option linter.unusedSectionVars false
set_option linter.unusedVariables false

namespace QuOCS

section
variable {K V C O F β : Type} [LE K] [DecidableLE K]
variable [Add F] [Sub F] [Mul F] [Div F] [Neg F] [Zero F] [One F] [NatCast F] [LE F] [LT F] [DecidableLE F]
  [DecidableLT F] [FloatOrder F]
variable {cfg : AlgCfg K F} {env : Env V C F} {ops : CtlOps O V C}

/-! ### Searches do not depend on the compensation between the super-iterations -/

theorem innerCall_drift (b : Bool) (x : V) (it : ℕ) :
    innerCall { cfg with driftAfterSI := b } env ops x it = innerCall cfg env ops x it := by
  have hl : ∀ last i steps, reEvalLoop { cfg with driftAfterSI := b } env ops x it last i steps = reEvalLoop cfg env ops x it last i steps := by
    intro last i steps
    induction steps generalizing i with
    | nil => rfl
    | cons p ps ih => simp only [reEvalLoop, ih]; rfl
  unfold innerCall
  simp only [hl]
  rfl

theorem handler_drift (b : Bool) : (algHandler { cfg with driftAfterSI := b } env ops : (o : Op K V F) → Prog (AlgState V C O F) o.Res) =
    algHandler cfg env ops := by
  funext o
  cases o with
  | eval x it => simp only [algHandler, innerCall_drift]; rfl
  | _ => rfl

/-! ### Searches -/

/-- Inside of a search that started after the calls `before` at the vector `x0` with the value `b0` to beat. -/
structure InSearch (cfg : AlgCfg K F) (ops : CtlOps O V C) (J : O → Prop) (x0 : V) (before : List (Call V C F)) (b0 : F)
    (s : AlgState V C O F) : Prop where
  ctl : J s.ctl
  calls : ∃ l x, s.log = before ++ l ∧ (∀ c ∈ l, BuiltBy ops J c.vec c.ctl) ∧ s.bestXX = some x ∧ KeptFrom cfg b0 l x0 x s.bestFoM

variable {J : O → Prop} {x0 : V} {before : List (Call V C F)} {b0 : F}

theorem InSearch.frame {s s' : AlgState V C O F} (h : InSearch cfg ops J x0 before b0 s) (h1 : s'.ctl = s.ctl) (h2 : s'.log = s.log)
    (h3 : s'.bestXX = s.bestXX) (h4 : s'.bestFoM = s.bestFoM) : InSearch cfg ops J x0 before b0 s' := by
  refine ⟨h1 ▸ h.ctl, ?_⟩
  rw [h2, h3, h4]; exact h.calls

theorem InSearch.quiet {s s' : AlgState V C O F} (h : InSearch cfg ops J x0 before b0 s) (q : Quiet env s s') :
    InSearch cfg ops J x0 before b0 s' := h.frame q.ctl q.log q.bestXX q.bestFoM

/-- one more call -/
theorem KeptFrom.add {b b' : F} {l : List (Call V C F)} {x : V} (h : KeptFrom cfg b l x0 x b') (k : Call V C F) :
    (∀ v, ReturnsValue cfg k v → ¬ v < b') → KeptFrom cfg b (l ++ [k]) x0 x b' := by
  intro hk
  refine ⟨fun c hc v hv => ?_, ?_⟩
  · rcases List.mem_append.1 hc with hc | hc
    · exact h.1 c hc v hv
    · rw [List.mem_singleton.1 hc] at hv; exact hk v hv
  · rcases h.2 with h | ⟨c, hc, h⟩
    · exact .inl h
    · exact .inr ⟨c, List.mem_append_left _ hc, h⟩

theorem KeptFrom.record {b b' v : F} {l : List (Call V C F)} {x : V} (h : KeptFrom cfg b l x0 x b') (k : Call V C F)
    (hk : ReturnsValue cfg k v) (hv : v < b') : KeptFrom cfg b (l ++ [k]) x0 k.vec v := by
  refine ⟨fun c hc w hw hlt => ?_, .inr ⟨k, by simp, hk, rfl, ?_⟩⟩
  · rcases List.mem_append.1 hc with hc | hc
    · exact h.1 c hc w hw (FloatOrder.lt_trans _ _ _ hlt hv)
    · rw [List.mem_singleton.1 hc] at hw
      obtain ⟨f, h1, rfl⟩ := hw
      obtain ⟨g, h2, rfl⟩ := hk
      rw [h1] at h2
      cases h2
      exact FloatOrder.lt_irrefl _ hlt
  · rcases h.2 with ⟨-, e⟩ | ⟨c, -, -, -, hb⟩
    · rw [← e]; exact hv
    · exact FloatOrder.lt_trans _ _ _ hv hb

theorem InSearch.routine (hJ : ∀ o x o' c, J o → ops.getControls o x = .ok (o', c) → J o') (hre : NoReEval cfg)
    {s s' : AlgState V C O F} {x : V} {it : ℕ} {r : Py F} (h : InSearch cfg ops J x0 before b0 s)
    (hstep : cfg.kind ≠ .grape → s.stepNumber = 0) (hr : RoutineSpec cfg env ops x it s r s') :
    InSearch cfg ops J x0 before b0 s' := by
  have sent : ∀ (s1 : AlgState V C O F) (o : O) (c : C), Quiet env s s1 → ops.getControls s.ctl x = .ok (o, c) →
      InSearch cfg ops J x0 before b0
        { s1 with xx := some x, algIter := it, iter := s.iter + 1, ctl := o, commCtl := some c, signals := s1.signals ++ [.controls c] } := by
    intro s1 o c q hg
    have h1 := h.quiet q
    exact ⟨hJ _ _ _ _ h.ctl hg, h1.calls⟩
  cases hr with
  | stopped s1 q hr => exact h.quiet q
  | sigint s1 r e q hk => exact (h.quiet q).frame rfl rfl rfl rfl
  | noControls s1 e q hr hi hg => exact (h.quiet q).frame rfl rfl rfl rfl
  | window s1 o c s2 q hr hi hg q2 hr2 ha => exact (sent s1 o c q hg).quiet q2
  | windowSigint s1 o c s2 r e q hr hi hg q2 hk => exact ((sent s1 o c q hg).quiet q2).frame rfl rfl rfl rfl
  | measured s1 o c s2 q hr hi hgoal ht hg q2 hr2 =>
    have hs2 := (sent s1 o c q hg).quiet q2
    have hxx : s2.xx = some x := q2.xx
    have hst2 : s2.stepNumber = s.stepNumber := q2.stepNumber.trans q.stepNumber
    have hbuilt : BuiltBy ops J x c := ⟨s.ctl, o, h.ctl, hg⟩
    obtain ⟨l, xb, hl, hbl, hxb, hbest⟩ := hs2.calls
    have app : ∀ k : Call V C F, k.vec = x → k.ctl = c → s2.log ++ [k] = before ++ (l ++ [k]) ∧
        ∀ c' ∈ l ++ [k], BuiltBy ops J c'.vec c'.ctl := by
      intro k e1 e2
      refine ⟨by rw [hl, List.append_assoc], fun c' hc' => ?_⟩
      rcases List.mem_append.1 hc' with hc' | hc'
      · exact hbl c' hc'
      · rw [List.mem_singleton.1 hc', e1, e2]; exact hbuilt
    have keep : ∀ k : Call V C F, k.value = none → KeptFrom cfg b0 (l ++ [k]) x0 xb s2.bestFoM := by
      intro k hk
      refine hbest.add k fun v hv => ?_
      obtain ⟨f, hf, -⟩ := hv
      rw [hk] at hf; cases hf
    rcases ha : env.getFoM s2.log c with e | a
    · rw [measure_raised x c s2 e ha]
      obtain ⟨a1, a2⟩ := app ⟨x, c, .error e, s2.polls, s2.ticks⟩ rfl rfl
      exact ⟨hs2.ctl, _, xb, a1, a2, hxb, keep _ rfl⟩
    · rcases hf : a.fom with _ | f
      · rw [measure_noValue x c s2 a ha hf]
        obtain ⟨a1, a2⟩ := app ⟨x, c, .ok a, s2.polls, s2.ticks⟩ rfl rfl
        exact ⟨hs2.ctl, _, xb, a1, a2, hxb, keep _ hf⟩
      · obtain ⟨fl, il, sc', hm⟩ := measure_answered (cfg := cfg) x c s2 a f ha hf
        have hsh : shownFoM cfg s2 (dirMul cfg.maximize f) = dirMul cfg.maximize f := by
          unfold shownFoM
          by_cases hk : cfg.kind = .dcrab
          · rw [if_pos hk, if_pos]
            rw [hst2]; exact hstep (by rw [hk]; decide)
          · rw [if_neg hk]
        have hcond : (cfg.kind = .grape ∨ cfg.reEval.isNone = true) := by
          rcases hre with h | h
          · exact .inl h
          · exact .inr (by rw [h]; rfl)
        obtain ⟨a1, a2⟩ := app ⟨x, c, .ok a, s2.polls, s2.ticks⟩ rfl rfl
        have hret : ReturnsValue cfg (⟨x, c, .ok a, s2.polls, s2.ticks⟩ : Call V C F) (dirMul cfg.maximize f) := ⟨f, hf, rfl⟩
        rw [hm]
        by_cases hlt : dirMul cfg.maximize f < s2.bestFoM
        · refine ⟨hs2.ctl, _, x, a1, a2, ?_⟩
          simp only [hsh, hcond, true_and, hlt, if_true]
          exact ⟨hxx, hbest.record _ hret hlt⟩
        · refine ⟨hs2.ctl, _, xb, a1, a2, ?_⟩
          simp only [hsh, hcond, true_and, hlt, if_false]
          refine ⟨hxb, hbest.add _ fun v hv => ?_⟩
          obtain ⟨g, hg', rfl⟩ := hv
          have : a.fom = some g := hg'
          rw [hf] at this
          cases this
          exact hlt

theorem InSearch.act (hJ : ∀ o x o' c, J o → ops.getControls o x = .ok (o', c) → J o') (hre : NoReEval cfg)
    (hdr : cfg.driftAfterSI = false) {b : Bool} {s s' : AlgState V C O F}
    (h : InSearch cfg ops J x0 before b0 s) (a : Act cfg env (inner ops) false b s s') : InSearch cfg ops J x0 before b0 s' := by
  have hre' : ∀ P : Prop, cfg.kind ≠ .grape → cfg.reEval ≠ none → P := fun P h1 h2 => by
    rcases hre with h | h
    · exact absurd h h1
    · exact absurd h h2
  cases a with
  | quiet q => exact h.quiet q
  | fail => exact h
  | sigint s r hk => exact h.frame rfl rfl rfl rfl
  | fresh x it s s0 r s' h0 h1 h2 hr =>
    have hspec := routineCall_spec (cfg := cfg) (env := env) (ops := ops) x it s0
    have hr : routineCall cfg env ops x it s0 = (r, s') := hr
    rw [hr] at hspec
    exact InSearch.routine hJ hre (h.frame (by rw [h0]) (by rw [h0]) (by rw [h0]) (by rw [h0])) h1 hspec
  | again x it s hh =>
    rcases hh with ⟨h1, h2⟩ | ⟨_, h2⟩
    · exact hre' _ h1 h2
    · rw [hdr] at h2; cases h2
  | tests b s ft st n hk hh => exact hre' _ hk hh
  | record s mu sg x hk hh hx => exact hre' _ hk hh
  | recordFail s mu sg hk hh hx => exact hre' _ hk hh
  | drift s v x hd hx => cases hd
  | driftFail s v hd hx => cases hd
  | grapeControls b s x o c hk hg => exact ⟨hJ _ _ _ _ h.ctl hg, h.calls⟩
  | grapeFail s hk => exact h.frame rfl rfl rfl rfl
  | selectBasis s k o hk hg => cases hg
  | superIt s k hk hm => exact h.frame rfl rfl rfl rfl
  | driftBegin s hk hd => exact h.frame rfl rfl rfl rfl
  | driftEnd s f hk hd => rw [hdr] at hd; cases hd
  | startX s x hx => cases hx
  | reason s r => exact h.frame rfl rfl rfl rfl
  | updateBase s x o hx hg => cases hg

theorem InSearch.interp (hJ : ∀ o x o' c, J o → ops.getControls o x = .ok (o', c) → J o') (hre : NoReEval cfg)
    {α : Type} (st : Strat K V F α) (hd : st.NoDrift) {s : AlgState V C O F}
    (h : InSearch cfg ops J x0 before b0 s) : InSearch cfg ops J x0 before b0 (st.interp (algHandler cfg env ops) s).2 := by
  rw [← handler_drift (cfg := cfg) false, interp_inner]
  have h' : InSearch { cfg with driftAfterSI := false } ops J x0 before b0 s := ⟨h.ctl, h.calls⟩
  have := (Traced.interp (cfg := { cfg with driftAfterSI := false }) (env := env) (ops := inner ops) (d := false) st (.inr hd)).inv _
    (fun b s s' a h => InSearch.act (cfg := { cfg with driftAfterSI := false }) (env := env) hJ hre rfl h a) s h'
  exact ⟨this.ctl, this.calls⟩

/-- A search: it fails before its first call, or makes calls as described. -/
theorem dsmBuild_search (hJ : ∀ o x o' c, J o → ops.getControls o x = .ok (o', c) → J o') (hre : NoReEval cfg)
    (dsm : Dsm K V F) (hd : ∀ i x sim sg, (dsm i x sim sg).NoDrift) {s : AlgState V C O F} (hc : J s.ctl) :
    ((∃ e, dsmBuild cfg env ops dsm s = (.error e, s))) ∨
    ∃ x0, ops.mean s.ctl = .ok x0 ∧ InSearch cfg ops J x0 s.log s.bestFoM (dsmBuild cfg env ops dsm s).2 := by
  rcases hm : ops.mean s.ctl with e | x0
  · left
    refine ⟨e, ?_⟩
    unfold dsmBuild
    rw [Prog.get_bind, Prog.bind_apply, Prog.lift_apply, hm]
  rcases hsg : ops.sigma s.ctl with e | sg
  · left
    refine ⟨e, ?_⟩
    unfold dsmBuild
    simp only [Prog.get, Prog.bind_apply, Prog.lift_apply, hm, hsg]
  rcases hsi : ops.simplex s.superIt x0 sg with e | sim
  · left
    refine ⟨e, ?_⟩
    unfold dsmBuild
    simp only [Prog.get, Prog.bind_apply, Prog.lift_apply, hm, hsg, hsi]
  refine .inr ⟨x0, rfl, ?_⟩
  have hstart : InSearch cfg ops J x0 s.log s.bestFoM { s with bestXX := some x0 } :=
    ⟨hc, [], x0, by simp, by simp, rfl, by simp, .inl ⟨rfl, rfl⟩⟩
  have hin := InSearch.interp (env := env) hJ hre (dsm s.superIt x0 sim sg) (hd _ _ _ _) hstart
  have e : dsmBuild cfg env ops dsm s = ((dsm s.superIt x0 sim sg).interp (algHandler cfg env ops) >>= fun r =>
      Prog.modify (fun s => { s with terminateReason := r.reason })) { s with bestXX := some x0 } := by
    unfold dsmBuild
    simp only [Prog.get, Prog.bind_apply, Prog.lift_apply, hm, hsg, hsi, Prog.modify_apply]
  rw [e, Prog.bind_apply]
  rcases hi : (dsm s.superIt x0 sim sg).interp (algHandler cfg env ops) { s with bestXX := some x0 } with ⟨e' | r, s'⟩
  · rw [hi] at hin; exact hin
  · rw [hi] at hin; exact hin.frame rfl rfl rfl rfl

/-! ### The compensation -/

/-- The measurements at `x`: they keep the property `J` of the object. -/
theorem sumRoutine_calls {x : V} (hJ : ∀ o o' c, J o → ops.getControls o x = .ok (o', c) → J o') (n : ℕ) (acc : F) {s : AlgState V C O F}
    (hc : J s.ctl) :
    ∃ comp, (sumRoutine cfg env ops x n acc s).2.log = s.log ++ comp ∧ (∀ c ∈ comp, c.vec = x ∧ BuiltBy ops J x c.ctl) ∧ comp.length ≤ n ∧
      ∀ v, (sumRoutine cfg env ops x n acc s).1 = .ok v →
        (sumRoutine cfg env ops x n acc s).2.running = false ∨ J (sumRoutine cfg env ops x n acc s).2.ctl ∧
          (sumRoutine cfg env ops x n acc s).2.superIt = s.superIt ∧ comp.length = n ∧
          ∃ vs, List.Forall₂ (ReturnsValue cfg) comp vs ∧ v = vs.foldl (· + ·) acc := by
  induction n generalizing acc s with
  | zero => exact ⟨[], by simp [sumRoutine, Prog.pure_apply], by simp, by simp, fun v hv => .inr ⟨hc, rfl, rfl, [], .nil, by cases hv; rfl⟩⟩
  | succ n ih =>
    have hstop : ∀ m acc' (s' : AlgState V C O F), s'.running = false → (sumRoutine cfg env ops x m acc' s').2.log = s'.log ∧
        (sumRoutine cfg env ops x m acc' s').2.running = false := by
      intro m
      induction m with
      | zero => exact fun acc' s' h => ⟨rfl, h⟩
      | succ m ihm =>
        intro acc' s' h
        have h1 := (frames_routine (cfg := cfg) (env := env) (ops := ops) x 0 s').2 h
        unfold sumRoutine
        rw [Prog.bind_apply]
        rcases hrc : routineCall cfg env ops x 0 s' with ⟨e | f, s1⟩
        · rw [hrc] at h1; exact h1
        · rw [hrc] at h1
          exact ⟨(ihm _ _ h1.2).1.trans h1.1, (ihm _ _ h1.2).2⟩
    unfold sumRoutine
    rw [Prog.bind_apply]
    have hspec := routineCall_spec (cfg := cfg) (env := env) (ops := ops) x 0 s
    -- no call: the rest makes none either
    have none : ∀ (s1 : AlgState V C O F) (f : F), s1.log = s.log → s1.running = false →
        ∃ comp, (sumRoutine cfg env ops x n (acc + f) s1).2.log = s.log ++ comp ∧ (∀ c ∈ comp, c.vec = x ∧ BuiltBy ops J x c.ctl) ∧
          comp.length ≤ n + 1 ∧ ∀ v, (sumRoutine cfg env ops x n (acc + f) s1).1 = .ok v →
            (sumRoutine cfg env ops x n (acc + f) s1).2.running = false ∨ J (sumRoutine cfg env ops x n (acc + f) s1).2.ctl ∧
              (sumRoutine cfg env ops x n (acc + f) s1).2.superIt = s.superIt ∧ comp.length = n + 1 ∧ ∃ vs, List.Forall₂ (ReturnsValue cfg) comp vs ∧ v = vs.foldl (· + ·) acc := by
      intro s1 f h1 h2
      exact ⟨[], by rw [(hstop n _ s1 h2).1, h1]; simp, by simp, by simp, fun v hv => .inl (hstop n _ s1 h2).2⟩
    generalize hR : routineCall cfg env ops x 0 s = R at hspec ⊢
    obtain ⟨r, sf⟩ := R
    dsimp only at hspec ⊢
    cases hspec with
    | stopped s1 q hr => exact none _ _ q.log hr
    | sigint s1 r e q hk => exact ⟨[], by simpa using q.log, by simp, by simp, fun v hv => by cases hv⟩
    | noControls s1 e q hr hi hg => exact ⟨[], by simpa using q.log, by simp, by simp, fun v hv => by cases hv⟩
    | window s1 o c s2 q hr hi hg q2 hr2 ha => exact none _ _ (q2.log.trans q.log) hr2
    | windowSigint s1 o c s2 r e q hr hi hg q2 hk =>
      exact ⟨[], by simpa using q2.log.trans q.log, by simp, by simp, fun v hv => by cases hv⟩
    | measured s1 o c s2 q hr hi hgoal ht hg q2 hr2 =>
      have l2 : s2.log = s.log := q2.log.trans q.log
      have c2 : J s2.ctl := by rw [q2.ctl]; exact hJ _ _ _ hc hg
      have hbuilt : BuiltBy ops J x c := ⟨s.ctl, o, hc, hg⟩
      rcases ha : env.getFoM s2.log c with e | a
      · rw [measure_raised x c s2 e ha]
        refine ⟨[⟨x, c, .error e, s2.polls, s2.ticks⟩], by rw [← l2], ?_, by simp, fun v hv => by cases hv⟩
        intro k hk
        rw [List.mem_singleton.1 hk]; exact ⟨rfl, hbuilt⟩
      · rcases hf : a.fom with _ | f
        · rw [measure_noValue x c s2 a ha hf]
          refine ⟨[⟨x, c, .ok a, s2.polls, s2.ticks⟩], by rw [← l2], ?_, by simp, fun v hv => by cases hv⟩
          intro k hk
          rw [List.mem_singleton.1 hk]; exact ⟨rfl, hbuilt⟩
        · have hm : ∃ s3 : AlgState V C O F, measure cfg env x c s2 = (.ok (dirMul cfg.maximize f), s3) ∧
              s3.log = s.log ++ [⟨x, c, .ok a, s2.polls, s2.ticks⟩] ∧ J s3.ctl ∧ s3.superIt = s.superIt := by
            obtain ⟨fl, il, sc', hm⟩ := measure_answered (cfg := cfg) x c s2 a f ha hf
            exact ⟨_, hm, by rw [← l2], c2, q2.superIt.trans q.superIt⟩
          obtain ⟨s3, hm, l3, c3, n3⟩ := hm
          rw [hm]
          dsimp only
          obtain ⟨comp, h1, h2, h3, h4⟩ := ih (acc + dirMul cfg.maximize f) c3
          refine ⟨⟨x, c, .ok a, s2.polls, s2.ticks⟩ :: comp, by rw [h1, l3]; simp, ?_, by simpa using h3, fun v hv => ?_⟩
          · intro k hk
            rcases List.mem_cons.1 hk with rfl | hk
            · exact ⟨rfl, hbuilt⟩
            · exact h2 k hk
          · rcases h4 v hv with h | ⟨i1, i5, i2, vs, i3, i4⟩
            · exact .inl h
            · exact .inr ⟨i1, i5.trans n3, by simp [i2], dirMul cfg.maximize f :: vs, .cons ⟨f, hf, rfl⟩ i3, i4⟩

/-! ### Runs -/

/-- A measurement with the object `o`. -/
def CompCall (ops : CtlOps O V C) (Comp : O → O → Prop) (o : O) (c : Call V C F) : Prop :=
  ops.mean o = .ok c.vec ∧ BuiltBy ops (Comp o) c.vec c.ctl

/-- The calls of at most `n` super-iterations, the first one with number `k`, which start with the object `o` and the value `b`. -/
inductive DStages (cfg : AlgCfg K F) (ops : CtlOps O V C) (I : O → Prop) (view : O → β) (Comp : O → O → Prop)
    (Q : ℕ → O → List (Call V C F) → Prop) : ℕ → ℕ → O → F → List (Call V C F) → F → RunEnd O F → Prop
  | stop (n k o b) : DStages cfg ops I view Comp Q n k o b [] b (.kept o b)
  | ends (n k o b) : DStages cfg ops I view Comp Q n k o b [] b .failed
  | broken {n k o b comp} (b' : F) (hk : 2 ≤ k) (hc : ∀ c ∈ comp, CompCall ops Comp o c) (hl : comp.length ≤ cfg.driftAverage) :
      DStages cfg ops I view Comp Q (n + 1) k o b comp b' .inMeasurements
  | last {n k o b comp calls} {a o1 : O} {b1 b2 : F} {x0 x : V} (hc : ∀ c ∈ comp, CompCall ops Comp o c)
      (hb : if 2 ≤ k then AverageOf cfg cfg.driftAverage comp b1 else comp = [] ∧ b1 = b)
      (ha : Comp o a) (hs : ops.selectBasis k a = .ok o1) (hm : ops.mean o1 = .ok x0)
      (hcalls : ∀ c ∈ calls, BuiltBy ops (fun o' => I o' ∧ view o' = view o1) c.vec c.ctl) (hq : Q k o1 calls)
      (hk : KeptFrom cfg b1 calls x0 x b2) :
      DStages cfg ops I view Comp Q (n + 1) k o b (comp ++ calls) b2 .failed
  | next {n k o b comp calls rest bEnd fin} {a o1 o2 o3 : O} {b1 b2 : F} {x0 x : V} (hc : ∀ c ∈ comp, CompCall ops Comp o c)
      (hb : if 2 ≤ k then AverageOf cfg cfg.driftAverage comp b1 else comp = [] ∧ b1 = b)
      (ha : Comp o a) (hs : ops.selectBasis k a = .ok o1) (hm : ops.mean o1 = .ok x0)
      (hcalls : ∀ c ∈ calls, BuiltBy ops (fun o' => I o' ∧ view o' = view o1) c.vec c.ctl) (hq : Q k o1 calls)
      (hk : KeptFrom cfg b1 calls x0 x b2)
      (h2 : I o2 ∧ view o2 = view o1) (hu : ops.updateBase o2 x = .ok o3)
      (hr : DStages cfg ops I view Comp Q n (k + 1) o3 b2 rest bEnd fin) :
      DStages cfg ops I view Comp Q (n + 1) k o b (comp ++ calls ++ rest) bEnd fin

/-- What the end says about result and state of a run. -/
def EndsAs (r : Py Unit × AlgState V C O F) : RunEnd O F → Prop
  | .kept o b => o = r.2.ctl ∧ b = r.2.bestFoM
  | .failed => isOk r.1 = false
  | .inMeasurements => True

/-- What the measurements do with the object: `Comp o a` for all objects `a` during the measurements that start with `o`; `P` holds after
an update. -/
structure KeepsStart (ops : CtlOps O V C) (I : O → Prop) (P : O → Prop) (Comp : O → O → Prop) : Prop where
  refl : ∀ o, I o → Comp o o
  kept : ∀ o a, Comp o a → I a
  get : ∀ o a x a' c, P o → ops.mean o = .ok x → Comp o a → ops.getControls a x = .ok (a', c) → Comp o a'
  base : ∀ o x o', I o → ops.updateBase o x = .ok o' → P o'

variable {I P : O → Prop} {view : O → β} {Comp : O → O → Prop} {Q : ℕ → O → List (Call V C F) → Prop}

/-- The compensation before a super-iteration. -/
theorem driftStep_calls (hK : KeepsStart ops I P Comp) (hdr : cfg.driftAfterSI = true) (k : ℕ) {s : AlgState V C O F} (hc : I s.ctl)
    (hP : 2 ≤ k → P s.ctl) :
    ∃ comp, (driftStep cfg env ops k s).2.log = s.log ++ comp ∧ (∀ c ∈ comp, CompCall ops Comp s.ctl c) ∧
      (comp = [] ∧ (driftStep cfg env ops k s).2.bestFoM = s.bestFoM ∨ 2 ≤ k ∧ comp.length ≤ cfg.driftAverage) ∧
      (isOk (driftStep cfg env ops k s).1 = true → 2 ≤ k ∧ (driftStep cfg env ops k s).2.running = false ∨
        Comp s.ctl (driftStep cfg env ops k s).2.ctl ∧ (driftStep cfg env ops k s).2.superIt = s.superIt ∧
        if 2 ≤ k then AverageOf cfg cfg.driftAverage comp (driftStep cfg env ops k s).2.bestFoM
        else comp = [] ∧ (driftStep cfg env ops k s).2.bestFoM = s.bestFoM) := by
  unfold driftStep
  by_cases hk : 2 ≤ k
  · rw [if_pos ⟨hdr, hk⟩]
    simp only [if_pos hk]
    unfold updateFoM
    rw [Prog.get_bind, Prog.bind_apply, Prog.lift_apply]
    rcases hm : ops.mean s.ctl with e | x
    · exact ⟨[], by simp, by simp, .inl ⟨rfl, rfl⟩, fun h => by cases h⟩
    · dsimp only
      rw [Prog.bind_apply, Prog.modify_apply]
      dsimp only
      rw [Prog.bind_apply]
      obtain ⟨comp, h1, h2, h3, h4⟩ := sumRoutine_calls (cfg := cfg) (env := env) (ops := ops) (J := Comp s.ctl) (x := x)
        (fun o o' c h hg => hK.get _ _ _ _ _ (hP hk) hm h hg) cfg.driftAverage 0
        (s := { s with isRecord := true, stepNumber := 0 }) (hK.refl _ hc)
      have hcc : ∀ c ∈ comp, CompCall ops Comp s.ctl c := fun c hc' => ⟨by rw [hm, (h2 c hc').1], by rw [(h2 c hc').1]; exact (h2 c hc').2⟩
      rcases hsum : sumRoutine cfg env ops x cfg.driftAverage 0 { s with isRecord := true, stepNumber := 0 } with ⟨e | v, s1⟩
      · rw [hsum] at h1
        exact ⟨comp, h1, hcc, .inr ⟨hk, h3⟩, fun h => by cases h⟩
      · rw [hsum] at h1 h4
        dsimp only at h1 h4 ⊢
        by_cases hn : cfg.driftAverage = 0
        · simp only [if_pos hn]
          exact ⟨comp, h1, hcc, .inr ⟨hk, h3⟩, fun h => by cases h⟩
        · simp only [if_neg hn, Prog.modify_apply]
          refine ⟨comp, h1, hcc, .inr ⟨hk, h3⟩, fun _ => ?_⟩
          rcases h4 v rfl with h | ⟨i1, i5, i2, vs, i3, i4⟩
          · exact .inl ⟨hk, h⟩
          · exact .inr ⟨i1, i5, i2, vs, i3, by rw [i4]⟩
  · rw [if_neg (fun h => hk h.2)]
    simp only [if_neg hk]
    exact ⟨[], by simp [Prog.pure_apply], by simp, .inl ⟨rfl, rfl⟩, fun _ => .inr ⟨hK.refl _ hc, rfl, rfl, rfl⟩⟩

/-- What is left of a super-iteration after the compensation. -/
def afterDrift (cfg : AlgCfg K F) (env : Env V C F) (ops : CtlOps O V C) (dsm : Dsm K V F) (k : ℕ) : Prog (AlgState V C O F) Unit := do
  let s ← Prog.get
  let o ← Prog.lift (ops.selectBasis k s.ctl)
  Prog.modify (fun s => { s with ctl := o })
  dsmBuild cfg env ops dsm
  updateBasePulses ops

theorem afterDrift_frames (dsm : Dsm K V F) (k : ℕ) : Frames (afterDrift cfg env ops dsm k) :=
  .bind .get fun s => .bind (.lift _) fun o => .bind (.modify fun s => ⟨rfl, rfl⟩) fun _ =>
    .bind (Traced.dsmBuild (d := true) dsm (.inl rfl)).frames fun _ => (Traced.updateBasePulses (cfg := cfg) (env := env) (d := true)).frames

theorem afterDrift_calls (hV : KeepsView ops I view) (hre : NoReEval cfg) (dsm : Dsm K V F) (hd : ∀ i x sim sg, (dsm i x sim sg).NoDrift)
    (hQ : Searches cfg env ops dsm Q) (k : ℕ) {s : AlgState V C O F} (hc : I s.ctl) (hk : s.superIt = k) :
    ((afterDrift cfg env ops dsm k s).2.log = s.log ∧ (afterDrift cfg env ops dsm k s).2.bestFoM = s.bestFoM ∧
      isOk (afterDrift cfg env ops dsm k s).1 = false) ∨
    ∃ o1 x0 x l, ops.selectBasis k s.ctl = .ok o1 ∧ ops.mean o1 = .ok x0 ∧ (afterDrift cfg env ops dsm k s).2.log = s.log ++ l ∧
      (∀ c ∈ l, BuiltBy ops (fun o' => I o' ∧ view o' = view o1) c.vec c.ctl) ∧ Q k o1 l ∧
      KeptFrom cfg s.bestFoM l x0 x (afterDrift cfg env ops dsm k s).2.bestFoM ∧
      (isOk (afterDrift cfg env ops dsm k s).1 = true → ∃ o2, (I o2 ∧ view o2 = view o1) ∧
        ops.updateBase o2 x = .ok (afterDrift cfg env ops dsm k s).2.ctl) := by
  unfold afterDrift
  rw [Prog.get_bind, Prog.bind_apply, Prog.lift_apply]
  rcases ho : ops.selectBasis k s.ctl with e | o1
  · exact .inl ⟨rfl, rfl, rfl⟩
  dsimp only
  rw [Prog.bind_apply, Prog.modify_apply]
  dsimp only
  rw [Prog.bind_apply]
  rcases dsmBuild_search (cfg := cfg) (env := env) (ops := ops) (J := fun o' => I o' ∧ view o' = view o1)
    (fun o x o' c h hg => ⟨(hV.get o x o' c h.1 hg).1, (hV.get o x o' c h.1 hg).2.trans h.2⟩) hre dsm hd
    (s := { s with ctl := o1 }) ⟨hV.select k _ _ hc ho, rfl⟩ with ⟨e, he⟩ | ⟨x0, hm, h⟩
  · rw [he]; exact .inl ⟨rfl, rfl, rfl⟩
  · right
    obtain ⟨l, x, h1, h2, h3, h4⟩ := h.calls
    have hq : Q k o1 l := by
      obtain ⟨l', q1, q2⟩ := hQ { s with ctl := o1 }
      rw [h1] at q1
      obtain rfl := List.append_cancel_left q1
      rw [← hk]; exact q2
    refine ⟨o1, x0, x, l, rfl, hm, ?_⟩
    rcases hb : dsmBuild cfg env ops dsm { s with ctl := o1 } with ⟨e | u, s1⟩
    · rw [hb] at h1 h4
      exact ⟨h1, h2, hq, h4, fun h => by cases h⟩
    · rw [hb] at h1 h3 h4 h
      have hctl := h.ctl
      dsimp only at h1 h3 h4 hctl ⊢
      unfold updateBasePulses
      rw [h3]
      dsimp only
      rcases hu : ops.updateBase s1.ctl x with e | o3
      · exact ⟨h1, h2, hq, h4, fun h => by cases h⟩
      · exact ⟨h1, h2, hq, h4, fun _ => ⟨_, hctl, hu⟩⟩

theorem superIteration_after (dsm : Dsm K V F) (k : ℕ) (s : AlgState V C O F) :
    superIteration cfg env ops dsm k s = (driftStep cfg env ops k >>= fun _ => afterDrift cfg env ops dsm k)
      { s with superIt := k, sc := { s.sc with startTime := env.clock s.ticks, track := [] }, ticks := s.ticks + 1 } := by
  unfold superIteration afterDrift
  simp only [readClock, withSc, Prog.bind_apply, Prog.modify_apply, Prog.pure_apply, Prog.get]

/-- The loop over the super-iterations. -/
theorem loop_dstages (hk : cfg.kind = .dcrab) (hV : KeepsView ops I view) (hK : KeepsStart ops I P Comp) (hre : NoReEval cfg)
    (hdr : cfg.driftAfterSI = true) (dsm : Dsm K V F) (hd : ∀ i x sim sg, (dsm i x sim sg).NoDrift)
    (hQ : Searches cfg env ops dsm Q) (n k : ℕ) {s : AlgState V C O F}
    (hc : I s.ctl) (hP : 2 ≤ k → P s.ctl) (hk1 : 1 ≤ k) :
    ∃ l fin, (dcrabLoop cfg env ops dsm n k s).2.log = s.log ++ l ∧
      DStages cfg ops I view Comp Q n k s.ctl s.bestFoM l (dcrabLoop cfg env ops dsm n k s).2.bestFoM fin ∧
      EndsAs (dcrabLoop cfg env ops dsm n k s) fin := by
  induction n generalizing k s with
  | zero => exact ⟨[], _, by simp [dcrabLoop, Prog.pure_apply], .stop _ _ _ _, rfl, rfl⟩
  | succ n ih =>
    have hfr := fun s => (loop_frames (cfg := cfg) (env := env) (ops := ops) hk dsm n (k + 1)) s
    unfold dcrabLoop
    rw [Prog.bind_apply]
    rcases poll_cases (cfg := cfg) (env := env) s with ⟨hok, q⟩ | ⟨hok, e', he⟩
    · rcases hp : poll cfg env s with ⟨e | u, s1⟩
      · rw [hp] at hok; cases hok
      rw [hp] at q
      dsimp only at q ⊢
      rw [Prog.get_bind]
      by_cases hr : s1.running = false
      · rw [if_pos hr]
        refine ⟨[], .kept s.ctl s.bestFoM, by simp [Prog.pure_apply, q.log], ?_, ?_⟩
        · rw [Prog.pure_apply, q.bestFoM]
          exact .stop _ _ _ _
        · rw [Prog.pure_apply]
          exact ⟨q.ctl.symm, q.bestFoM.symm⟩
      rw [if_neg hr]
      rw [Prog.bind_apply, superIteration_after]
      generalize hs0 : ({ s1 with superIt := k, sc := { s1.sc with startTime := env.clock s1.ticks, track := [] }, ticks := s1.ticks + 1 } :
        AlgState V C O F) = s0
      have l0 : s0.log = s.log := by rw [← hs0]; exact q.log
      have c0 : s0.ctl = s.ctl := by rw [← hs0]; exact q.ctl
      have b0 : s0.bestFoM = s.bestFoM := by rw [← hs0]; exact q.bestFoM
      obtain ⟨comp, h1, h2, h3, h4⟩ := driftStep_calls (cfg := cfg) (env := env) (ops := ops) hK hdr k (s := s0) (by rw [c0]; exact hc)
        (by rw [c0]; exact hP)
      rw [c0] at h2 h4
      rw [b0] at h3 h4
      rw [l0] at h1
      -- the run ends before the search
      have ends : ∀ (res : Py Unit) (sf : AlgState V C O F), sf.log = s.log ++ comp →
          (isOk res = false ∧ comp = [] ∧ sf.bestFoM = s.bestFoM ∨ 2 ≤ k ∧ comp.length ≤ cfg.driftAverage) →
          ∃ l fin, sf.log = s.log ++ l ∧ DStages cfg ops I view Comp Q (n + 1) k s.ctl s.bestFoM l sf.bestFoM fin ∧ EndsAs (res, sf) fin := by
        intro res sf e1 e2
        rcases e2 with ⟨e0, rfl, e2⟩ | ⟨e2, e3⟩
        · refine ⟨[], .failed, e1, ?_, e0⟩
          rw [e2]; exact .ends _ _ _ _
        · exact ⟨comp, .inMeasurements, e1, .broken _ e2 h2 e3, trivial⟩
      rw [Prog.bind_apply]
      rcases hds : driftStep cfg env ops k s0 with ⟨e | u, s2⟩
      · rw [hds] at h1 h3
        exact ends _ _ h1 (h3.imp (fun h => ⟨rfl, h⟩) fun h => h)
      · rw [hds] at h1 h3 h4
        dsimp only at h1 h3 h4 ⊢
        rcases h4 rfl with ⟨k2, hr2⟩ | ⟨hcomp, hsi, hb⟩
        · -- stopped during the compensation
          have hlen : comp.length ≤ cfg.driftAverage := by
            rcases h3 with ⟨rfl, -⟩ | ⟨-, h⟩
            · simp
            · exact h
          have f1 := (afterDrift_frames (cfg := cfg) (env := env) (ops := ops) dsm k s2).2 hr2
          rcases had : afterDrift cfg env ops dsm k s2 with ⟨e | u, s3⟩
          · rw [had] at f1
            exact ends _ _ (f1.1.trans h1) (.inr ⟨k2, hlen⟩)
          · rw [had] at f1
            exact ends _ _ (((hfr s3).2 f1.2).1.trans (f1.1.trans h1)) (.inr ⟨k2, hlen⟩)
        · rcases afterDrift_calls (env := env) hV hre dsm hd hQ k (s := s2) (hK.kept _ _ hcomp) (hsi.trans (by rw [← hs0])) with ⟨a1, a2, a3⟩ | ⟨o1, x0, x, l, a1, a2, a3, a4, hq, a5, a6⟩
          · rcases had : afterDrift cfg env ops dsm k s2 with ⟨e | u, s3⟩
            · rw [had] at a1 a2
              refine ends _ _ (a1.trans h1) ?_
              rcases h3 with ⟨e1, e2⟩ | h
              · exact .inl ⟨rfl, e1, a2.trans e2⟩
              · exact .inr h
            · rw [had] at a3; cases a3
          · rcases had : afterDrift cfg env ops dsm k s2 with ⟨e | u, s3⟩
            · rw [had] at a3 a5
              refine ⟨comp ++ l, _, by rw [← List.append_assoc, ← h1]; exact a3, .last h2 hb hcomp a1 a2 a4 hq a5, rfl⟩
            · rw [had] at a3 a5 a6
              obtain ⟨o2, ho2, hu⟩ := a6 rfl
              dsimp only at a3 a5 hu ⊢
              obtain ⟨l', fin, e1, e2, e3⟩ := ih (k + 1) (s := s3) (hV.base _ _ _ ho2.1 hu) (fun _ => hK.base _ _ _ ho2.1 hu) (by omega)
              exact ⟨comp ++ l ++ l', fin, by rw [e1, a3, h1]; simp, .next h2 hb hcomp a1 a2 a4 hq a5 ho2 hu e2, e3⟩
    · rw [he]
      exact ⟨[], _, by simp, .ends _ _ _ _, rfl⟩

/-- A whole run. -/
theorem execute_dstages (hk : cfg.kind = .dcrab) (hV : KeepsView ops I view) (hK : KeepsStart ops I P Comp) (hre : cfg.reEval = none)
    (hdr : cfg.driftAfterSI = true) (dsm : Dsm K V F) (hd : ∀ i x sim sg, (dsm i x sim sg).NoDrift)
    (hQ : Searches cfg env ops dsm Q) {o : O} (ho : I o) :
    ∃ fin, DStages cfg ops I view Comp Q cfg.maxSI 1 o cfg.fomMax (execute cfg env ops dsm o).2.log (execute cfg env ops dsm o).2.bestFoM fin ∧
      EndsAs (execute cfg env ops dsm o) fin := by
  obtain ⟨l, fin, h1, h2, h3⟩ := loop_dstages (env := env) hk hV hK (.inr hre) hdr dsm hd hQ cfg.maxSI 1 (s := initState cfg env o) ho
    (fun h => by omega) le_rfl
  have e : execute cfg env ops dsm o = dcrabLoop cfg env ops dsm cfg.maxSI 1 (initState cfg env o) := by
    unfold execute run
    simp only [hk]
  refine ⟨fin, ?_, by rw [e]; exact h3⟩
  rw [e, h1]
  exact h2

end
end QuOCS

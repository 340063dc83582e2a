/-
As Lemmas/ReproduceFirst.lean, for one super-iteration with automatic differentiation: the calls for gradients leave no record.
-/
import Verif.Lemmas.ReproduceFirst
import Verif.Lemmas.HistoryAD

set_option linter.unusedSectionVars false
set_option linter.unusedVariables false

namespace QuOCS

section
variable {K V C O F : Type} [LE K] [DecidableLE K]
variable [Add F] [Sub F] [Mul F] [Div F] [Neg F] [Zero F] [One F] [NatCast F] [LE F] [LT F] [DecidableLE F]
  [DecidableLT F] [FloatOrder F]
variable {lib : AdLib V C F} {cfg : AlgCfg K F} {env : Env V C F} {ops : CtlOps O V C} {I : O → Prop} {S : O → V → C → Prop}
  {SM : O → C → Prop}

/-- `InFirst` for the calls `l` in place of all calls. -/
structure InFirstOn (cfg : AlgCfg K F) (I : O → Prop) (S : O → V → C → Prop) (l : List (Call V C F)) (s : AlgState V C O F) : Prop where
  inv : I s.ctl
  fold : s.bestFoM = foldBest cfg l
  best : s.bestFoM = cfg.fomMax ∨ ∃ x, s.bestXX = some x ∧ ∃ c f, LastRecord cfg l c f ∧
    s.bestFoM = dirMul cfg.maximize f ∧ S s.ctl x c.ctl

variable {l : List (Call V C F)}

theorem InFirstOn.frame {s s' : AlgState V C O F} (h : InFirstOn cfg I S l s) (h1 : s'.ctl = s.ctl) (h2 : s'.bestFoM = s.bestFoM)
    (h3 : s'.bestXX = s.bestXX) : InFirstOn cfg I S l s' := by
  refine ⟨h1 ▸ h.inv, by rw [h2]; exact h.fold, ?_⟩
  rw [h1, h2, h3]; exact h.best

theorem InFirstOn.quiet {s s' : AlgState V C O F} (h : InFirstOn cfg I S l s) (q : Quiet env s s') : InFirstOn cfg I S l s' :=
  h.frame q.ctl q.bestFoM q.bestXX

theorem InFirstOn.build (hR : Repro ops I S SM) {s : AlgState V C O F} {x : V} {o : O} {c : C} (h : InFirstOn cfg I S l s)
    (hg : ops.getControls s.ctl x = .ok (o, c)) : InFirstOn cfg I S l { s with ctl := o } := by
  obtain ⟨h1, -, h2⟩ := hR.build _ _ _ _ h.inv hg
  refine ⟨h1, h.fold, h.best.imp_right ?_⟩
  rintro ⟨x, hx, c', f, hf, hb, hs⟩
  exact ⟨x, hx, c', f, hf, hb, h2 _ _ hs⟩

theorem InFirstOn.routine (hR : Repro ops I S SM) (hk : cfg.kind = .grape) {s s' : AlgState V C O F} {x : V} {it : ℕ} {r : F}
    (h : InFirstOn cfg I S l s) (hr : RoutineSpec cfg env ops x it s (.ok r) s') :
    (s'.log = s.log ∧ InFirstOn cfg I S l s') ∨ ∃ c, s'.log = s.log ++ [c] ∧ InFirstOn cfg I S (l ++ [c]) s' := by
  generalize hrr : (.ok r : Py F) = rr at hr
  cases hr with
  | stopped s1 q hr => exact .inl ⟨q.log, h.quiet q⟩
  | sigint s1 r e q hk => cases hrr
  | noControls s1 e q hr hi hg => cases hrr
  | window s1 o c s2 q hr hi hg q2 hr2 ha =>
    have hq := h.quiet q
    rw [← q.ctl] at hg
    exact .inl ⟨q2.log.trans q.log, ((hq.build hR hg).frame (s' := { s1 with xx := some x, algIter := it, iter := s.iter + 1, ctl := o, commCtl := some c, signals := s1.signals ++ [.controls c] }) rfl rfl rfl).quiet q2⟩
  | windowSigint s1 o c s2 r e q hr hi hg q2 hk => cases hrr
  | measured s1 o c s2 q hr hi hgoal ht hg q2 hr2 =>
    have hq := h.quiet q
    have hg' := hg
    rw [← q.ctl] at hg
    have hs2 : InFirstOn cfg I S l s2 :=
      ((hq.build hR hg).frame (s' := { s1 with xx := some x, algIter := it, iter := s.iter + 1, ctl := o, commCtl := some c, signals := s1.signals ++ [.controls c] }) rfl rfl rfl).quiet q2
    have hxx : s2.xx = some x := q2.xx
    have hctl : s2.ctl = o := q2.ctl
    have hlog : s2.log = s.log := q2.log.trans q.log
    have hshow : S s2.ctl x c := by
      rw [hctl]
      exact (hR.build _ _ _ _ h.inv hg').2.1
    rcases ha : env.getFoM s2.log c with e | a
    · rw [measure_raised x c s2 e ha] at hrr; cases hrr
    · rcases hf : a.fom with _ | f
      · rw [measure_noValue x c s2 a ha hf] at hrr; cases hrr
      · obtain ⟨fl, il, sc', hm⟩ := measure_answered (cfg := cfg) x c s2 a f ha hf
        have hsh : shownFoM cfg s2 (dirMul cfg.maximize f) = dirMul cfg.maximize f := by
          unfold shownFoM
          rw [if_neg (by rw [hk]; decide)]
        have hcond : (cfg.kind = .grape ∨ cfg.reEval.isNone = true) := .inl hk
        rw [hm]
        have hval : (⟨x, c, .ok a, s2.polls, s2.ticks⟩ : Call V C F).value = some f := hf
        refine .inr ⟨⟨x, c, .ok a, s2.polls, s2.ticks⟩, by rw [← hlog], hs2.inv, ?_, ?_⟩
        · simp only [hsh, hcond, true_and]
          rw [foldBest_append _ hval, ← hs2.fold]
        simp only [hsh, hcond, true_and]
        by_cases hlt : dirMul cfg.maximize f < s2.bestFoM
        · simp only [hlt, if_true]
          exact .inr ⟨x, hxx, ⟨x, c, .ok a, s2.polls, s2.ticks⟩, f, ⟨l, [], rfl, hval, by rw [← hs2.fold]; exact hlt, by simp⟩, rfl, hshow⟩
        · simp only [hlt, if_false]
          refine hs2.best.imp_right ?_
          rintro ⟨x', hx', c', f', hf', hb', hs'⟩
          exact ⟨x', hx', c', f', hf'.append hval (by rw [← hb']; exact hlt), hb', hs'⟩

/-- During a super-iteration. -/
def InFirstAD (cfg : AlgCfg K F) (I : O → Prop) (S : O → V → C → Prop) (s : AdState V C O F) : Prop :=
  (∀ i ∈ s.gradAt, i < s.alg.log.length) ∧ InFirstOn cfg I S (valueCalls s.gradAt s.alg.log) s.alg

/-- After it. -/
structure AfterFirstAD (cfg : AlgCfg K F) (I : O → Prop) (SM : O → C → Prop) (s : AdState V C O F) : Prop where
  inv : I s.alg.ctl
  best : s.alg.bestFoM = cfg.fomMax ∨ ∃ c f, LastRecord cfg (valueCalls s.gradAt s.alg.log) c f ∧
    s.alg.bestFoM = dirMul cfg.maximize f ∧ SM s.alg.ctl c.ctl

theorem InFirstAD.value (hR : Repro ops I S SM) (hk : cfg.kind = .grape) (x : V) :
    Leads (InFirstAD cfg I S) (InFirstAD cfg I S) (onAlg (adValue cfg env ops x) : Prog (AdState V C O F) F) := by
  intro s r s' hs h
  unfold onAlg at h
  simp only [Prod.mk.injEq] at h
  obtain ⟨h1, rfl⟩ := h
  have hspec := routineCall_spec (cfg := cfg) (env := env) (ops := ops) x 0 { s.alg with isRecord := false }
  have e : adValue cfg env ops x s.alg = routineCall cfg env ops x 0 { s.alg with isRecord := false } := rfl
  rw [e] at h1 ⊢
  rw [h1] at hspec
  rcases InFirstOn.routine hR hk (hs.2.frame (s' := { s.alg with isRecord := false }) rfl rfl rfl) hspec with ⟨hl, hi⟩ | ⟨c, hl, hi⟩
  · refine ⟨?_, ?_⟩
    · show ∀ i ∈ s.gradAt, _ < List.length (routineCall cfg env ops x 0 { s.alg with isRecord := false }).2.log
      rw [hl]; exact hs.1
    · show InFirstOn cfg I S (valueCalls s.gradAt (routineCall cfg env ops x 0 { s.alg with isRecord := false }).2.log) _
      rw [hl]; exact hi
  · refine ⟨?_, ?_⟩
    · show ∀ i ∈ s.gradAt, _ < List.length (routineCall cfg env ops x 0 { s.alg with isRecord := false }).2.log
      rw [hl, List.length_append]
      exact fun i hi => Nat.lt_add_right _ (hs.1 i hi)
    · show InFirstOn cfg I S (valueCalls s.gradAt (routineCall cfg env ops x 0 { s.alg with isRecord := false }).2.log) _
      rw [hl, show ({ s.alg with isRecord := false } : AlgState V C O F).log = s.alg.log from rfl, valueCalls_value _ _ _ hs.1]
      exact hi

theorem InFirstAD.gradient (hR : Repro ops I S SM) (x : V) :
    Leads (InFirstAD cfg I S) (InFirstAD cfg I S) (adGradient lib env ops x : Prog (AdState V C O F) V) := by
  intro s r s' hs h
  unfold adGradient at h
  rcases hg : ops.getControls s.alg.ctl x with e | ⟨o, c⟩
  · rw [hg] at h; cases h
  · rw [hg] at h
    dsimp only at h
    have hb := hs.2.build hR hg
    have : ∀ k : Call V C F, InFirstAD cfg I S
        ({ s with alg := { s.alg with ctl := o, log := s.alg.log ++ [k] }, gradAt := s.gradAt ++ [s.alg.log.length] } : AdState V C O F) := by
      intro k
      refine ⟨?_, ?_⟩
      · intro i hi
        show i < (s.alg.log ++ [k]).length
        rw [List.length_append, List.length_singleton]
        rcases List.mem_append.1 hi with hi | hi
        · exact (hs.1 i hi).trans (Nat.lt_succ_self _)
        · rw [List.mem_singleton.1 hi]; exact Nat.lt_succ_self _
      · show InFirstOn cfg I S (valueCalls (s.gradAt ++ [s.alg.log.length]) (s.alg.log ++ [k])) _
        rw [valueCalls_grad]
        exact hb.frame rfl rfl rfl
    rcases ha : env.getFoM s.alg.log c with e | a
    · rw [ha] at h; cases h
    · rw [ha] at h
      dsimp only at h
      rcases hf : a.fom with _ | f
      · rw [hf] at h; cases h
      · rw [hf] at h; cases h
        exact this _

theorem InFirstAD.interp (hR : Repro ops I S SM) (hk : cfg.kind = .grape) {α : Type} (st : AdStrat V F α) :
    Leads (InFirstAD cfg I S) (InFirstAD cfg I S) (st.interp lib cfg env ops : Prog (AdState V C O F) α) := by
  induction st with
  | ret a => exact .pure a
  | value x k ih => exact .bind (InFirstAD.value hR hk x) fun f => ih f
  | grad x k ih => exact .bind (InFirstAD.gradient hR x) fun g => ih g
  | fail e => intro s a s' _ h; cases h

theorem InFirstAD.updateBase (hR : Repro ops I S SM) :
    Leads (InFirstAD cfg I S) (AfterFirstAD cfg I SM) (onAlg (updateBasePulses ops) : Prog (AdState V C O F) Unit) := by
  intro s a s' hs h
  unfold onAlg updateBasePulses at h
  rcases hx : s.alg.bestXX with _ | x
  · rw [hx] at h; cases h
  · rw [hx] at h
    dsimp only at h
    rcases hu : ops.updateBase s.alg.ctl x with e | o
    · rw [hu] at h; cases h
    · rw [hu] at h
      cases h
      obtain ⟨h1, h2⟩ := hR.base _ _ _ hs.2.inv hu
      refine ⟨h1, hs.2.best.imp_right ?_⟩
      rintro ⟨x', hx', c, f, hf, hb, hsh⟩
      rw [hx] at hx'
      cases hx'
      exact ⟨c, f, hf, hb, h2 _ hsh⟩

/-- The first super-iteration. -/
theorem AfterFirstAD.execute (hR : Repro ops I S SM) (h1 : cfg.maxSI = 1) (o : O) (ho : I o) (u : Unit)
    (h : (adExecute lib cfg env ops o).1 = .ok u) : AfterFirstAD (adCfg cfg) I SM (adExecute lib cfg env ops o).2 := by
  have hl : Leads (fun s : AdState V C O F => s = ⟨initState (adCfg cfg) env o, []⟩) (AfterFirstAD (adCfg cfg) I SM)
      (adSuperIteration lib (adCfg cfg) env ops 1) := by
    refine .bind (Q := fun s : AdState V C O F => I s.alg.ctl ∧ s.alg.bestFoM = (adCfg cfg).fomMax ∧ s.alg.log = [] ∧ s.gradAt = []) ?_ fun _ => ?_
    · rintro s a s' rfl e
      cases e
      exact ⟨ho, rfl, rfl, rfl⟩
    · intro s a s' hs h
      rw [Prog.get_bind, Prog.bind_apply, Prog.lift_apply] at h
      rcases ho : ops.selectBasis 1 s.alg.ctl with e | o
      · rw [ho] at h; cases h
      · rw [ho] at h
        dsimp only at h
        obtain ⟨h1, -⟩ := hR.basis _ _ _ hs.1 ho
        have hl : Leads (fun s1 : AdState V C O F => s1 = s) (AfterFirstAD (adCfg cfg) I SM)
            (do onAlg (Prog.modify (fun s => { s with ctl := o })); adInnerRun lib (adCfg cfg) env ops 1; onAlg (updateBasePulses ops)) := by
          refine .bind (Q := InFirstAD (adCfg cfg) I S) ?_ fun _ => .bind (Q := InFirstAD (adCfg cfg) I S) ?_ fun _ => InFirstAD.updateBase hR
          · rintro s1 a s2 rfl e
            cases e
            refine ⟨?_, h1, ?_, .inl hs.2.1⟩
            · show ∀ i ∈ s1.gradAt, _
              rw [hs.2.2.2]; simp
            · show s1.alg.bestFoM = foldBest _ (valueCalls s1.gradAt s1.alg.log)
              rw [hs.2.1, hs.2.2.1]
              rfl
          · exact .bind .get fun s => .bind (.lift _) fun _ => .bind (.lift _) fun _ => .bind (.lift _) fun _ =>
              InFirstAD.interp hR rfl _
        exact hl s a s' rfl h
  unfold adExecute at h ⊢
  rw [h1] at h ⊢
  unfold adLoop at h ⊢
  rw [Prog.bind_apply] at h ⊢
  rcases hs : adSuperIteration lib (adCfg cfg) env ops 1 ⟨initState (adCfg cfg) env o, []⟩ with ⟨e | v, s1⟩
  · rw [hs] at h; cases h
  · exact hl _ v s1 rfl hs

end
end QuOCS

/-
The vector kept during a super-iteration shows the controls of the first one of the best evaluations. As Lemmas/Reproduce.lean, where it is one of the best
evaluations; that version covers automatic differentiation, too.
-/
import Verif.Lemmas.Reproduce

set_option linter.unusedSectionVars false
set_option linter.unusedVariables false

namespace QuOCS

section
variable {K V C O F : Type} [LE K] [DecidableLE K]
variable [Add F] [Sub F] [Mul F] [Div F] [Neg F] [Zero F] [One F] [NatCast F] [LE F] [LT F] [DecidableLE F]
  [DecidableLT F]
variable {cfg : AlgCfg K F} {env : Env V C F} {ops : CtlOps O V C} {I : O → Prop} {S : O → V → C → Prop}
  {SM : O → C → Prop}

/-- The smallest value so far, in the sign of the minimization. -/
def foldBest (cfg : AlgCfg K F) (l : List (Call V C F)) : F :=
  (l.filterMap Call.value).foldl (fun b f => if dirMul cfg.maximize f < b then dirMul cfg.maximize f else b) cfg.fomMax

/-- The call `c` returned `f` and was a record, and there was none after it. -/
def LastRecord (cfg : AlgCfg K F) (l : List (Call V C F)) (c : Call V C F) (f : F) : Prop :=
  ∃ pre post, l = pre ++ c :: post ∧ c.value = some f ∧ dirMul cfg.maximize f < foldBest cfg pre ∧
    ∀ c' ∈ post, ∀ f', c'.value = some f' → ¬ dirMul cfg.maximize f' < dirMul cfg.maximize f

theorem foldBest_append (l : List (Call V C F)) {c : Call V C F} {f : F} (h : c.value = some f) : foldBest cfg (l ++ [c]) =
    if dirMul cfg.maximize f < foldBest cfg l then dirMul cfg.maximize f else foldBest cfg l := by
  unfold foldBest
  rw [List.filterMap_append, List.foldl_append]
  simp [h]

theorem LastRecord.append {l : List (Call V C F)} {c c' : Call V C F} {f f' : F} (h : LastRecord cfg l c f) (h' : c'.value = some f')
    (hlt : ¬ dirMul cfg.maximize f' < dirMul cfg.maximize f) : LastRecord cfg (l ++ [c']) c f := by
  obtain ⟨pre, post, h1, h2, h3, h4⟩ := h
  refine ⟨pre, post ++ [c'], by rw [h1]; simp, h2, h3, fun k hk g hg => ?_⟩
  rcases List.mem_append.1 hk with hk | hk
  · exact h4 k hk g hg
  · rw [List.mem_singleton.1 hk, h'] at hg
    cases hg
    exact hlt

/-- During a super-iteration: the kept vector shows the controls of the last record. -/
structure InFirst (cfg : AlgCfg K F) (I : O → Prop) (S : O → V → C → Prop) (s : AlgState V C O F) : Prop where
  inv : I s.ctl
  fold : s.bestFoM = foldBest cfg s.log
  best : s.bestFoM = cfg.fomMax ∨ ∃ x, s.bestXX = some x ∧ ∃ c f, LastRecord cfg s.log c f ∧
    s.bestFoM = dirMul cfg.maximize f ∧ S s.ctl x c.ctl

/-- Between super-iterations: the mean shows the controls of the last record. -/
structure BetweenFirst (cfg : AlgCfg K F) (I : O → Prop) (SM : O → C → Prop) (s : AlgState V C O F) : Prop where
  inv : I s.ctl
  fold : s.bestFoM = foldBest cfg s.log
  best : s.bestFoM = cfg.fomMax ∨ ∃ c f, LastRecord cfg s.log c f ∧ s.bestFoM = dirMul cfg.maximize f ∧ SM s.ctl c.ctl

theorem InFirst.frame {s s' : AlgState V C O F} (h : InFirst cfg I S s) (h1 : s'.ctl = s.ctl) (h2 : s'.bestFoM = s.bestFoM)
    (h3 : s'.bestXX = s.bestXX) (h4 : s'.log = s.log) : InFirst cfg I S s' := by
  refine ⟨h1 ▸ h.inv, by rw [h2, h4]; exact h.fold, ?_⟩
  rw [h1, h2, h3, h4]; exact h.best

theorem BetweenFirst.frame {s s' : AlgState V C O F} (h : BetweenFirst cfg I SM s) (h1 : s'.ctl = s.ctl)
    (h2 : s'.bestFoM = s.bestFoM) (h4 : s'.log = s.log) : BetweenFirst cfg I SM s' := by
  refine ⟨h1 ▸ h.inv, by rw [h2, h4]; exact h.fold, ?_⟩
  rw [h1, h2, h4]; exact h.best

theorem InFirst.quiet {s s' : AlgState V C O F} (h : InFirst cfg I S s) (q : Quiet env s s') : InFirst cfg I S s' :=
  h.frame q.ctl q.bestFoM q.bestXX q.log

theorem BetweenFirst.quiet {s s' : AlgState V C O F} (h : BetweenFirst cfg I SM s) (q : Quiet env s s') :
    BetweenFirst cfg I SM s' := h.frame q.ctl q.bestFoM q.log

/-- building controls -/
theorem InFirst.build (hR : Repro ops I S SM) {s : AlgState V C O F} {x : V} {o : O} {c : C} (h : InFirst cfg I S s)
    (hg : ops.getControls s.ctl x = .ok (o, c)) : InFirst cfg I S { s with ctl := o } := by
  obtain ⟨h1, -, h2⟩ := hR.build _ _ _ _ h.inv hg
  refine ⟨h1, h.fold, h.best.imp_right ?_⟩
  rintro ⟨x, hx, c', f, hf, hb, hs⟩
  exact ⟨x, hx, c', f, hf, hb, h2 _ _ hs⟩

theorem InFirst.routine (hR : Repro ops I S SM) (hre : NoReEval cfg) {s s' : AlgState V C O F} {x : V} {it : ℕ} {r : F}
    (h : InFirst cfg I S s) (hstep : cfg.kind ≠ .grape → s.stepNumber = 0)
    (hr : RoutineSpec cfg env ops x it s (.ok r) s') : InFirst cfg I S s' := by
  generalize hrr : (.ok r : Py F) = rr at hr
  cases hr with
  | stopped s1 q hr => exact h.quiet q
  | sigint s1 r e q hk => cases hrr
  | noControls s1 e q hr hi hg => cases hrr
  | window s1 o c s2 q hr hi hg q2 hr2 ha =>
    have hq := h.quiet q
    rw [← q.ctl] at hg
    exact ((hq.build hR hg).frame (s' := { s1 with xx := some x, algIter := it, iter := s.iter + 1, ctl := o, commCtl := some c, signals := s1.signals ++ [.controls c] }) rfl rfl rfl rfl).quiet q2
  | windowSigint s1 o c s2 r e q hr hi hg q2 hk => cases hrr
  | measured s1 o c s2 q hr hi hgoal ht hg q2 hr2 =>
    have hq := h.quiet q
    have hg' := hg
    rw [← q.ctl] at hg
    have hs2 : InFirst cfg I S s2 :=
      ((hq.build hR hg).frame (s' := { s1 with xx := some x, algIter := it, iter := s.iter + 1, ctl := o, commCtl := some c, signals := s1.signals ++ [.controls c] }) rfl rfl rfl rfl).quiet q2
    have hxx : s2.xx = some x := q2.xx
    have hctl : s2.ctl = o := q2.ctl
    have hst2 : s2.stepNumber = s.stepNumber := q2.stepNumber.trans q.stepNumber
    have hshow : S s2.ctl x c := by
      rw [hctl]
      exact (hR.build _ _ _ _ h.inv hg').2.1
    rcases ha : env.getFoM s2.log c with e | a
    · rw [measure_raised x c s2 e ha] at hrr; cases hrr
    · rcases hf : a.fom with _ | f
      · rw [measure_noValue x c s2 a ha hf] at hrr; cases hrr
      · obtain ⟨fl, il, sc', hm⟩ := measure_answered (cfg := cfg) x c s2 a f ha hf
        have hsh : shownFoM cfg s2 (dirMul cfg.maximize f) = dirMul cfg.maximize f := by
          unfold shownFoM
          by_cases hk : cfg.kind = .dcrab
          · rw [if_pos hk, if_pos]
            rw [hst2]; exact hstep (by rw [hk]; decide)
          · rw [if_neg hk]
        have hcond : (cfg.kind = .grape ∨ cfg.reEval.isNone = true) := by
          rcases hre with h | h
          · exact .inl h
          · exact .inr (by rw [h]; rfl)
        rw [hm]
        have hval : (⟨x, c, .ok a, s2.polls, s2.ticks⟩ : Call V C F).value = some f := hf
        refine ⟨hs2.inv, ?_, ?_⟩
        · simp only [hsh, hcond, true_and]
          rw [foldBest_append _ hval, ← hs2.fold]
        simp only [hsh, hcond, true_and]
        by_cases hlt : dirMul cfg.maximize f < s2.bestFoM
        · simp only [hlt, if_true]
          exact .inr ⟨x, hxx, ⟨x, c, .ok a, s2.polls, s2.ticks⟩, f, ⟨s2.log, [], rfl, hval, by rw [← hs2.fold]; exact hlt, by simp⟩, rfl, hshow⟩
        · simp only [hlt, if_false]
          refine hs2.best.imp_right ?_
          rintro ⟨x', hx', c', f', hf', hb', hs'⟩
          exact ⟨x', hx', c', f', hf'.append hval (by rw [← hb']; exact hlt), hb', hs'⟩

theorem InFirst.handler (hR : Repro ops I S SM) (hre : NoReEval cfg) (o : Op K V F) (hd : ∀ x it v, o ≠ .drift x it v) :
    Leads (InFirst cfg I S) (InFirst cfg I S) (algHandler cfg env ops o) := by
  intro s r s' hs h
  by_cases he : ∃ x it, o = .eval x it
  · obtain ⟨x, it, rfl⟩ := he
    simp only [algHandler] at h
    by_cases hk : cfg.kind = .grape
    · rw [if_pos hk] at h
      unfold innerGrape at h
      rw [Prog.modify_bind, Prog.bind_apply] at h
      unfold gradientControls at h
      dsimp only at h
      rcases hg : ops.getControls s.ctl x with e | ⟨o', c⟩
      · rw [hg] at h; simp only [Prod.mk.injEq] at h; cases h.1
      · rw [hg] at h
        dsimp only at h
        have hspec := routineCall_spec (cfg := cfg) (env := env) (ops := ops) x 0 { s with isRecord := false, ctl := o' }
        rw [h] at hspec
        refine InFirst.routine hR hre ?_ (fun h' => absurd hk h') hspec
        exact (hs.build hR hg).frame (s' := { s with isRecord := false, ctl := o' }) rfl rfl rfl rfl
    · rw [if_neg hk] at h
      have hnone : cfg.reEval = none := hre.resolve_left hk
      unfold innerCall at h
      rw [Prog.modify_bind, Prog.bind_apply] at h
      have hspec := routineCall_spec (cfg := cfg) (env := env) (ops := ops) x it { s with isRecord := false, stepNumber := 0 }
      rcases hc : routineCall cfg env ops x it { s with isRecord := false, stepNumber := 0 } with ⟨e | f, s1⟩
      · rw [hc] at h; simp only [Prod.mk.injEq] at h; cases h.1
      · rw [hc] at h hspec
        simp only [hnone] at h
        cases h
        exact InFirst.routine hR hre (hs.frame (s' := { s with isRecord := false, stepNumber := 0 }) rfl rfl rfl rfl)
          (fun _ => rfl) hspec
  · exact hs.quiet (handler_quiet o (fun x it h => he ⟨x, it, h⟩) hd s s' r h)

theorem InFirst.interp (hR : Repro ops I S SM) (hre : NoReEval cfg) {α : Type} (st : Strat K V F α) (hd : st.NoDrift) :
    Leads (InFirst cfg I S) (InFirst cfg I S) (st.interp (algHandler cfg env ops)) := by
  induction st with
  | ret a => exact .pure a
  | op o k ih => exact .bind (InFirst.handler hR hre o hd.1) fun r => ih r (hd.2 r)

theorem InFirst.updateBase (hR : Repro ops I S SM) :
    Leads (InFirst cfg I S) (BetweenFirst cfg I SM) (updateBasePulses ops : Prog (AlgState V C O F) Unit) := by
  intro s a s' hs h
  unfold updateBasePulses at h
  rcases hx : s.bestXX with _ | x
  · rw [hx] at h; cases h
  · rw [hx] at h
    dsimp only at h
    rcases hu : ops.updateBase s.ctl x with e | o
    · rw [hu] at h; cases h
    · rw [hu] at h
      cases h
      obtain ⟨h1, h2⟩ := hR.base _ _ _ hs.inv hu
      refine ⟨h1, hs.fold, hs.best.imp_right ?_⟩
      rintro ⟨x', hx', c, f, hf, hb, hsh⟩
      rw [hx] at hx'
      cases hx'
      exact ⟨c, f, hf, hb, h2 _ hsh⟩

theorem BetweenFirst.dsmBuild (hR : Repro ops I S SM) (hre : NoReEval cfg) (dsm : Dsm K V F)
    (hd : ∀ i x sim sg, (dsm i x sim sg).NoDrift) :
    Leads (BetweenFirst cfg I SM) (InFirst cfg I S) (QuOCS.dsmBuild cfg env ops dsm) := by
  intro s a s' hs h
  unfold QuOCS.dsmBuild at h
  rw [Prog.get_bind] at h
  rcases hm : ops.mean s.ctl with e | x0
  · rw [hm] at h; cases h
  · rw [hm] at h
    have hl : Leads (fun s1 => s1 = s) (InFirst cfg I S) (do
        let sigma ← Prog.lift (ops.sigma s.ctl)
        let sim ← Prog.lift (ops.simplex s.superIt x0 sigma)
        Prog.modify (fun s => { s with bestXX := some x0 })
        let r ← (dsm s.superIt x0 sim sigma).interp (algHandler cfg env ops)
        Prog.modify (fun s => { s with terminateReason := r.reason })) := by
      refine .bind (.lift _) fun sg => .bind (.lift _) fun sim => .bind (.modify (Q := InFirst cfg I S) ?_) fun _ =>
        .bind (InFirst.interp hR hre _ (hd _ _ _ _)) fun r => .modify fun s h => h.frame rfl rfl rfl rfl
      rintro s1 rfl
      refine ⟨hs.inv, hs.fold, hs.best.imp_right ?_⟩
      rintro ⟨c, f, hf, hb, hsh⟩
      exact ⟨x0, rfl, c, f, hf, hb, hR.mean _ _ _ hm hsh⟩
    exact hl s a s' rfl h

theorem BetweenFirst.superIteration (hR : Repro ops I S SM) (hre : NoReEval cfg) (dsm : Dsm K V F)
    (hdr : NoDriftRun cfg dsm) (k : ℕ) :
    Leads (BetweenFirst cfg I SM) (BetweenFirst cfg I SM) (QuOCS.superIteration cfg env ops dsm k) := by
  refine .bind (Q := BetweenFirst cfg I SM) ?_ fun t => .bind (Q := BetweenFirst cfg I SM)
    (.modify fun s h => h.frame rfl rfl rfl) fun _ => .bind (Q := BetweenFirst cfg I SM)
    (.modify fun s h => h.frame rfl rfl rfl) fun _ => .bind (Q := BetweenFirst cfg I SM) ?_ fun _ => ?_
  · intro s a s' h e
    cases e
    exact h.frame rfl rfl rfl
  · unfold driftStep
    rw [if_neg (by rw [hdr.1]; simp)]
    exact .pure _
  · intro s a s' hs h
    rw [Prog.get_bind, Prog.bind_apply, Prog.lift_apply] at h
    rcases ho : ops.selectBasis k s.ctl with e | o
    · rw [ho] at h; cases h
    · rw [ho] at h
      dsimp only at h
      rw [Prog.modify_bind] at h
      have hl := Leads.bind (BetweenFirst.dsmBuild (cfg := cfg) (env := env) hR hre dsm hdr.2) fun _ => InFirst.updateBase (cfg := cfg) hR
      refine hl _ a s' ?_ h
      obtain ⟨h1, h2⟩ := hR.basis _ _ _ hs.inv ho
      refine ⟨h1, hs.fold, hs.best.imp_right ?_⟩
      rintro ⟨c, f, hf, hb, hsh⟩
      exact ⟨c, f, hf, hb, h2 _ hsh⟩

theorem BetweenFirst.loop (hR : Repro ops I S SM) (hre : NoReEval cfg) (dsm : Dsm K V F)
    (hdr : NoDriftRun cfg dsm) (n k : ℕ) :
    Leads (BetweenFirst cfg I SM) (BetweenFirst cfg I SM) (dcrabLoop cfg env ops dsm n k) := by
  induction n generalizing k with
  | zero => exact .pure _
  | succ n ih =>
    refine .bind (Q := BetweenFirst cfg I SM) ?_ fun _ => .bind .get fun s => ?_
    · intro s a s' hs h
      rcases poll_cases (cfg := cfg) (env := env) s with ⟨_, q⟩ | ⟨_, e, he⟩
      · rw [h] at q; exact hs.quiet q
      · rw [he] at h; cases h
    · by_cases hr : s.running = false
      · rw [if_pos hr]; exact .pure _
      · rw [if_neg hr]; exact .bind (BetweenFirst.superIteration hR hre dsm hdr k) fun _ => ih (k + 1)

theorem BetweenFirst.execute (hR : Repro ops I S SM) (hre : NoReEval cfg) (hk : cfg.kind ≠ .directSearch)
    (dsm : Dsm K V F) (hdr : NoDriftRun cfg dsm) (o : O) (ho : I o) (u : Unit)
    (h : (QuOCS.execute cfg env ops dsm o).1 = .ok u) : BetweenFirst cfg I SM (QuOCS.execute cfg env ops dsm o).2 := by
  have he : QuOCS.execute cfg env ops dsm o = (.ok u, (QuOCS.execute cfg env ops dsm o).2) := by rw [← h]
  have h0 : (initState cfg env o : AlgState V C O F).bestFoM = cfg.fomMax := rfl
  generalize (QuOCS.execute cfg env ops dsm o).2 = s' at he ⊢
  clear h
  unfold QuOCS.execute QuOCS.run at he
  rcases hkind : cfg.kind <;> simp only [hkind] at he
  · exact BetweenFirst.loop hR hre dsm hdr _ _ _ u _ ⟨ho, rfl, .inl h0⟩ he
  · exact absurd hkind hk
  · refine (Leads.bind .get fun s => .bind (.lift (ops.mean s.ctl)) fun x0 => .bind (.lift (ops.sigma s.ctl)) fun sg =>
      .bind (.lift (ops.simplex 0 x0 sg)) fun sim => .bind (InFirst.interp hR hre (dsm 0 x0 sim sg) (hdr.2 _ _ _ _)) fun _ =>
      InFirst.updateBase hR) _ u s' ?_ he
    exact (⟨ho, rfl, .inl h0⟩ : InFirst cfg I S _)

end
end QuOCS

/-
The vector kept during a super-iteration shows the controls of the best evaluation.
-/
import Verif.Lemmas.Run
import Verif.Spec.Reproduce

set_option linter.unusedSectionVars false
set_option linter.unusedVariables false

namespace QuOCS

/-- `m` keeps `P` if it does not raise. -/
def Keeps {S α : Type} (P : S → Prop) (m : Prog S α) : Prop := ∀ s a s', P s → m s = (.ok a, s') → P s'

/-- `m` leads from `P` to `Q` if it does not raise. -/
def Leads {S α : Type} (P Q : S → Prop) (m : Prog S α) : Prop := ∀ s a s', P s → m s = (.ok a, s') → Q s'

section
variable {S α β : Type} {P Q R : S → Prop}

theorem Leads.bind {m : Prog S α} {f : α → Prog S β} (hm : Leads P Q m) (hf : ∀ a, Leads Q R (f a)) :
    Leads P R (m >>= f) := by
  intro s b s' h e
  rw [Prog.bind_apply] at e
  rcases hs : m s with ⟨e' | a, s1⟩
  · rw [hs] at e; simp only [Prod.mk.injEq] at e; cases e.1
  · rw [hs] at e
    exact hf a s1 b s' (hm s a s1 h hs) e

theorem Leads.get : Leads P P (Prog.get : Prog S S) := by
  intro s a s' h e
  cases e; exact h

theorem Leads.lift (x : Py α) : Leads P P (Prog.lift x : Prog S α) := by
  intro s a s' h e
  cases e; exact h

theorem Leads.pure (a : α) : Leads P P (Pure.pure a : Prog S α) := by
  intro s a s' h e
  cases e; exact h

theorem Leads.modify {f : S → S} (h : ∀ s, P s → Q (f s)) : Leads P Q (Prog.modify f) := by
  intro s a s' hs e
  cases e; exact h s hs
end

section
variable {K V C O F : Type} [LE K] [DecidableLE K]
variable [Add F] [Sub F] [Mul F] [Div F] [Neg F] [Zero F] [One F] [NatCast F] [LE F] [LT F] [DecidableLE F]
  [DecidableLT F]
variable {cfg : AlgCfg K F} {env : Env V C F} {ops : CtlOps O V C} {I : O → Prop} {S : O → V → C → Prop}
  {SM : O → C → Prop}

/-- As `Reproducible`, for relations `S` (what is shown at a vector) and `SM` (what is shown at the mean). -/
structure Repro (ops : CtlOps O V C) (I : O → Prop) (S : O → V → C → Prop) (SM : O → C → Prop) : Prop where
  build : ∀ o x o' c, I o → ops.getControls o x = .ok (o', c) → I o' ∧ S o' x c ∧ ∀ y c', S o y c' → S o' y c'
  base : ∀ o x o', I o → ops.updateBase o x = .ok o' → I o' ∧ ∀ c, S o x c → SM o' c
  basis : ∀ k o o', I o → ops.selectBasis k o = .ok o' → I o' ∧ ∀ c, SM o c → SM o' c
  mean : ∀ o x c, ops.mean o = .ok x → SM o c → S o x c

theorem Reproducible.repro (h : Reproducible ops I) : Repro ops I (Shows ops) (ShowsMean ops) := by
  refine ⟨?_, h.base, h.basis, ?_⟩
  · intro o x o' c ho hg
    obtain ⟨h1, h2⟩ := h.build o x o' c ho hg
    refine ⟨h1, h2 x c ?_, h2⟩
    unfold Shows; rw [hg]; rfl
  · rintro o x c hx ⟨y, hy, hs⟩
    rw [hx] at hy; cases hy
    exact hs

/-- Nothing is required. -/
theorem Repro.triv : Repro ops (fun _ => True) (fun _ _ _ => True) (fun _ _ => True) :=
  ⟨fun _ _ _ _ _ _ => ⟨trivial, trivial, fun _ _ _ => trivial⟩, fun _ _ _ _ _ => ⟨trivial, fun _ _ => trivial⟩,
    fun _ _ _ _ _ => ⟨trivial, fun _ _ => trivial⟩, fun _ _ _ _ _ => trivial⟩

/-- During a super-iteration: the kept vector shows the controls of the best evaluation. -/
structure InSI (cfg : AlgCfg K F) (I : O → Prop) (S : O → V → C → Prop) (s : AlgState V C O F) : Prop where
  inv : I s.ctl
  best : s.bestFoM = cfg.fomMax ∨ ∃ x, s.bestXX = some x ∧ ∃ c ∈ s.log, ∃ f, c.value = some f ∧
    s.bestFoM = dirMul cfg.maximize f ∧ S s.ctl x c.ctl ∧ (c.vec = x ∨ c.vec ∈ s.paraList)

/-- Between super-iterations: the mean shows the controls of the best evaluation. -/
structure BetweenSI (cfg : AlgCfg K F) (I : O → Prop) (SM : O → C → Prop) (s : AlgState V C O F) : Prop where
  inv : I s.ctl
  best : s.bestFoM = cfg.fomMax ∨ ∃ c ∈ s.log, ∃ f, c.value = some f ∧ s.bestFoM = dirMul cfg.maximize f ∧
    SM s.ctl c.ctl ∧ c.vec ∈ s.paraList

theorem InSI.frame {s s' : AlgState V C O F} (h : InSI cfg I S s) (h1 : s'.ctl = s.ctl) (h2 : s'.bestFoM = s.bestFoM)
    (h3 : s'.bestXX = s.bestXX) (h4 : s'.log = s.log) (h5 : s'.paraList = s.paraList) : InSI cfg I S s' := by
  refine ⟨h1 ▸ h.inv, ?_⟩
  rw [h1, h2, h3, h4, h5]; exact h.best

theorem BetweenSI.frame {s s' : AlgState V C O F} (h : BetweenSI cfg I SM s) (h1 : s'.ctl = s.ctl)
    (h2 : s'.bestFoM = s.bestFoM) (h4 : s'.log = s.log) (h5 : s'.paraList = s.paraList) : BetweenSI cfg I SM s' := by
  refine ⟨h1 ▸ h.inv, ?_⟩
  rw [h1, h2, h4, h5]; exact h.best

theorem InSI.quiet {s s' : AlgState V C O F} (h : InSI cfg I S s) (q : Quiet env s s') : InSI cfg I S s' :=
  h.frame q.ctl q.bestFoM q.bestXX q.log q.paraList

theorem BetweenSI.quiet {s s' : AlgState V C O F} (h : BetweenSI cfg I SM s) (q : Quiet env s s') :
    BetweenSI cfg I SM s' := h.frame q.ctl q.bestFoM q.log q.paraList

/-- building controls -/
theorem InSI.build (hR : Repro ops I S SM) {s : AlgState V C O F} {x : V} {o : O} {c : C} (h : InSI cfg I S s)
    (hg : ops.getControls s.ctl x = .ok (o, c)) : InSI cfg I S { s with ctl := o } := by
  obtain ⟨h1, -, h2⟩ := hR.build _ _ _ _ h.inv hg
  refine ⟨h1, h.best.imp_right ?_⟩
  rintro ⟨x, hx, c', hc, f, hf, hb, hs, hv⟩
  exact ⟨x, hx, c', hc, f, hf, hb, h2 _ _ hs, hv⟩

theorem InSI.routine (hR : Repro ops I S SM) (hre : NoReEval cfg) {s s' : AlgState V C O F} {x : V} {it : ℕ} {r : F}
    (h : InSI cfg I S s) (hstep : cfg.kind ≠ .grape → s.stepNumber = 0)
    (hr : RoutineSpec cfg env ops x it s (.ok r) s') : InSI cfg I S s' := by
  generalize hrr : (.ok r : Py F) = rr at hr
  cases hr with
  | stopped s1 q hr => exact h.quiet q
  | sigint s1 r e q hk => cases hrr
  | noControls s1 e q hr hi hg => cases hrr
  | window s1 o c s2 q hr hi hg q2 hr2 ha =>
    have hq := h.quiet q
    rw [← q.ctl] at hg
    exact ((hq.build hR hg).frame (s' := { s1 with xx := some x, algIter := it, iter := s.iter + 1, ctl := o, commCtl := some c, signals := s1.signals ++ [.controls c] }) rfl rfl rfl rfl rfl).quiet q2
  | windowSigint s1 o c s2 r e q hr hi hg q2 hk => cases hrr
  | measured s1 o c s2 q hr hi hgoal ht hg q2 hr2 =>
    have hq := h.quiet q
    have hg' := hg
    rw [← q.ctl] at hg
    have hs2 : InSI cfg I S s2 :=
      ((hq.build hR hg).frame (s' := { s1 with xx := some x, algIter := it, iter := s.iter + 1, ctl := o, commCtl := some c, signals := s1.signals ++ [.controls c] }) rfl rfl rfl rfl rfl).quiet q2
    have hxx : s2.xx = some x := q2.xx
    have hctl : s2.ctl = o := q2.ctl
    have hst2 : s2.stepNumber = s.stepNumber := q2.stepNumber.trans q.stepNumber
    have hshow : S s2.ctl x c := by
      rw [hctl]
      exact (hR.build _ _ _ _ h.inv hg').2.1
    rcases ha : env.getFoM s2.log c with e | a
    · rw [measure_raised x c s2 e ha] at hrr; cases hrr
    · rcases hf : a.fom with _ | f
      · rw [measure_noValue x c s2 a ha hf] at hrr; cases hrr
      · obtain ⟨fl, il, sc', hm⟩ := measure_answered (cfg := cfg) x c s2 a f ha hf
        have hsh : shownFoM cfg s2 (dirMul cfg.maximize f) = dirMul cfg.maximize f := by
          unfold shownFoM
          by_cases hk : cfg.kind = .dcrab
          · rw [if_pos hk, if_pos]
            rw [hst2]; exact hstep (by rw [hk]; decide)
          · rw [if_neg hk]
        have hcond : (cfg.kind = .grape ∨ cfg.reEval.isNone = true) := by
          rcases hre with h | h
          · exact .inl h
          · exact .inr (by rw [h]; rfl)
        rw [hm]
        refine ⟨hs2.inv, ?_⟩
        simp only [hsh, hcond, true_and]
        by_cases hlt : dirMul cfg.maximize f < s2.bestFoM
        · simp only [hlt, if_true]
          exact .inr ⟨x, hxx, ⟨x, c, .ok a, s2.polls, s2.ticks⟩, by simp, f, hf, rfl, hshow, .inl rfl⟩
        · simp only [hlt, if_false]
          refine hs2.best.imp_right ?_
          rintro ⟨x', hx', c', hc', f', hf', hb', hs', hv'⟩
          exact ⟨x', hx', c', List.mem_append_left _ hc', f', hf', hb', hs', hv'⟩

theorem quiet_sc (s : AlgState V C O F) (sc : Sc F) : Quiet env s { s with sc := sc } :=
  ⟨rfl, id, le_rfl, le_rfl, fun _ n h1 h2 => absurd h2 (Nat.not_lt.2 h1)⟩

theorem quiet_scTick (s : AlgState V C O F) (sc : Sc F) : Quiet env s { s with sc := sc, ticks := s.ticks + 1 } :=
  ⟨rfl, id, le_rfl, Nat.le_succ _, fun _ n h1 h2 => absurd h2 (Nat.not_lt.2 h1)⟩

/-- The operations other than evaluations only change stopping criteria, running state and counters. -/
theorem handler_quiet (o : Op K V F) (h1 : ∀ x it, o ≠ .eval x it) (h2 : ∀ x it v, o ≠ .drift x it v)
    (s s' : AlgState V C O F) (r : o.Res) (h : algHandler cfg env ops o s = (.ok r, s')) : Quiet env s s' := by
  have hpoll : ∀ (s : AlgState V C O F), isOk (poll cfg env s).1 = true → Quiet env s (poll cfg env s).2 := by
    intro s hs
    rcases poll_cases (cfg := cfg) (env := env) s with ⟨_, q⟩ | ⟨_, e, he⟩
    · exact q
    · rw [he] at hs; cases hs
  cases o with
  | eval x it => exact absurd rfl (h1 x it)
  | drift x it v => exact absurd rfl (h2 x it v)
  | readConv =>
    simp only [algHandler] at h
    rw [Prog.bind_apply] at h
    rcases hp : poll cfg env s with ⟨e | a, s1⟩
    · rw [hp] at h; simp only [Prod.mk.injEq] at h; cases h.1
    · rw [hp] at h
      cases h
      have := hpoll s (by rw [hp]; rfl)
      rwa [hp] at this
  | callback =>
    simp only [algHandler] at h
    rw [Prog.bind_apply] at h
    rcases hp : poll cfg env s with ⟨e | a, s1⟩
    · rw [hp] at h; simp only [Prod.mk.injEq] at h; cases h.1
    · rw [hp] at h
      cases h
      have := hpoll s (by rw [hp]; rfl)
      rwa [hp] at this
  | setConv b => simp only [algHandler] at h; cases h; exact quiet_sc s _
  | userStop => simp only [algHandler] at h; cases h; exact quiet_sc s _
  | checkNM size fsim calls =>
    simp only [algHandler] at h
    rw [Prog.bind_apply] at h
    unfold readClock at h
    dsimp only at h
    rw [Prog.get_bind, Prog.bind_apply, Prog.lift_apply] at h
    rcases hc : nmCheck env.sqrt cfg.sc s.sc size fsim calls (env.clock s.ticks) with e | sc
    · rw [hc] at h; simp only [Prod.mk.injEq] at h; cases h.1
    · rw [hc] at h
      cases h
      exact quiet_scTick s _
  | checkCMA fsim calls =>
    simp only [algHandler] at h
    rw [Prog.bind_apply] at h
    unfold readClock at h
    dsimp only at h
    cases h
    exact quiet_scTick s _
  | now => simp only [algHandler] at h; cases h; exact quiet_readClock s
  | reason => simp only [algHandler] at h; cases h; exact .refl _ _
  | fail e => simp only [algHandler] at h; cases h

theorem InSI.handler (hR : Repro ops I S SM) (hre : NoReEval cfg) (o : Op K V F) (hd : ∀ x it v, o ≠ .drift x it v) :
    Leads (InSI cfg I S) (InSI cfg I S) (algHandler cfg env ops o) := by
  intro s r s' hs h
  by_cases he : ∃ x it, o = .eval x it
  · obtain ⟨x, it, rfl⟩ := he
    simp only [algHandler] at h
    by_cases hk : cfg.kind = .grape
    · rw [if_pos hk] at h
      unfold innerGrape at h
      rw [Prog.modify_bind, Prog.bind_apply] at h
      unfold gradientControls at h
      dsimp only at h
      rcases hg : ops.getControls s.ctl x with e | ⟨o', c⟩
      · rw [hg] at h; simp only [Prod.mk.injEq] at h; cases h.1
      · rw [hg] at h
        dsimp only at h
        have hspec := routineCall_spec (cfg := cfg) (env := env) (ops := ops) x 0 { s with isRecord := false, ctl := o' }
        rw [h] at hspec
        refine InSI.routine hR hre ?_ (fun h' => absurd hk h') hspec
        exact (hs.build hR hg).frame (s' := { s with isRecord := false, ctl := o' }) rfl rfl rfl rfl rfl
    · rw [if_neg hk] at h
      have hnone : cfg.reEval = none := hre.resolve_left hk
      unfold innerCall at h
      rw [Prog.modify_bind, Prog.bind_apply] at h
      have hspec := routineCall_spec (cfg := cfg) (env := env) (ops := ops) x it { s with isRecord := false, stepNumber := 0 }
      rcases hc : routineCall cfg env ops x it { s with isRecord := false, stepNumber := 0 } with ⟨e | f, s1⟩
      · rw [hc] at h; simp only [Prod.mk.injEq] at h; cases h.1
      · rw [hc] at h hspec
        simp only [hnone] at h
        cases h
        exact InSI.routine hR hre (hs.frame (s' := { s with isRecord := false, stepNumber := 0 }) rfl rfl rfl rfl rfl)
          (fun _ => rfl) hspec
  · exact hs.quiet (handler_quiet o (fun x it h => he ⟨x, it, h⟩) hd s s' r h)

theorem InSI.interp (hR : Repro ops I S SM) (hre : NoReEval cfg) {α : Type} (st : Strat K V F α) (hd : st.NoDrift) :
    Leads (InSI cfg I S) (InSI cfg I S) (st.interp (algHandler cfg env ops)) := by
  induction st with
  | ret a => exact .pure a
  | op o k ih => exact .bind (InSI.handler hR hre o hd.1) fun r => ih r (hd.2 r)

theorem InSI.updateBase (hR : Repro ops I S SM) :
    Leads (InSI cfg I S) (BetweenSI cfg I SM) (updateBasePulses ops : Prog (AlgState V C O F) Unit) := by
  intro s a s' hs h
  unfold updateBasePulses at h
  rcases hx : s.bestXX with _ | x
  · rw [hx] at h; cases h
  · rw [hx] at h
    dsimp only at h
    rcases hu : ops.updateBase s.ctl x with e | o
    · rw [hu] at h; cases h
    · rw [hu] at h
      cases h
      obtain ⟨h1, h2⟩ := hR.base _ _ _ hs.inv hu
      refine ⟨h1, hs.best.imp_right ?_⟩
      rintro ⟨x', hx', c, hc, f, hf, hb, hsh, hv⟩
      rw [hx] at hx'
      cases hx'
      refine ⟨c, hc, f, hf, hb, h2 _ hsh, ?_⟩
      rcases hv with hv | hv
      · exact List.mem_append_right _ (by simp [hv])
      · exact List.mem_append_left _ hv

theorem BetweenSI.dsmBuild (hR : Repro ops I S SM) (hre : NoReEval cfg) (dsm : Dsm K V F)
    (hd : ∀ i x sim sg, (dsm i x sim sg).NoDrift) :
    Leads (BetweenSI cfg I SM) (InSI cfg I S) (QuOCS.dsmBuild cfg env ops dsm) := by
  intro s a s' hs h
  unfold QuOCS.dsmBuild at h
  rw [Prog.get_bind] at h
  rcases hm : ops.mean s.ctl with e | x0
  · rw [hm] at h; cases h
  · rw [hm] at h
    have hl : Leads (fun s1 => s1 = s) (InSI cfg I S) (do
        let sigma ← Prog.lift (ops.sigma s.ctl)
        let sim ← Prog.lift (ops.simplex s.superIt x0 sigma)
        Prog.modify (fun s => { s with bestXX := some x0 })
        let r ← (dsm s.superIt x0 sim sigma).interp (algHandler cfg env ops)
        Prog.modify (fun s => { s with terminateReason := r.reason })) := by
      refine .bind (.lift _) fun sg => .bind (.lift _) fun sim => .bind (.modify (Q := InSI cfg I S) ?_) fun _ =>
        .bind (InSI.interp hR hre _ (hd _ _ _ _)) fun r => .modify fun s h => h.frame rfl rfl rfl rfl rfl
      rintro s1 rfl
      refine ⟨hs.inv, hs.best.imp_right ?_⟩
      rintro ⟨c, hc, f, hf, hb, hsh, hv⟩
      exact ⟨x0, rfl, c, hc, f, hf, hb, hR.mean _ _ _ hm hsh, .inr hv⟩
    exact hl s a s' rfl h

theorem BetweenSI.superIteration (hR : Repro ops I S SM) (hre : NoReEval cfg) (dsm : Dsm K V F)
    (hdr : NoDriftRun cfg dsm) (k : ℕ) :
    Leads (BetweenSI cfg I SM) (BetweenSI cfg I SM) (QuOCS.superIteration cfg env ops dsm k) := by
  refine .bind (Q := BetweenSI cfg I SM) ?_ fun t => .bind (Q := BetweenSI cfg I SM)
    (.modify fun s h => h.frame rfl rfl rfl rfl) fun _ => .bind (Q := BetweenSI cfg I SM)
    (.modify fun s h => h.frame rfl rfl rfl rfl) fun _ => .bind (Q := BetweenSI cfg I SM) ?_ fun _ => ?_
  · intro s a s' h e
    cases e
    exact h.frame rfl rfl rfl rfl
  · unfold driftStep
    rw [if_neg (by rw [hdr.1]; simp)]
    exact .pure _
  · intro s a s' hs h
    rw [Prog.get_bind, Prog.bind_apply, Prog.lift_apply] at h
    rcases ho : ops.selectBasis k s.ctl with e | o
    · rw [ho] at h; cases h
    · rw [ho] at h
      dsimp only at h
      rw [Prog.modify_bind] at h
      have hl := Leads.bind (BetweenSI.dsmBuild (cfg := cfg) (env := env) hR hre dsm hdr.2) fun _ => InSI.updateBase (cfg := cfg) hR
      refine hl _ a s' ?_ h
      obtain ⟨h1, h2⟩ := hR.basis _ _ _ hs.inv ho
      refine ⟨h1, hs.best.imp_right ?_⟩
      rintro ⟨c, hc, f, hf, hb, hsh, hv⟩
      exact ⟨c, hc, f, hf, hb, h2 _ hsh, hv⟩

theorem BetweenSI.loop (hR : Repro ops I S SM) (hre : NoReEval cfg) (dsm : Dsm K V F)
    (hdr : NoDriftRun cfg dsm) (n k : ℕ) :
    Leads (BetweenSI cfg I SM) (BetweenSI cfg I SM) (dcrabLoop cfg env ops dsm n k) := by
  induction n generalizing k with
  | zero => exact .pure _
  | succ n ih =>
    refine .bind (Q := BetweenSI cfg I SM) ?_ fun _ => .bind .get fun s => ?_
    · intro s a s' hs h
      rcases poll_cases (cfg := cfg) (env := env) s with ⟨_, q⟩ | ⟨_, e, he⟩
      · rw [h] at q; exact hs.quiet q
      · rw [he] at h; cases h
    · by_cases hr : s.running = false
      · rw [if_pos hr]; exact .pure _
      · rw [if_neg hr]; exact .bind (BetweenSI.superIteration hR hre dsm hdr k) fun _ => ih (k + 1)

theorem BetweenSI.execute (hR : Repro ops I S SM) (hre : NoReEval cfg) (hk : cfg.kind ≠ .directSearch)
    (dsm : Dsm K V F) (hdr : NoDriftRun cfg dsm) (o : O) (ho : I o) (u : Unit)
    (h : (QuOCS.execute cfg env ops dsm o).1 = .ok u) : BetweenSI cfg I SM (QuOCS.execute cfg env ops dsm o).2 := by
  have he : QuOCS.execute cfg env ops dsm o = (.ok u, (QuOCS.execute cfg env ops dsm o).2) := by rw [← h]
  have h0 : (initState cfg env o : AlgState V C O F).bestFoM = cfg.fomMax := rfl
  generalize (QuOCS.execute cfg env ops dsm o).2 = s' at he ⊢
  clear h
  unfold QuOCS.execute QuOCS.run at he
  rcases hkind : cfg.kind <;> simp only [hkind] at he
  · exact BetweenSI.loop hR hre dsm hdr _ _ _ u _ ⟨ho, .inl h0⟩ he
  · exact absurd hkind hk
  · refine (Leads.bind .get fun s => .bind (.lift (ops.mean s.ctl)) fun x0 => .bind (.lift (ops.sigma s.ctl)) fun sg =>
      .bind (.lift (ops.simplex 0 x0 sg)) fun sim => .bind (InSI.interp hR hre (dsm 0 x0 sim sg) (hdr.2 _ _ _ _)) fun _ =>
      InSI.updateBase hR) _ u s' ?_ he
    exact (⟨ho, .inl h0⟩ : InSI cfg I S _)

end
end QuOCS

/-
The vector kept during a super-iteration shows the controls over which the best figure of merit is the mean, also with re-evaluation and
with drift compensation after super-iterations.
-/
import Verif.Lemmas.Reproduce
import Verif.Spec.BestMean
import Verif.Props.ReEval

set_option linter.unusedSectionVars false
set_option linter.unusedVariables false

namespace QuOCS

section
variable {K V C F : Type} [Field F] [LinearOrder F] [IsStrictOrderedRing F] {cfg : AlgCfg K F}

theorem MeanOfCalls.mono {P Q : Call V C F → Prop} {log log' : List (Call V C F)} {v : F} (h : MeanOfCalls cfg P log v)
    (hl : log <+: log') (hP : ∀ c, P c → Q c) : MeanOfCalls cfg Q log' v := by
  obtain ⟨g, fs, h1, h2, h3, h4, h5⟩ := h
  exact ⟨g, fs, h1, h2.trans hl.isInfix, fun c hc => hP c (h3 c hc), h4, h5⟩

theorem Obtained.counts {o : Option (Call V C F)} {m : F × F} (h : Obtained cfg o m) : Counts cfg o (dirMul cfg.maximize m.1) := by
  cases h with
  | answer c a f h hf =>
    show c.value = _
    unfold Call.value
    rw [h]
    simp only [hf, Option.some.injEq, dirMul]
    split <;> simp
  | placeholder s => rfl

theorem average_dirMul (b : Bool) (l : List F) : average (l.map (dirMul b)) = dirMul b (average l) := by
  unfold average dirMul
  cases b
  · simp
  · have : ∀ l : List F, (l.map fun v => -v).sum = -l.sum := by
      intro l
      induction l with
      | nil => simp
      | cons a l ih => simp [ih, add_comm]
    simp only [if_true, this, neg_div, List.length_map]

/-- A group of measurements whose mean is `v`: the placeholder if none was made. -/
theorem mean_of_group {P : Call V C F → Prop} {group : List (Option (Call V C F))} {ms : List (F × F)} {log : List (Call V C F)}
    (hne : group ≠ []) (hl : group.reduceOption <:+: log) (hP : ∀ c, some c ∈ group → P c)
    (ho : List.Forall₂ (Obtained cfg) group ms) :
    average (ms.map Prod.fst) = cfg.fomMax ∨
    (∃ c, some c ∈ group) ∧ MeanOfCalls cfg P log (dirMul cfg.maximize (average (ms.map Prod.fst))) := by
  by_cases hc : ∃ c, some c ∈ group
  · refine .inr ⟨hc, group, ms.map (fun m => dirMul cfg.maximize m.1), hc, hl, hP, ?_, ?_⟩
    · rw [List.forall₂_map_right_iff]
      exact ho.imp fun _ _ h => h.counts
    · rw [← average_dirMul, List.map_map]; rfl
  · left
    have hall : ∀ m ∈ ms, m.1 = cfg.fomMax := by
      clear hl hP hne
      induction ho with
      | nil => simp
      | @cons o m g ms h1 h2 ih =>
        have : o = none := by
          rcases o with _ | c
          · rfl
          · exact absurd ⟨c, by simp⟩ hc
        subst this
        intro m' hm'
        rcases List.mem_cons.1 hm' with rfl | hm'
        · cases h1; rfl
        · exact ih (fun ⟨c, h⟩ => hc ⟨c, by simp [h]⟩) m' hm'
    have hlen : ms ≠ [] := by
      rintro rfl
      cases ho
      exact hne rfl
    have hrep : ms.map Prod.fst = List.replicate ms.length cfg.fomMax := by
      rw [List.eq_replicate_iff]
      exact ⟨by simp, fun b hb => by obtain ⟨m, hm, rfl⟩ := List.mem_map.1 hb; exact hall m hm⟩
    rw [hrep]
    unfold average
    have : (ms.length : F) ≠ 0 := by
      rw [Nat.cast_ne_zero]
      exact fun h => hlen (List.length_eq_zero_iff.1 h)
    simp [List.sum_replicate, mul_div_cancel_left₀ _ this]
end

section
variable {K V C O F : Type} [LE K] [DecidableLE K] [Field F] [LinearOrder F] [IsStrictOrderedRing F]
variable {cfg : AlgCfg K F} {env : Env V C F} {ops : CtlOps O V C} {I : O → Prop} {S : O → V → C → Prop}
  {SM : O → C → Prop} {M : O → V → Prop}

/-- `Repro` with a relation `M o x`: the vector `x` shows what the mean of `o` shows. -/
structure ReproMean (ops : CtlOps O V C) (I : O → Prop) (S : O → V → C → Prop) (SM : O → C → Prop) (M : O → V → Prop) : Prop
    extends Repro ops I S SM where
  atMean : ∀ o x, I o → ops.mean o = .ok x → M o x
  keepMean : ∀ o x o' c, I o → M o x → ops.getControls o x = .ok (o', c) → M o' x
  showMean : ∀ o x c, I o → M o x → S o x c → SM o c

theorem ReproMean.triv : ReproMean ops (fun _ => True) (fun _ _ _ => True) (fun _ _ => True) (fun _ _ => True) :=
  { Repro.triv with
    atMean := fun _ _ _ _ => trivial
    keepMean := fun _ _ _ _ _ _ _ => trivial
    showMean := fun _ _ _ _ _ _ => trivial }

/-- the outcome `r` of one request for an evaluation at `x` -/
structure Step (cfg : AlgCfg K F) (ops : CtlOps O V C) (I : O → Prop) (S : O → V → C → Prop) (M : O → V → Prop) (x : V)
    (s s' : AlgState V C O F) (o : Option (Call V C F)) (r : F) : Prop where
  log : s'.log = s.log ++ [o].reduceOption
  inv : I s'.ctl
  keep : ∀ y c, S s.ctl y c → S s'.ctl y c
  keepM : M s.ctl x → M s'.ctl x
  para : s'.paraList = s.paraList
  step : s'.stepNumber = s.stepNumber
  made : ∀ c, o = some c → c.vec = x ∧ S s'.ctl x c.ctl ∧ s'.xx = some x
  xx : s'.xx = s.xx ∨ s'.xx = some x
  obt : ∃ σ, Obtained cfg o (r, σ)
  best : (s'.bestFoM = s.bestFoM ∧ s'.bestXX = s.bestXX) ∨
    (cfg.kind = .grape ∨ cfg.reEval.isNone = true) ∧ (∃ c, o = some c) ∧ s'.bestXX = some x ∧
      (cfg.kind ≠ .dcrab ∨ s.stepNumber = 0 → s'.bestFoM = r)

theorem routine_step (hR : ReproMean ops I S SM M) {s s' : AlgState V C O F} {x : V} {it : ℕ} {r : F} (hI : I s.ctl)
    (h : routineCall cfg env ops x it s = (.ok r, s')) : ∃ o, Step cfg ops I S M x s s' o r := by
  have hr := routineCall_spec (cfg := cfg) (env := env) (ops := ops) x it s
  rw [h] at hr
  dsimp only at hr
  generalize hrr : (.ok r : Py F) = rr at hr
  cases hr with
  | stopped s1 q hr =>
    cases hrr
    refine ⟨none, ?_, ?_, ?_, ?_, q.paraList, q.stepNumber, by simp, .inl q.xx, ⟨0, .placeholder 0⟩, .inl ⟨q.bestFoM, q.bestXX⟩⟩
    · rw [q.log]; simp [List.reduceOption]
    · rw [q.ctl]; exact hI
    · rw [q.ctl]; exact fun _ _ h => h
    · rw [q.ctl]; exact id
  | sigint s1 r e q hk => cases hrr
  | noControls s1 e q hr hi hg => cases hrr
  | window s1 o c s2 q hr hi hg q2 hr2 ha =>
    cases hrr
    obtain ⟨b1, b2, b3⟩ := hR.build _ _ _ _ hI hg
    have hctl : s'.ctl = o := q2.ctl
    refine ⟨none, ?_, ?_, ?_, ?_, q2.paraList.trans q.paraList, q2.stepNumber.trans q.stepNumber, by simp, .inr q2.xx,
      ⟨0, .placeholder 0⟩, .inl ⟨q2.bestFoM.trans q.bestFoM, q2.bestXX.trans q.bestXX⟩⟩
    · rw [q2.log, q.log]; simp [List.reduceOption]
    · rw [hctl]; exact b1
    · rw [hctl]; exact b3
    · rw [hctl]; exact fun hM => hR.keepMean _ _ _ _ hI hM hg
  | windowSigint s1 o c s2 r e q hr hi hg q2 hk => cases hrr
  | measured s1 o c s2 q hr hi hgoal ht hg q2 hr2 =>
    obtain ⟨b1, b2, b3⟩ := hR.build _ _ _ _ hI hg
    have hctl : s2.ctl = o := q2.ctl
    have hxx : s2.xx = some x := q2.xx
    have hst2 : s2.stepNumber = s.stepNumber := q2.stepNumber.trans q.stepNumber
    rcases ha : env.getFoM s2.log c with e | a
    · rw [measure_raised x c s2 e ha] at hrr; cases hrr
    · rcases hf : a.fom with _ | f
      · rw [measure_noValue x c s2 a ha hf] at hrr; cases hrr
      · obtain ⟨fl, il, sc', hm⟩ := measure_answered (cfg := cfg) x c s2 a f ha hf
        rw [hm] at hrr ⊢
        simp only [Except.ok.injEq] at hrr
        subst hrr
        refine ⟨some ⟨x, c, .ok a, s2.polls, s2.ticks⟩, ?_, ?_, ?_, ?_, q2.paraList.trans q.paraList, hst2, ?_, .inr hxx,
          ⟨a.std.getD 1, .answer _ a f rfl hf⟩, ?_⟩
        · show s2.log ++ _ = _
          rw [q2.log, q.log]; simp [List.reduceOption]
        · show I s2.ctl
          rw [hctl]; exact b1
        · show ∀ y c, S s.ctl y c → S s2.ctl y c
          rw [hctl]; exact b3
        · show M s.ctl x → M s2.ctl x
          rw [hctl]; exact fun hM => hR.keepMean _ _ _ _ hI hM hg
        · intro c' hc'
          cases hc'
          refine ⟨rfl, ?_, hxx⟩
          show S s2.ctl x c
          rw [hctl]; exact b2
        · dsimp only
          split
          · rename_i hcond
            refine .inr ⟨hcond.1, ⟨_, rfl⟩, hxx, ?_⟩
            intro h0
            unfold shownFoM
            by_cases hk : cfg.kind = .dcrab
            · rw [if_pos hk, if_pos]
              rw [hst2]; exact h0.resolve_left (by simp [hk])
            · rw [if_neg hk]
          · exact .inl ⟨q2.bestFoM.trans q.bestFoM, q2.bestXX.trans q.bestXX⟩

/-- what holds between the start `s0` of a request for the point `x` (with re-evaluation) and the state `s` -/
structure During (I : O → Prop) (S : O → V → C → Prop) (x : V) (s0 s : AlgState V C O F) : Prop where
  inv : I s.ctl
  keep : ∀ y c, S s0.ctl y c → S s.ctl y c
  para : s.paraList = s0.paraList
  log : ∃ new, s.log = s0.log ++ new ∧ (∀ c ∈ new, c.vec = x ∧ S s.ctl x c.ctl) ∧ (new ≠ [] → s.xx = some x)
  best : s.bestXX = s0.bestXX ∧ s.bestFoM = s0.bestFoM ∨ s.isRecord = true ∧ s.bestXX = s.xx

theorem During.routine (hR : ReproMean ops I S SM M) (hre : ¬ (cfg.kind = .grape ∨ cfg.reEval.isNone = true)) {x : V} {it : ℕ}
    {s0 : AlgState V C O F} :
    Leads (fun s => During I S x s0 s ∧ s.bestXX = s0.bestXX ∧ s.bestFoM = s0.bestFoM)
      (fun s => During I S x s0 s ∧ s.bestXX = s0.bestXX ∧ s.bestFoM = s0.bestFoM) (routineCall cfg env ops x it) := by
  rintro s r s' ⟨h, hb1, hb2⟩ he
  obtain ⟨o, ho⟩ := routine_step hR h.inv he
  have hb : s'.bestFoM = s.bestFoM ∧ s'.bestXX = s.bestXX := by
    rcases ho.best with hb | ⟨hb, _⟩
    · exact hb
    · exact absurd hb hre
  refine ⟨⟨ho.inv, fun y c hc => ho.keep y c (h.keep y c hc), ho.para.trans h.para, ?_, .inl ⟨hb.2.trans hb1, hb.1.trans hb2⟩⟩,
    hb.2.trans hb1, hb.1.trans hb2⟩
  obtain ⟨new, n1, n2, n3⟩ := h.log
  refine ⟨new ++ [o].reduceOption, by rw [ho.log, n1, List.append_assoc], ?_, ?_⟩
  · intro c hc
    rcases List.mem_append.1 hc with hc | hc
    · exact ⟨(n2 c hc).1, ho.keep _ _ (n2 c hc).2⟩
    · rw [List.reduceOption_mem_iff] at hc
      have := ho.made c (by simpa [eq_comm] using hc)
      exact ⟨this.1, this.2.1⟩
  · intro hne
    rcases o with _ | c
    · have hn : new ≠ [] := by simpa [List.reduceOption] using hne
      rcases ho.xx with hx | hx
      · rw [hx]; exact n3 hn
      · exact hx
    · exact (ho.made c rfl).2.2

theorem During.storeTest {x : V} {s0 : AlgState V C O F} {P : AlgState V C O F → Prop}
    (hP : ∀ s s' : AlgState V C O F, s'.ctl = s.ctl → s'.paraList = s.paraList → s'.log = s.log → s'.xx = s.xx → s'.bestXX = s.bestXX →
      s'.bestFoM = s.bestFoM → P s → P s') (i : ℕ) (f : F) :
    Leads P P (QuOCS.storeTest i f : Prog (AlgState V C O F) Unit) := by
  intro s a s' hs h
  unfold QuOCS.storeTest at h
  rcases h1 : setIdx s.fomTest i f with e | ft
  · rw [h1] at h; cases h
  · rw [h1] at h
    dsimp only at h
    rcases h2 : setIdx s.sigmaTest i (s.fomDict.std.getD 1) with e | st
    · rw [h2] at h; cases h
    · rw [h2] at h
      cases h
      exact hP s _ rfl rfl rfl rfl rfl rfl hs

theorem During.frame {x : V} {s0 s s' : AlgState V C O F} (h : During I S x s0 s ∧ s.bestXX = s0.bestXX ∧ s.bestFoM = s0.bestFoM)
    (h1 : s'.ctl = s.ctl) (h2 : s'.paraList = s.paraList)
    (h3 : s'.log = s.log) (h4 : s'.xx = s.xx) (h5 : s'.bestXX = s.bestXX) (h6 : s'.bestFoM = s.bestFoM) :
    During I S x s0 s' ∧ s'.bestXX = s0.bestXX ∧ s'.bestFoM = s0.bestFoM := by
  refine ⟨⟨h1 ▸ h.1.inv, h1 ▸ h.1.keep, h2.trans h.1.para, ?_, .inl ⟨h5.trans h.2.1, h6.trans h.2.2⟩⟩, h5.trans h.2.1, h6.trans h.2.2⟩
  rw [h1, h3, h4]; exact h.1.log

theorem During.finish {x : V} {s0 : AlgState V C O F} (last : F) :
    Leads (fun s => During I S x s0 s ∧ s.bestXX = s0.bestXX ∧ s.bestFoM = s0.bestFoM) (During I S x s0)
      (reEvalFinish cfg env last : Prog (AlgState V C O F) F) := by
  rintro s r s' ⟨h, hb⟩ he
  unfold reEvalFinish at he
  dsimp only at he
  split at he
  · rcases hx : s.xx with _ | y
    · rw [hx] at he; cases he
    · rw [hx] at he
      cases he
      refine ⟨h.inv, h.keep, h.para, ?_, .inr ⟨rfl, rfl⟩⟩
      have := h.log
      rw [hx] at this
      exact this
  · cases he
    exact h

theorem During.loop (hR : ReproMean ops I S SM M) (hre : ¬ (cfg.kind = .grape ∨ cfg.reEval.isNone = true)) {x : V} {it : ℕ}
    {s0 : AlgState V C O F} (last : F) (i : ℕ) (ps : List F) :
    Leads (fun s => During I S x s0 s ∧ s.bestXX = s0.bestXX ∧ s.bestFoM = s0.bestFoM) (During I S x s0)
      (reEvalLoop cfg env ops x it last i ps) := by
  induction ps generalizing i with
  | nil => exact During.finish last
  | cons p ps ih =>
    unfold reEvalLoop
    refine .bind .get fun s => ?_
    dsimp only
    split
    · intro s r s' h he
      cases he
      exact h.1
    · refine .bind (During.routine hR hre) fun f => .bind (During.storeTest (x := x) (s0 := s0) ?_ _ _) fun _ => ih _
      exact fun s s' h1 h2 h3 h4 h5 h6 h => During.frame h h1 h2 h3 h4 h5 h6

theorem During.inner (hR : ReproMean ops I S SM M) (hre : ¬ (cfg.kind = .grape ∨ cfg.reEval.isNone = true)) {x : V} {it : ℕ}
    {s s' : AlgState V C O F} {r : F} (hI : I s.ctl) (h : innerCall cfg env ops x it s = (.ok r, s')) : During I S x s s' := by
  have hframe : ∀ s1 s2 : AlgState V C O F, s2.ctl = s1.ctl → s2.paraList = s1.paraList → s2.log = s1.log → s2.xx = s1.xx →
      s2.bestXX = s1.bestXX → s2.bestFoM = s1.bestFoM → (During I S x s s1 ∧ s1.bestXX = s.bestXX ∧ s1.bestFoM = s.bestFoM) →
      (During I S x s s2 ∧ s2.bestXX = s.bestXX ∧ s2.bestFoM = s.bestFoM) :=
    fun s1 s2 h1 h2 h3 h4 h5 h6 h => During.frame h h1 h2 h3 h4 h5 h6
  have hl : Leads (fun s1 => During I S x s s1 ∧ s1.bestXX = s.bestXX ∧ s1.bestFoM = s.bestFoM) (During I S x s)
      (innerCall cfg env ops x it) := by
    unfold innerCall
    refine .bind (.modify (Q := fun s1 => During I S x s s1 ∧ s1.bestXX = s.bestXX ∧ s1.bestFoM = s.bestFoM)
      fun s1 h1 => hframe s1 _ rfl rfl rfl rfl rfl rfl h1) fun _ => .bind (During.routine hR hre) fun f => ?_
    rcases hsteps : cfg.reEval with _ | steps
    · exact absurd (.inr (by rw [hsteps]; rfl)) hre
    · refine .bind .get fun s1 => .bind (.modify (Q := fun s1 => During I S x s s1 ∧ s1.bestXX = s.bestXX ∧ s1.bestFoM = s.bestFoM)
        fun s1 h1 => hframe s1 _ rfl rfl rfl rfl rfl rfl h1) fun _ => .bind (During.storeTest (x := x) (s0 := s) hframe _ _) fun _ => ?_
      split
      · intro s1 r s2 h1 h2; cases h2
      · exact During.loop hR hre _ _ _
  refine hl s r s' ⟨⟨hI, fun _ _ h => h, rfl, ⟨[], by simp, by simp, by simp⟩, .inl ⟨rfl, rfl⟩⟩, rfl, rfl⟩ h

/-- The tables for re-evaluation keep their sizes. -/
theorem TablesOK.handler (o : Op K V F) : Leads (TablesOK cfg) (TablesOK cfg) (algHandler cfg env ops o) := by
  intro s r s' hs h steps hre
  have := (Traced.handler (cfg := cfg) (env := env) (ops := ops) (d := true) o (.inl rfl)).inv
    (fun s => s.fomTest.length = steps.length + 1 ∧ s.sigmaTest.length = steps.length + 1) (fun b s1 s2 ha h1 => by
      have := ha.tables
      rw [this.1, this.2]; exact h1) s (hs steps hre)
  rw [h] at this
  exact this

/-- During a super-iteration: the kept vector shows the controls of a group over which the best figure of merit is the mean. -/
structure InMean (cfg : AlgCfg K F) (D : Prop) (I : O → Prop) (S : O → V → C → Prop) (s : AlgState V C O F) : Prop where
  inv : I s.ctl
  tables : TablesOK cfg s
  best : s.bestFoM = cfg.fomMax ∨ ∃ x, s.bestXX = some x ∧
    MeanOfCalls cfg (fun c => S s.ctl x c.ctl ∧ (D ∨ c.vec = x ∨ c.vec ∈ s.paraList)) s.log (dirMul cfg.maximize s.bestFoM)

/-- Between super-iterations: the mean shows these controls. -/
structure BetweenMean (cfg : AlgCfg K F) (D : Prop) (I : O → Prop) (SM : O → C → Prop) (s : AlgState V C O F) : Prop where
  inv : I s.ctl
  tables : TablesOK cfg s
  best : s.bestFoM = cfg.fomMax ∨
    MeanOfCalls cfg (fun c => SM s.ctl c.ctl ∧ (D ∨ c.vec ∈ s.paraList)) s.log (dirMul cfg.maximize s.bestFoM)

variable {D : Prop}

theorem InMean.eval (hR : ReproMean ops I S SM M) (hk : cfg.kind = .dcrab) (hne : cfg.reEval ≠ some []) (x : V) (it : ℕ)
    {s s' : AlgState V C O F} {r : F} (hs : InMean cfg D I S s) (h : algHandler cfg env ops (.eval x it) s = (.ok r, s')) :
    InMean cfg D I S s' := by
  have htab : TablesOK cfg s' := TablesOK.handler (.eval x it) s r s' hs.tables h
  have hkg : cfg.kind ≠ .grape := by rw [hk]; decide
  simp only [algHandler] at h
  rw [if_neg hkg] at h
  rcases hre : cfg.reEval with _ | steps
  · -- without re-evaluation
    unfold innerCall at h
    rw [Prog.modify_bind, Prog.bind_apply] at h
    rcases hc : routineCall cfg env ops x it { s with isRecord := false, stepNumber := 0 } with ⟨e | f, s1⟩
    · rw [hc] at h; simp only [Prod.mk.injEq] at h; cases h.1
    · rw [hc] at h
      simp only [hre] at h
      cases h
      obtain ⟨o, ho⟩ := routine_step (s := { s with isRecord := false, stepNumber := 0 }) hR hs.inv hc
      refine ⟨ho.inv, htab, ?_⟩
      have hpre : s.log <+: s'.log := by rw [ho.log]; exact List.prefix_append _ _
      rcases ho.best with ⟨b1, b2⟩ | ⟨_, ⟨c, rfl⟩, b2, b3⟩
      · rw [b1, b2, ho.para]
        refine hs.best.imp_right ?_
        rintro ⟨y, hy, hm⟩
        exact ⟨y, hy, hm.mono hpre fun c hc => ⟨ho.keep _ _ hc.1, hc.2⟩⟩
      · have hb := b3 (.inr rfl)
        obtain ⟨σ, hσ⟩ := ho.obt
        have := mean_of_group (cfg := cfg) (P := fun c => S s'.ctl x c.ctl ∧ (D ∨ c.vec = x ∨ c.vec ∈ s'.paraList))
          (group := [some c]) (ms := [(r, σ)]) (log := s'.log) (by simp) (by rw [ho.log]; exact (List.suffix_append _ _).isInfix)
          (by
            intro c' hc'
            cases List.mem_singleton.1 hc'
            obtain ⟨m1, m2, m3⟩ := ho.made c rfl
            exact ⟨m2, .inr (.inl m1)⟩) (.cons hσ .nil)
        have ha : average ([(r, σ)].map Prod.fst) = r := by simp [average]
        rw [ha, ← hb] at this
        exact this.imp_right fun h => ⟨x, b2, h.2⟩
  · -- with re-evaluation
    have hgr : ¬ (cfg.kind = .grape ∨ cfg.reEval.isNone = true) := by
      rw [hre]; simp [hkg]
    have hd := During.inner hR hgr hs.inv h
    have hsteps : steps ≠ [] := by rintro rfl; exact hne hre
    have hpre : s.log <+: s'.log := by
      obtain ⟨new, n1, _⟩ := hd.log
      rw [n1]; exact List.prefix_append _ _
    have same : s'.bestXX = s.bestXX → s'.bestFoM = s.bestFoM → InMean cfg D I S s' := by
      intro b2 b1
      refine ⟨hd.inv, htab, ?_⟩
      rw [b1, b2, hd.para]
      refine hs.best.imp_right ?_
      rintro ⟨y, hy, hm⟩
      exact ⟨y, hy, hm.mono hpre fun c hc => ⟨hd.keep _ _ hc.1, hc.2⟩⟩
    rcases inner_out cfg env ops steps hre hsteps hkg x it s (hs.tables steps hre).1 (hs.tables steps hre).2 with
      ⟨e, s1, cs, he, _⟩ | ⟨s1, o, m, used, last, ho, hl, hx, hb, hsig, hrec, hr1, hr2, hu, hla, hout⟩
    · rw [h] at he; cases he
    · rw [h] at hout
      dsimp only at hout
      generalize hrr : (.ok r : Py F) = rr at hout
      cases hout with
      | done _ rs new hl' hx' ho' hn' hk' hr' =>
        rcases hd.best with hb' | ⟨hb', _⟩
        · exact same hb'.1 hb'.2
        · rw [hk'.isRecord, hrec] at hb'; cases hb'
      | raised e _ cs hl' hx' hn' hk' => cases hrr
      | record r' _ rs new hl' hx' ho' hn' hp' hlast' hb' hs' hrun' hr' hok' =>
        rcases hd.best with hb2 | ⟨_, hb2⟩
        · exact same hb2.1 hb2.2
        · refine ⟨hd.inv, htab, ?_⟩
          obtain ⟨new', n1, n2, n3⟩ := hd.log
          have hn : new' = (o :: rs).reduceOption := by
            have : s.log ++ new' = s.log ++ (o :: rs).reduceOption := by
              rw [← n1, hl', hl, List.append_assoc, ← List.reduceOption_append]; rfl
            exact List.append_cancel_left this
          have := mean_of_group (cfg := cfg) (P := fun c => S s'.ctl x c.ctl ∧ (D ∨ c.vec = x ∨ c.vec ∈ s'.paraList))
            (group := o :: rs) (ms := m :: new) (log := s'.log) (by simp)
            (by rw [n1, hn]; exact (List.suffix_append _ _).isInfix)
            (by
              intro c hc
              have := n2 c (by rw [hn, List.reduceOption_mem_iff]; exact hc)
              exact ⟨this.2, .inr (.inl this.1)⟩) (.cons ho ho')
          have e1 : s'.bestFoM = average ((m :: new).map Prod.fst) := by simpa using hb'
          rw [← e1] at this
          refine this.imp_right ?_
          rintro ⟨⟨c, hc⟩, hm⟩
          refine ⟨x, ?_, hm⟩
          rw [hb2]
          refine n3 ?_
          intro h0
          have : c ∈ new' := by rw [hn, List.reduceOption_mem_iff]; exact hc
          rw [h0] at this
          cases this

theorem InMean.frame {s s' : AlgState V C O F} (h : InMean cfg D I S s) (h1 : s'.ctl = s.ctl) (h2 : s'.bestFoM = s.bestFoM)
    (h3 : s'.bestXX = s.bestXX) (h4 : s'.log = s.log) (h5 : s'.paraList = s.paraList) (h6 : s'.fomTest = s.fomTest)
    (h7 : s'.sigmaTest = s.sigmaTest) : InMean cfg D I S s' := by
  refine ⟨h1 ▸ h.inv, fun st hst => by rw [h6, h7]; exact h.tables st hst, ?_⟩
  rw [h1, h2, h3, h4, h5]; exact h.best

theorem BetweenMean.frame {s s' : AlgState V C O F} (h : BetweenMean cfg D I SM s) (h1 : s'.ctl = s.ctl)
    (h2 : s'.bestFoM = s.bestFoM) (h4 : s'.log = s.log) (h5 : s'.paraList = s.paraList) (h6 : s'.fomTest = s.fomTest)
    (h7 : s'.sigmaTest = s.sigmaTest) : BetweenMean cfg D I SM s' := by
  refine ⟨h1 ▸ h.inv, fun st hst => by rw [h6, h7]; exact h.tables st hst, ?_⟩
  rw [h1, h2, h4, h5]; exact h.best

theorem InMean.handler (hR : ReproMean ops I S SM M) (hk : cfg.kind = .dcrab) (hne : cfg.reEval ≠ some []) (o : Op K V F)
    (hd : ∀ x it v, o ≠ .drift x it v) : Leads (InMean cfg D I S) (InMean cfg D I S) (algHandler cfg env ops o) := by
  intro s r s' hs h
  by_cases he : ∃ x it, o = .eval x it
  · obtain ⟨x, it, rfl⟩ := he
    exact InMean.eval hR hk hne x it hs h
  · have q := handler_quiet o (fun x it h => he ⟨x, it, h⟩) hd s s' r h
    exact hs.frame q.ctl q.bestFoM q.bestXX q.log q.paraList (by rw [q.frame]) (by rw [q.frame])

theorem InMean.interp (hR : ReproMean ops I S SM M) (hk : cfg.kind = .dcrab) (hne : cfg.reEval ≠ some []) {α : Type}
    (st : Strat K V F α) (hd : st.NoDrift) : Leads (InMean cfg D I S) (InMean cfg D I S) (st.interp (algHandler cfg env ops)) := by
  induction st with
  | ret a => exact .pure a
  | op o k ih => exact .bind (InMean.handler hR hk hne o hd.1) fun r => ih r (hd.2 r)

theorem InMean.updateBase (hR : ReproMean ops I S SM M) :
    Leads (InMean cfg D I S) (BetweenMean cfg D I SM) (updateBasePulses ops : Prog (AlgState V C O F) Unit) := by
  intro s a s' hs h
  unfold updateBasePulses at h
  rcases hx : s.bestXX with _ | x
  · rw [hx] at h; cases h
  · rw [hx] at h
    dsimp only at h
    rcases hu : ops.updateBase s.ctl x with e | o
    · rw [hu] at h; cases h
    · rw [hu] at h
      cases h
      obtain ⟨h1, h2⟩ := hR.base _ _ _ hs.inv hu
      refine ⟨h1, hs.tables, hs.best.imp_right ?_⟩
      rintro ⟨x', hx', hm⟩
      rw [hx] at hx'
      cases hx'
      refine hm.mono (List.prefix_refl _) fun c hc => ⟨h2 _ hc.1, ?_⟩
      rcases hc.2 with hv | hv | hv
      · exact .inl hv
      · exact .inr (List.mem_append_right _ (by simp [hv]))
      · exact .inr (List.mem_append_left _ hv)

theorem BetweenMean.dsmBuild (hR : ReproMean ops I S SM M) (hk : cfg.kind = .dcrab) (hne : cfg.reEval ≠ some []) (dsm : Dsm K V F)
    (hd : ∀ i x sim sg, Leads (InMean cfg D I S) (InMean cfg D I S) ((dsm i x sim sg).interp (algHandler cfg env ops))) :
    Leads (BetweenMean cfg D I SM) (InMean cfg D I S) (QuOCS.dsmBuild cfg env ops dsm) := by
  intro s a s' hs h
  unfold QuOCS.dsmBuild at h
  rw [Prog.get_bind] at h
  rcases hm : ops.mean s.ctl with e | x0
  · rw [hm] at h; cases h
  · rw [hm] at h
    have hl : Leads (fun s1 => s1 = s) (InMean cfg D I S) (do
        let sigma ← Prog.lift (ops.sigma s.ctl)
        let sim ← Prog.lift (ops.simplex s.superIt x0 sigma)
        Prog.modify (fun s => { s with bestXX := some x0 })
        let r ← (dsm s.superIt x0 sim sigma).interp (algHandler cfg env ops)
        Prog.modify (fun s => { s with terminateReason := r.reason })) := by
      refine .bind (.lift _) fun sg => .bind (.lift _) fun sim => .bind (.modify (Q := InMean cfg D I S) ?_) fun _ =>
        .bind (hd _ _ _ _) fun r => .modify fun s h => h.frame rfl rfl rfl rfl rfl rfl rfl
      rintro s1 rfl
      refine ⟨hs.inv, hs.tables, hs.best.imp_right ?_⟩
      intro hm'
      exact ⟨x0, rfl, hm'.mono (List.prefix_refl _) fun c hc => ⟨hR.mean _ _ _ hm hc.1, hc.2.imp_right .inr⟩⟩
    exact hl s a s' rfl h

/-- the sum of `n` evaluations at `x` -/
theorem sumRoutine_group (hR : ReproMean ops I S SM M) (x : V) (n : ℕ) (acc : F) (s s' : AlgState V C O F) (f : F) (hI : I s.ctl)
    (h : sumRoutine cfg env ops x n acc s = (.ok f, s')) :
    I s'.ctl ∧ (∀ y c, S s.ctl y c → S s'.ctl y c) ∧ (M s.ctl x → M s'.ctl x) ∧ s'.paraList = s.paraList ∧
    ∃ group ms, group.length = n ∧ s'.log = s.log ++ group.reduceOption ∧ (∀ c, some c ∈ group → S s'.ctl x c.ctl) ∧
      List.Forall₂ (Obtained cfg) group ms ∧ f = acc + (ms.map Prod.fst).sum := by
  induction n generalizing acc s with
  | zero =>
    cases h
    exact ⟨hI, fun _ _ h => h, id, rfl, [], [], rfl, by simp, by simp, .nil, by simp⟩
  | succ n ih =>
    unfold sumRoutine at h
    rw [Prog.bind_apply] at h
    rcases hc : routineCall cfg env ops x 0 s with ⟨e | r, s1⟩
    · rw [hc] at h; simp only [Prod.mk.injEq] at h; cases h.1
    · rw [hc] at h
      dsimp only at h
      obtain ⟨o, ho⟩ := routine_step hR hI hc
      obtain ⟨i1, i2, i3, i4, group, ms, g1, g2, g3, g4, g5⟩ := ih _ _ ho.inv h
      obtain ⟨σ, hσ⟩ := ho.obt
      refine ⟨i1, fun y c hc => i2 _ _ (ho.keep _ _ hc), fun hM => i3 (ho.keepM hM), i4.trans ho.para, o :: group, (r, σ) :: ms,
        by simp [g1], ?_, ?_, .cons hσ g4, ?_⟩
      · rw [g2, ho.log, List.append_assoc, ← List.reduceOption_append]; rfl
      · intro c hc
        rcases List.mem_cons.1 hc with hc | hc
        · exact i2 _ _ (ho.made c hc.symm).2.1
        · exact g3 c hc
      · rw [g5]; simp [add_assoc]

/-- the tables during drift compensation -/
theorem TablesOK.updateFoM (hk : cfg.kind = .dcrab) (hdr : cfg.driftAfterSI = true) :
    Leads (TablesOK cfg) (TablesOK cfg) (QuOCS.updateFoM cfg env ops : Prog (AlgState V C O F) Unit) := by
  intro s r s' hs h steps hre
  have := (Traced.updateFoM (cfg := cfg) (env := env) (ops := ops) (d := true) hk hdr).inv
    (fun s => s.fomTest.length = steps.length + 1 ∧ s.sigmaTest.length = steps.length + 1) (fun b s1 s2 ha h1 => by
      have := ha.tables
      rw [this.1, this.2]; exact h1) s (hs steps hre)
  rw [h] at this
  exact this

theorem BetweenMean.drift (hR : ReproMean ops I S SM M) (hk : cfg.kind = .dcrab) (hD : cfg.driftAfterSI = true → D) (k : ℕ) :
    Leads (BetweenMean cfg D I SM) (BetweenMean cfg D I SM) (driftStep cfg env ops k) := by
  unfold driftStep
  split
  · rename_i hdr
    intro s a s' hs h
    have htab := TablesOK.updateFoM (env := env) (ops := ops) hk hdr.1 s a s' hs.tables h
    unfold updateFoM at h
    rw [Prog.get_bind] at h
    rcases hm : ops.mean s.ctl with e | x0
    · rw [hm] at h; cases h
    · rw [hm, Prog.bind_apply, Prog.lift_apply] at h
      dsimp only at h
      rw [Prog.modify_bind, Prog.bind_apply] at h
      rcases hc : sumRoutine cfg env ops x0 cfg.driftAverage 0 { s with isRecord := true, stepNumber := 0 } with ⟨e | f, s1⟩
      · rw [hc] at h; simp only [Prod.mk.injEq] at h; cases h.1
      · rw [hc] at h
        dsimp only at h
        split at h
        · cases h
        · rename_i hn
          cases h
          obtain ⟨i1, i2, i3, i4, group, ms, g1, g2, g3, g4, g5⟩ := sumRoutine_group hR x0 _ _ { s with isRecord := true, stepNumber := 0 } _ _ hs.inv hc
          have hM := i3 (hR.atMean _ _ hs.inv hm)
          refine ⟨i1, htab, ?_⟩
          have := mean_of_group (cfg := cfg) (P := fun c => SM s1.ctl c.ctl ∧ (D ∨ c.vec ∈ s1.paraList))
            (group := group) (ms := ms) (log := s1.log) (by rintro rfl; exact hn g1.symm)
            (by rw [g2]; exact (List.suffix_append _ _).isInfix)
            (fun c hc => ⟨hR.showMean _ _ _ i1 hM (g3 c hc), .inl (hD hdr.1)⟩) g4
          have e1 : f / (cfg.driftAverage : F) = average (ms.map Prod.fst) := by
            have := g4.length_eq
            rw [g5, zero_add]
            unfold average
            rw [List.length_map, ← this, g1]
          dsimp only
          rw [e1]
          exact this.imp_right fun h => h.2
  · exact .pure _

theorem BetweenMean.superIteration (hR : ReproMean ops I S SM M) (hk : cfg.kind = .dcrab) (hne : cfg.reEval ≠ some [])
    (hD : cfg.driftAfterSI = true → D) (dsm : Dsm K V F)
    (hd : ∀ i x sim sg, Leads (InMean cfg D I S) (InMean cfg D I S) ((dsm i x sim sg).interp (algHandler cfg env ops))) (k : ℕ) :
    Leads (BetweenMean cfg D I SM) (BetweenMean cfg D I SM) (QuOCS.superIteration cfg env ops dsm k) := by
  refine .bind (Q := BetweenMean cfg D I SM) ?_ fun t => .bind (Q := BetweenMean cfg D I SM)
    (.modify fun s h => h.frame rfl rfl rfl rfl rfl rfl) fun _ => .bind (Q := BetweenMean cfg D I SM)
    (.modify fun s h => h.frame rfl rfl rfl rfl rfl rfl) fun _ => .bind (BetweenMean.drift hR hk hD k) fun _ => ?_
  · intro s a s' h e
    cases e
    exact h.frame rfl rfl rfl rfl rfl rfl
  · intro s a s' hs h
    rw [Prog.get_bind, Prog.bind_apply, Prog.lift_apply] at h
    rcases ho : ops.selectBasis k s.ctl with e | o
    · rw [ho] at h; cases h
    · rw [ho] at h
      dsimp only at h
      rw [Prog.modify_bind] at h
      have hl := Leads.bind (BetweenMean.dsmBuild (cfg := cfg) (env := env) (D := D) hR hk hne dsm hd) fun _ => InMean.updateBase hR
      refine hl _ a s' ?_ h
      obtain ⟨h1, h2⟩ := hR.basis _ _ _ hs.inv ho
      exact ⟨h1, hs.tables, hs.best.imp_right fun hm => hm.mono (List.prefix_refl _) fun c hc => ⟨h2 _ hc.1, hc.2⟩⟩

theorem BetweenMean.loop (hR : ReproMean ops I S SM M) (hk : cfg.kind = .dcrab) (hne : cfg.reEval ≠ some [])
    (hD : cfg.driftAfterSI = true → D) (dsm : Dsm K V F)
    (hd : ∀ i x sim sg, Leads (InMean cfg D I S) (InMean cfg D I S) ((dsm i x sim sg).interp (algHandler cfg env ops))) (n k : ℕ) :
    Leads (BetweenMean cfg D I SM) (BetweenMean cfg D I SM) (dcrabLoop cfg env ops dsm n k) := by
  induction n generalizing k with
  | zero => exact .pure _
  | succ n ih =>
    refine .bind (Q := BetweenMean cfg D I SM) ?_ fun _ => .bind .get fun s => ?_
    · intro s a s' hs h
      rcases poll_cases (cfg := cfg) (env := env) s with ⟨_, q⟩ | ⟨_, e, he⟩
      · rw [h] at q
        replace q : Quiet env s s' := q
        exact hs.frame q.ctl q.bestFoM q.log q.paraList (by rw [q.frame]) (by rw [q.frame])
      · rw [he] at h; cases h
    · by_cases hr : s.running = false
      · rw [if_pos hr]; exact .pure _
      · rw [if_neg hr]; exact .bind (BetweenMean.superIteration hR hk hne hD dsm hd k) fun _ => ih (k + 1)

theorem BetweenMean.execute (hR : ReproMean ops I S SM M) (hk : cfg.kind = .dcrab) (hne : cfg.reEval ≠ some [])
    (hD : cfg.driftAfterSI = true → D) (dsm : Dsm K V F)
    (hd : ∀ i x sim sg, Leads (InMean cfg D I S) (InMean cfg D I S) ((dsm i x sim sg).interp (algHandler cfg env ops))) (o : O) (ho : I o)
    (h : (QuOCS.execute cfg env ops dsm o).1 = .ok ()) : BetweenMean cfg D I SM (QuOCS.execute cfg env ops dsm o).2 := by
  have he : QuOCS.execute cfg env ops dsm o = (.ok (), (QuOCS.execute cfg env ops dsm o).2) := by rw [← h]
  have h0 : (initState cfg env o : AlgState V C O F).bestFoM = cfg.fomMax := rfl
  have ht := (tables_ok (V := V) (C := C) cfg env ops o).1
  generalize (QuOCS.execute cfg env ops dsm o).2 = s' at he ⊢
  clear h
  unfold QuOCS.execute QuOCS.run at he
  rw [hk] at he
  exact BetweenMean.loop hR hk hne hD dsm hd _ _ _ () _ ⟨ho, ht, .inl h0⟩ he

end
end QuOCS

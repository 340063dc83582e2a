/-
Best figure of merit, records and dumped controls: C03, C04, C05, C07 (dump), C10.
`FloatOrder F` covers ordered fields and numbers with `NaN`.
-/
import Verif.Props.Run

set_option linter.unusedSectionVars false

namespace QuOCS

variable {K V C O F : Type} [LE K] [DecidableLE K]
variable [Add F] [Sub F] [Mul F] [Div F] [Neg F] [Zero F] [One F] [NatCast F] [LE F] [LT F] [DecidableLE F]
  [DecidableLT F] [FloatOrder F]
variable (cfg : AlgCfg K F) (env : Env V C F) (ops : CtlOps O V C)

open FloatOrder

theorem dirMul_dirMul (m : Bool) (x : F) : dirMul m (dirMul m x) = x := by
  unfold dirMul; cases m
  · rfl
  · exact FloatOrder.neg_neg x

/-- internal comparison = comparison in the direction of the optimization -/
theorem dirMul_lt (m : Bool) (x y : F) : dirMul m x < dirMul m y ↔ Better m x y := by
  unfold dirMul Better; cases m
  · rfl
  · exact FloatOrder.neg_lt x y

theorem dirMul_le (m : Bool) (x y : F) : dirMul m x ≤ dirMul m y ↔ AtLeastAsGood m x y := by
  unfold dirMul AtLeastAsGood; cases m
  · rfl
  · simp only [if_true, FloatOrder.le_iff, FloatOrder.neg_nan, FloatOrder.neg_lt]
    tauto

theorem dirMul_nan (m : Bool) (x : F) : IsNaN (dirMul m x) ↔ IsNaN x := by
  unfold dirMul; cases m
  · rfl
  · exact FloatOrder.neg_nan x

/-- Invariant: the best figure of merit is a number, no measured value is smaller, it is the initial value or measured. -/
structure BestInv (cfg : AlgCfg K F) (s : AlgState V C O F) : Prop where
  num : ¬ IsNaN s.bestFoM
  le : ∀ c ∈ s.log, ∀ f, c.value = some f → ¬ dirMul cfg.maximize f < s.bestFoM
  init : ¬ cfg.fomMax < s.bestFoM
  mem : s.bestFoM = cfg.fomMax ∨ ∃ c ∈ s.log, ∃ f, c.value = some f ∧ s.bestFoM = dirMul cfg.maximize f

theorem BestInv.step {cfg : AlgCfg K F} {env : Env V C F} {b : Bool} {s s' : AlgState V C O F}
    (h : SimpleEff cfg env b s s') (hs : BestInv cfg s) : BestInv cfg s' := by
  cases h with
  | still hl hb hd hr hp => exact ⟨hb ▸ hs.num, by rw [hl, hb]; exact hs.le, hb ▸ hs.init, by rw [hl, hb]; exact hs.mem⟩
  | raised c hl hc hbf hb hd hr hg =>
    refine ⟨hb ▸ hs.num, ?_, hb ▸ hs.init, ?_⟩
    · intro c' hc' f hf
      rw [hl, List.mem_append, List.mem_singleton] at hc'
      rcases hc' with h | rfl
      · rw [hb]; exact hs.le c' h f hf
      · rw [hc] at hf; cases hf
    · rw [hb]
      refine hs.mem.imp_right ?_
      rintro ⟨c', hc', h⟩
      exact ⟨c', by rw [hl]; exact List.mem_append_left _ hc', h⟩
  | answered x c a f p t i hf hbt hl hb hd hr hr' hg hp hi =>
    have hval : (⟨x, c, .ok a, p, t⟩ : Call V C F).value = some f := hf
    by_cases hlt : dirMul cfg.maximize f < s.bestFoM
    · rw [if_pos hlt] at hb
      refine ⟨hb ▸ (FloatOrder.lt_num _ _ hlt).1, ?_, ?_, .inr ⟨_, ?_, f, hval, hb⟩⟩
      · intro c' hc' g hg'
        rw [hl, List.mem_append, List.mem_singleton] at hc'
        rw [hb]
        rcases hc' with h | rfl
        · intro hlt'
          exact hs.le c' h g hg' (FloatOrder.lt_trans _ _ _ hlt' hlt)
        · rw [hval] at hg'
          cases hg'
          exact FloatOrder.lt_irrefl _
      · rw [hb]
        intro hlt'
        exact hs.init (FloatOrder.lt_trans _ _ _ hlt' hlt)
      · rw [hl]; exact List.mem_append_right _ (List.mem_singleton_self _)
    · rw [if_neg hlt] at hb
      refine ⟨hb ▸ hs.num, ?_, hb ▸ hs.init, ?_⟩
      · intro c' hc' g hg'
        rw [hl, List.mem_append, List.mem_singleton] at hc'
        rw [hb]
        rcases hc' with h | rfl
        · exact hs.le c' h g hg'
        · rw [hval] at hg'
          cases hg'
          exact hlt
      · rw [hb]
        refine hs.mem.imp_right ?_
        rintro ⟨c', hc', h⟩
        exact ⟨c', by rw [hl]; exact List.mem_append_left _ hc', h⟩

theorem BestInv.initial {cfg : AlgCfg K F} (env : Env V C F) (o : O) (h : ¬ IsNaN cfg.fomMax) :
    BestInv cfg (initState cfg env o) :=
  ⟨h, fun c hc => by simp [initState] at hc, FloatOrder.lt_irrefl _, .inl rfl⟩

/-! ### C03: reaching the goal stops the run -/

/-- **C03.** Without re-evaluation and drift compensation: no call except the last one returned a figure of merit that
is at least as good as the goal. So as soon as the goal is reached nothing more is evaluated. -/
theorem C03_goal_stops (hre : NoReEval cfg) (hmax : ¬ IsNaN cfg.fomMax) (dsm : Dsm K V F) (hdr : NoDriftRun cfg dsm)
    (o : O) (goal : F) (hgoal : cfg.userGoal = some goal)
    (before after : List (Call V C F)) (c : Call V C F) (f : F)
    (h : (execute cfg env ops dsm o).2.log = before ++ c :: after) (hc : c.value = some f)
    (hgood : AtLeastAsGood cfg.maximize f goal) : after = [] := by
  have hcg : cfg.goal = some (dirMul cfg.maximize goal) := by
    unfold AlgCfg.goal; rw [hgoal]; rfl
  have hkey : ∀ s : AlgState V C O F, BestInv cfg s → (∀ g, cfg.goal = some g → ¬ s.bestFoM ≤ g) →
      ∀ c ∈ s.log, ∀ f, c.value = some f → ¬ AtLeastAsGood cfg.maximize f goal := by
    intro s hb hg c hc f hf hle
    refine hg _ hcg ?_
    rw [← dirMul_le, FloatOrder.le_iff] at hle
    rw [FloatOrder.le_iff]
    exact ⟨hb.num, hle.2.1, FloatOrder.not_lt_trans _ _ _ hle.1 hle.2.2 (hb.le c hc f hf)⟩
  have hstep : ∀ b (s s' : AlgState V C O F), Act cfg env ops false b s s' →
      BestInv cfg s ∧ (∀ c ∈ s.log.dropLast, ∀ f, c.value = some f → ¬ AtLeastAsGood cfg.maximize f goal) →
      BestInv cfg s' ∧ ∀ c ∈ s'.log.dropLast, ∀ f, c.value = some f → ¬ AtLeastAsGood cfg.maximize f goal := by
    intro b s s' ha hs
    have he := ha.simple hre hdr.1
    refine ⟨hs.1.step he, ?_⟩
    cases he with
    | still hl _ _ _ _ => rw [hl]; exact hs.2
    | raised c hl _ _ _ _ _ hg => rw [hl, List.dropLast_concat]; exact hkey s hs.1 hg
    | answered x c a f p t i _ _ hl _ _ _ _ hg _ _ => rw [hl, List.dropLast_concat]; exact hkey s hs.1 hg
  have hinv := (execute_inv (cfg := cfg) (env := env) (ops := ops) (d := false)
    (fun s => BestInv cfg s ∧ ∀ c ∈ s.log.dropLast, ∀ f, c.value = some f → ¬ AtLeastAsGood cfg.maximize f goal)
    (fun s => BestInv cfg s ∧ ∀ c ∈ s.log.dropLast, ∀ f, c.value = some f → ¬ AtLeastAsGood cfg.maximize f goal)
    dsm o (.inr hdr.2) ⟨.initial env o hmax, fun c h => by simp [initState] at h⟩
    (fun s s' => hstep true s s') (fun s s' => hstep false s s') (fun _ h => h)).1.2
  by_contra hne
  refine hinv c ?_ f hc hgood
  rw [h, List.dropLast_append_cons]
  refine List.mem_append_right _ ?_
  rcases after with _ | ⟨a, l⟩
  · exact absurd rfl hne
  · simp [List.dropLast]

/-- A maximization with goal 6 in which the third of five requested points reaches the goal. -/
example : ((execute (exCfg .dcrab 100 true (some 6) none) (exEnv (exAns [5, 4, 6, 7, 8]) (fun _ => .none)) exOps
    (exDsm [1, 2, 3, 4, 5]) ()).2.log.map (fun c => c.value)) = [some 5, some 4, some 6] := by decide +kernel

/-- **C03.** Also with re-evaluation: whenever the best figure of merit of the algorithm is at least as good as the goal,
no search method (without drift announcements) gets another call of the user's function. -/
theorem C03_search_stops_at_goal {α : Type} (goal : F) (hgoal : cfg.userGoal = some goal) (search : Strat K V F α)
    (hnd : search.NoDrift) (s : AlgState V C O F)
    (hs : AtLeastAsGood cfg.maximize (finalFoM cfg s) goal) :
    (search.interp (algHandler cfg env ops) s).2.log = s.log := by
  have hcg : cfg.goal = some (dirMul cfg.maximize goal) := by
    unfold AlgCfg.goal; rw [hgoal]; rfl
  replace hs : s.bestFoM ≤ dirMul cfg.maximize goal := by
    rw [← dirMul_le] at hs
    unfold finalFoM at hs
    rwa [dirMul_dirMul] at hs
  -- a routine call in such a state stops the run without calling the user
  have hrout : ∀ (s : AlgState V C O F) x it, s.bestFoM ≤ dirMul cfg.maximize goal →
      (routineCall cfg env ops x it s).2.log = s.log ∧
      (isOk (routineCall cfg env ops x it s).1 = true → (routineCall cfg env ops x it s).2.running = false) := by
    intro s x it hb
    have h := routineCall_spec (cfg := cfg) (env := env) (ops := ops) x it s
    generalize routineCall cfg env ops x it s = rs at h
    obtain ⟨r, s'⟩ := rs
    cases h with
    | stopped s1 q hr => exact ⟨q.log, fun _ => hr⟩
    | sigint s1 r e q hk => exact ⟨q.log, fun h => by cases h⟩
    | noControls s1 e q hr hi h => exact ⟨q.log, fun h => by cases h⟩
    | window s1 o c s2 q hr hi h q2 hr2 ha => exact ⟨q2.log.trans q.log, fun _ => hr2⟩
    | windowSigint s1 o c s2 r e q hr hi h q2 hk => exact ⟨q2.log.trans q.log, fun h => by cases h⟩
    | measured s1 o c s2 q hr hi hg ht h q2 hr2 => exact absurd hb (hg _ hcg)
  have frozen : ∀ {β : Type} (m : Prog (AlgState V C O F) β), Traced cfg env ops true m → ∀ s, s.running = false →
      (m s).2.log = s.log := by
    intro β m hm s h
    refine (hm.inv (fun s' => s'.log = s.log ∧ s'.running = false) ?_ s ⟨rfl, h⟩).1
    intro b s1 s2 ha hs
    cases ha.eff with
    | still hl _ _ hr _ => exact ⟨hl.trans hs.1, hr hs.2⟩
    | counted hl _ _ hr _ _ => rw [hs.2] at hr; cases hr
    | measured c hl _ _ hr _ _ _ _ _ _ => rw [hs.2] at hr; cases hr
  -- an operation of the search: no call, and afterwards the best is as good or the run is stopped
  have quiet_bind : ∀ {β γ : Type} (m : Prog (AlgState V C O F) β) (f : β → Prog (AlgState V C O F) γ) s,
      (m s).2.log = s.log → (∀ a s', m s = (.ok a, s') → (f a s').2.log = s'.log) → ((m >>= f) s).2.log = s.log := by
    intro β γ m f s h1 h2
    rw [Prog.bind_apply]
    rcases hm : m s with ⟨e | a, s'⟩
    · rw [hm] at h1; exact h1
    · rw [hm] at h1; exact (h2 a s' hm).trans h1
  induction search generalizing s with
  | ret a => rfl
  | op op k ih =>
    rw [Strat.interp_op]
    have hk : ∀ r, Traced cfg env ops true ((k r).interp (algHandler cfg env ops)) := fun r => .interp _ (.inl rfl)
    -- operations that leave everything but the stopping criteria alone
    have hq : (∃ q : AlgState V C O F → Prop, (∀ s', q s' → (s'.log = s.log ∧ s'.bestFoM = s.bestFoM)) ∧
        q (algHandler cfg env ops op s).2) →
        ((algHandler cfg env ops op >>= fun r => (k r).interp (algHandler cfg env ops)) s).2.log = s.log := by
      rintro ⟨q, hq, hqs⟩
      have := hq _ hqs
      refine quiet_bind _ _ s this.1 fun a s' hm => ?_
      rw [hm] at this
      exact ih a (hnd.2 a) s' (this.2 ▸ hs)
    have quietH : ∀ s', Quiet env s s' → s'.log = s.log ∧ s'.bestFoM = s.bestFoM := fun s' q => ⟨q.log, q.bestFoM⟩
    have pollH : (poll cfg env s).2.log = s.log ∧ (poll cfg env s).2.bestFoM = s.bestFoM := by
      rcases poll_cases (cfg := cfg) (env := env) s with ⟨_, q⟩ | ⟨_, e, h2⟩
      · exact ⟨q.log, q.bestFoM⟩
      · rw [h2]; exact ⟨rfl, rfl⟩
    cases op with
    | eval x it =>
      refine quiet_bind _ _ s ?_ ?_
      · show (if cfg.kind = .grape then innerGrape cfg env ops x else innerCall cfg env ops x it : Prog _ F) s |>.2.log = s.log
        by_cases hkd : cfg.kind = .grape
        · rw [if_pos hkd]
          unfold innerGrape
          rw [Prog.modify_bind]
          refine (quiet_bind _ _ ({ s with isRecord := false } : AlgState V C O F) ?_ ?_)
          · unfold gradientControls
            dsimp only
            split <;> rfl
          · intro _ s' hm
            refine (hrout s' x 0 ?_).1
            unfold gradientControls at hm
            dsimp only at hm
            split at hm <;> cases hm
            exact hs
        · rw [if_neg hkd]
          unfold innerCall
          rw [Prog.modify_bind]
          have hr := hrout { s with isRecord := false, stepNumber := 0 } x it hs
          refine (quiet_bind _ _ ({ s with isRecord := false, stepNumber := 0 } : AlgState V C O F) hr.1 ?_)
          intro f s' hm
          rw [hm] at hr
          have hr' : s'.running = false := hr.2 rfl
          rcases hre : cfg.reEval with _ | steps
          · rfl
          · have hne : cfg.reEval ≠ none := by rw [hre]; simp
            refine frozen _ ?_ s' hr'
            refine .bind .get fun s => .bind (.modify fun s => ?_) fun _ => .bind (.storeTest hkd hne 0 f) fun _ => ?_
            · exact .tests true s _ _ s.stepNumber hkd hne (by simp) (by simp)
            · rcases (if s.iter = 1 then [cfg.half] else steps).getLast? with _ | last
              · exact .raise _
              · exact .reEvalLoop hkd hne x it last _ 0
      · intro a s' hm
        refine frozen _ (hk a) s' ?_
        have hm : (if cfg.kind = .grape then innerGrape cfg env ops x else innerCall cfg env ops x it : Prog _ F) s
          = (.ok a, s') := hm
        have stays : ∀ {β : Type} (m : Prog (AlgState V C O F) β), Traced cfg env ops true m → ∀ s, s.running = false →
            (m s).2.running = false := by
          intro β m hm s h
          refine (hm.inv (fun s' => s'.running = false) ?_ s h)
          intro b s1 s2 ha hs
          cases ha.eff with
          | still hl _ _ hr _ => exact hr hs
          | counted hl _ _ hr _ _ => rw [hs] at hr; cases hr
          | measured c hl _ _ hr _ _ _ _ _ _ => rw [hs] at hr; cases hr
        by_cases hkd : cfg.kind = .grape
        · rw [if_pos hkd] at hm
          unfold innerGrape at hm
          rw [Prog.modify_bind, Prog.bind_apply] at hm
          unfold gradientControls at hm
          dsimp only at hm
          rcases hgc : ops.getControls s.ctl x with e | ⟨o, c⟩
          · rw [hgc] at hm; cases hm
          · rw [hgc] at hm
            dsimp only at hm
            have hr := (hrout { s with isRecord := false, ctl := o } x 0 hs).2
            rw [hm] at hr
            exact hr rfl
        · rw [if_neg hkd] at hm
          unfold innerCall at hm
          rw [Prog.modify_bind, Prog.bind_apply] at hm
          have hr := (hrout { s with isRecord := false, stepNumber := 0 } x it hs).2
          rcases hrc : routineCall cfg env ops x it { s with isRecord := false, stepNumber := 0 } with ⟨e | f, s1⟩
          · rw [hrc] at hm; cases hm
          · rw [hrc] at hm hr
            have hr1 : s1.running = false := hr rfl
            dsimp only at hm
            rcases hre : cfg.reEval with _ | steps
            · rw [hre] at hm
              cases hm
              exact hr1
            · have hne : cfg.reEval ≠ none := by rw [hre]; simp
              rw [hre] at hm
              dsimp only at hm
              have := congrArg (fun z => z.2.running) hm
              refine this.symm.trans ?_
              refine stays _ ?_ s1 hr1
              refine .bind .get fun s => .bind (.modify fun s => ?_) fun _ => .bind (.storeTest hkd hne 0 f) fun _ => ?_
              · exact .tests true s _ _ s.stepNumber hkd hne (by simp) (by simp)
              · rcases (if s.iter = 1 then [cfg.half] else steps).getLast? with _ | last
                · exact .raise _
                · exact .reEvalLoop hkd hne x it last _ 0
    | drift x it v => exact absurd rfl (hnd.1 x it v)
    | readConv =>
      refine hq ⟨fun s' => s' = (poll cfg env s).2, fun s' h => h ▸ pollH, ?_⟩
      show ((poll cfg env >>= fun _ => _) s).2 = _
      rw [Prog.bind_apply]
      rcases poll cfg env s with ⟨e | u, s'⟩ <;> rfl
    | setConv b => exact hq ⟨Quiet env s, quietH, quiet_withSc _ s⟩
    | callback =>
      refine hq ⟨fun s' => s' = (poll cfg env s).2, fun s' h => h ▸ pollH, ?_⟩
      show ((poll cfg env >>= fun _ => _) s).2 = _
      rw [Prog.bind_apply]
      rcases poll cfg env s with ⟨e | u, s'⟩ <;> rfl
    | userStop => exact hq ⟨Quiet env s, quietH, quiet_withSc _ s⟩
    | checkNM size fsim calls =>
      refine hq ⟨Quiet env s, quietH, ?_⟩
      show Quiet env s ((readClock env >>= fun now => Prog.get >>= fun s0 => Prog.lift (nmCheck env.sqrt cfg.sc s0.sc size fsim calls now)
        >>= fun sc => withSc (fun _ => sc)) s).2
      have e1 : (readClock env : Prog (AlgState V C O F) ℚ) s = (.ok (env.clock s.ticks), { s with ticks := s.ticks + 1 }) := rfl
      rw [Prog.bind_ok e1, Prog.get_bind, Prog.bind_apply, Prog.lift_apply]
      rcases nmCheck env.sqrt cfg.sc s.sc size fsim calls (env.clock s.ticks) with e | sc
      · exact quiet_readClock s
      · exact (quiet_readClock s).trans (quiet_withSc _ _)
    | checkCMA fsim calls =>
      exact hq ⟨Quiet env s, quietH, (quiet_readClock s).trans
        (quiet_withSc (fun sc => cmaCheck env.sqrt cfg.sc sc fsim calls (env.clock s.ticks)) _)⟩
    | now => exact hq ⟨Quiet env s, quietH, quiet_readClock s⟩
    | reason => exact hq ⟨Quiet env s, quietH, .refl _ _⟩
    | fail e => exact hq ⟨Quiet env s, quietH, .refl _ _⟩

/-- With re-evaluation (one step, threshold 1/2): the point 3 is measured at 1 and re-measured at 1, its mean reaches the
goal 2, and the remaining points 4 and 5 are not evaluated. -/
example : ((execute (exCfg .dcrab 100 false (some 2) (some [1 / 2])) (exEnv (exAns [5, 5, 6, 1, 1, 0, 0]) (fun _ => .none))
    exOps (exDsm [1, 2, 3, 4, 5]) ()).2.log.map (fun c => (c.vec, c.value))) =
    [(1, some 5), (1, some 5), (2, some 6), (3, some 1), (3, some 1)] := by decide +kernel

/-- The state after such a search: its best value 1 is at least as good as the goal 2, so every further search is frozen. -/
example : AtLeastAsGood false (finalFoM (exCfg .dcrab 100 false (some 2) (some [1 / 2]))
    ((evalPoints (K := ℚ) 0 0 [1, 2, 3] 0 : Strat ℚ ℚ ℚ _).interp (algHandler (exCfg .dcrab 100 false (some 2) (some [1 / 2]))
      (exEnv (exAns [5, 5, 6, 1, 1, 0, 0]) (fun _ => .none)) exOps)
      (initState (exCfg .dcrab 100 false (some 2) (some [1 / 2])) (exEnv (exAns [5, 5, 6, 1, 1, 0, 0]) (fun _ => .none)) ())).2)
    2 := by
  unfold AtLeastAsGood; decide +kernel

end QuOCS

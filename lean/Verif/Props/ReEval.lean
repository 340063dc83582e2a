/-
Re-evaluation of promising points: C34, C35, C36.
-/
import Verif.Spec.ReEval
import Verif.Props.Run
import Mathlib.Data.List.ReduceOption

set_option linter.unusedSectionVars false

namespace QuOCS

variable {K V C O F : Type} [LE K] [DecidableLE K] [Field F] [LinearOrder F] [IsStrictOrderedRing F]
variable (cfg : AlgCfg K F) (env : Env V C F) (ops : CtlOps O V C)

/-- what is not touched by a single measurement under re-evaluation -/
structure Kept (s s' : AlgState V C O F) : Prop where
  bestFoM : s'.bestFoM = s.bestFoM
  bestSigma : s'.bestSigma = s.bestSigma
  bestXX : s'.bestXX = s.bestXX
  isRecord : s'.isRecord = s.isRecord
  mono : s.running = false → s'.running = false

theorem Kept.refl (s : AlgState V C O F) : Kept s s := ⟨rfl, rfl, rfl, rfl, id⟩
theorem Kept.trans {s s' s'' : AlgState V C O F} (h : Kept s s') (h' : Kept s' s'') : Kept s s'' :=
  ⟨h'.bestFoM.trans h.bestFoM, h'.bestSigma.trans h.bestSigma, h'.bestXX.trans h.bestXX, h'.isRecord.trans h.isRecord,
    fun hr => h'.mono (h.mono hr)⟩

/-- a single measurement under re-evaluation -/
inductive Shot (cfg : AlgCfg K F) (x : V) (s : AlgState V C O F) : Py F → AlgState V C O F → Prop
  | answer (s' c a f) (hl : s'.log = s.log ++ [c]) (hx : c.vec = x) (h : c.ans = .ok a) (hf : a.fom = some f)
      (hstd : s'.fomDict.std = a.std) (hk : Kept s s') (h1 : s'.stepNumber = s.stepNumber)
      (h2 : s'.fomTest = s.fomTest) (h3 : s'.sigmaTest = s.sigmaTest) :
      Shot cfg x s (.ok (dirMul cfg.maximize f)) s'
  | skipped (s') (hl : s'.log = s.log) (hr : s'.running = false) (hk : Kept s s') (h1 : s'.stepNumber = s.stepNumber)
      (h2 : s'.fomTest = s.fomTest) (h3 : s'.sigmaTest = s.sigmaTest) : Shot cfg x s (.ok cfg.fomMax) s'
  | raised (s' e cs) (hl : s'.log = s.log ++ cs) (hx : ∀ c ∈ cs, c.vec = x) (hn : cs.length ≤ 1) (hk : Kept s s') :
      Shot cfg x s (.error e) s'

theorem routine_shot (hre : cfg.reEval.isSome = true) (hkind : cfg.kind ≠ .grape) (x : V) (it : ℕ)
    (s : AlgState V C O F) : Shot cfg x s (routineCall cfg env ops x it s).1 (routineCall cfg env ops x it s).2 := by
  have h := routineCall_spec (cfg := cfg) (env := env) (ops := ops) x it s
  generalize routineCall cfg env ops x it s = rs at h
  obtain ⟨r, s'⟩ := rs
  dsimp only at h ⊢
  have hno : ¬ (cfg.kind = .grape ∨ cfg.reEval.isNone = true) := by
    rintro (h | h)
    · exact hkind h
    · rw [Option.isNone_iff_eq_none] at h; rw [h] at hre; cases hre
  have qk : ∀ {a b : AlgState V C O F}, Quiet env a b → Kept a b ∧ b.stepNumber = a.stepNumber ∧
      b.fomTest = a.fomTest ∧ b.sigmaTest = a.sigmaTest ∧ b.log = a.log := by
    intro a b q
    refine ⟨⟨?_, ?_, ?_, ?_, q.mono⟩, ?_, ?_, ?_, ?_⟩ <;> rw [q.frame]
  cases h with
  | stopped s1 q hr =>
    obtain ⟨k, a1, a2, a3, a4⟩ := qk q
    exact .skipped _ a4 hr k a1 a2 a3
  | sigint s1 r e q hk =>
    obtain ⟨k, a1, a2, a3, a4⟩ := qk q
    exact .raised _ _ [] (by simpa using a4) (by simp) (by simp) ⟨k.1, k.2, k.3, k.4, k.5⟩
  | noControls s1 e q hr hi h =>
    obtain ⟨k, a1, a2, a3, a4⟩ := qk q
    exact .raised _ _ [] (by simpa using a4) (by simp) (by simp) ⟨k.1, k.2, k.3, k.4, k.5⟩
  | window s1 o c s2 q hr hi h q2 hr2 ha =>
    obtain ⟨k, a1, a2, a3, a4⟩ := qk q
    obtain ⟨k', b1, b2, b3, b4⟩ := qk q2
    have k1 : Kept s { s1 with xx := some x, algIter := it, iter := s.iter + 1, ctl := o, commCtl := some c, signals := s1.signals ++ [.controls c] } :=
      ⟨k.1, k.2, k.3, k.4, k.5⟩
    exact .skipped _ (b4.trans a4) hr2 (k1.trans k') (b1.trans a1) (b2.trans a2) (b3.trans a3)
  | windowSigint s1 o c s2 r e q hr hi h q2 hk =>
    obtain ⟨k, a1, a2, a3, a4⟩ := qk q
    obtain ⟨k', b1, b2, b3, b4⟩ := qk q2
    have k1 : Kept s { s1 with xx := some x, algIter := it, iter := s.iter + 1, ctl := o, commCtl := some c, signals := s1.signals ++ [.controls c] } :=
      ⟨k.1, k.2, k.3, k.4, k.5⟩
    have k2 := k1.trans k'
    exact .raised _ _ [] (by simpa using b4.trans a4) (by simp) (by simp) ⟨k2.1, k2.2, k2.3, k2.4, k2.5⟩
  | measured s1 o c s2 q hr hi hg ht h q2 hr2 =>
    obtain ⟨k, a1, a2, a3, a4⟩ := qk q
    obtain ⟨k', b1, b2, b3, b4⟩ := qk q2
    have k1 : Kept s { s1 with xx := some x, algIter := it, iter := s.iter + 1, ctl := o, commCtl := some c, signals := s1.signals ++ [.controls c] } :=
      ⟨k.1, k.2, k.3, k.4, k.5⟩
    have k2 := k1.trans k'
    have hl2 : s2.log = s.log := b4.trans a4
    rcases hans : env.getFoM s2.log c with e | a
    · rw [measure_raised x c s2 e hans]
      exact .raised _ _ [⟨x, c, .error e, s2.polls, s2.ticks⟩] (by simp [hl2]) (by simp) (by simp)
        ⟨k2.1, k2.2, k2.3, k2.4, k2.5⟩
    · rcases hf : a.fom with _ | f
      · rw [measure_noValue x c s2 a hans hf]
        exact .raised _ _ [⟨x, c, .ok a, s2.polls, s2.ticks⟩] (by simp [hl2]) (by simp) (by simp)
          ⟨k2.1, k2.2, k2.3, k2.4, k2.5⟩
      · obtain ⟨fl, il, sc', hm⟩ := measure_answered (cfg := cfg) (env := env) x c s2 a f hans hf
        rw [hm]
        refine .answer _ ⟨x, c, .ok a, s2.polls, s2.ticks⟩ a f (by simp [hl2]) rfl rfl hf rfl ?_ (b1.trans a1)
          (b2.trans a2) (b3.trans a3)
        refine ⟨?_, k2.2, ?_, ?_, ?_⟩
        · simp only [hno, false_and, if_false]; exact k2.1
        · simp only [hno, false_and, if_false]; exact k2.3
        · simp only [hno, false_and, if_false]; exact k2.4
        · intro h
          have := k2.5 h
          rw [hr2] at this; cases this

/-- The table of measurements: `ms` obtained so far, room for `k` more. -/
structure Table (s : AlgState V C O F) (ms : List (F × F)) (k : ℕ) : Prop where
  step : s.stepNumber = ms.length
  fom : s.fomTest = ms.map Prod.fst ++ List.replicate k 0
  sigma : s.sigmaTest = ms.map Prod.snd ++ List.replicate k 0

theorem Table.average {s : AlgState V C O F} {ms : List (F × F)} {k : ℕ} (h : Table s ms k) :
    averageSum s = (average (ms.map Prod.fst), average (ms.map Prod.snd)) := by
  unfold averageSum QuOCS.average
  rw [h.step, h.fom, h.sigma]
  simp

theorem probBetter_eq (m1 s1 m2 s2 : F) :
    probBetter cfg env m1 s1 m2 s2 = probSmaller env cfg.tiny m1 s1 m2 s2 := by
  have habs : ∀ y : F, pyAbs y = |y| := by
    intro y
    unfold pyAbs
    split
    · rename_i h; rw [abs_of_neg h]
    · rename_i h; rw [abs_of_nonneg (not_lt.1 h)]
  unfold probBetter probSmaller
  simp only [habs]

/-- the probability of being better than the best point, from measurements `ms` -/
def passProb (cfg : AlgCfg K F) (env : Env V C F) (best sig : F) (ms : List (F × F)) : F :=
  probSmaller env cfg.tiny (average (ms.map Prod.fst)) (average (ms.map Prod.snd)) best sig

/-- outcome of the re-evaluation loop -/
inductive LoopOut (cfg : AlgCfg K F) (env : Env V C F) (x : V) (last : F) (ps : List F) (ms : List (F × F))
    (s : AlgState V C O F) : Py F → AlgState V C O F → Prop
  | done (s' rs new) (hl : s'.log = s.log ++ rs.reduceOption) (hx : ∀ c, some c ∈ rs → c.vec = x)
      (ho : List.Forall₂ (Obtained cfg) rs new) (hn : new.length ≤ ps.length) (hk : Kept s s')
      (hr : s'.running = true → ∀ r ∈ rs, r.isSome = true) :
      LoopOut cfg env x last ps ms s (.ok (average ((ms ++ new).map Prod.fst))) s'
  | record (r s' rs new) (hl : s'.log = s.log ++ rs.reduceOption) (hx : ∀ c, some c ∈ rs → c.vec = x)
      (ho : List.Forall₂ (Obtained cfg) rs new) (hn : new.length = ps.length)
      (hp : ∀ i (h : i < ps.length), ¬ passProb cfg env s.bestFoM s.bestSigma (ms ++ new.take i) < ps[i])
      (hlast : last < passProb cfg env s.bestFoM s.bestSigma (ms ++ new))
      (hb : s'.bestFoM = average ((ms ++ new).map Prod.fst)) (hs : s'.bestSigma = average ((ms ++ new).map Prod.snd))
      (hrun : s.running = false → s'.running = false)
      (hr : s'.running = true → ∀ r ∈ rs, r.isSome = true)
      (hok : ∀ f, r = .ok f → f = average ((ms ++ new).map Prod.fst)) : LoopOut cfg env x last ps ms s r s'
  | raised (e s' cs) (hl : s'.log = s.log ++ cs) (hx : ∀ c ∈ cs, c.vec = x) (hn : cs.length ≤ ps.length)
      (hk : Kept s s') : LoopOut cfg env x last ps ms s (.error e) s'

theorem storeTest_ok {s : AlgState V C O F} {ms : List (F × F)} {k : ℕ} (h : Table s ms (k + 1)) (f : F) :
    (storeTest ms.length f s).1 = .ok () ∧ Table (storeTest ms.length f s).2 (ms ++ [(f, s.fomDict.std.getD 1)]) k ∧
    (storeTest ms.length f s).2.log = s.log ∧ Kept s (storeTest ms.length f s).2 ∧
    (storeTest ms.length f s).2.running = s.running := by
  have set_eq : ∀ (l : List F) (v : F), l.length = ms.length →
      (l ++ List.replicate (k + 1) 0).set ms.length v = (l ++ [v]) ++ List.replicate k 0 := by
    intro l v hl
    rw [← hl, List.set_append_right _ _ le_rfl, List.replicate_succ]
    simp
  have e1 : setIdx s.fomTest ms.length f = .ok ((ms ++ [(f, s.fomDict.std.getD 1)]).map Prod.fst ++ List.replicate k 0) := by
    unfold setIdx
    rw [h.fom, if_pos (by simp), set_eq _ _ (by simp)]
    simp
  have e2 : setIdx s.sigmaTest ms.length (s.fomDict.std.getD 1) =
      .ok ((ms ++ [(f, s.fomDict.std.getD 1)]).map Prod.snd ++ List.replicate k 0) := by
    unfold setIdx
    rw [h.sigma, if_pos (by simp), set_eq _ _ (by simp)]
    simp
  unfold storeTest
  rw [e1]
  dsimp only
  rw [e2]
  exact ⟨rfl, ⟨by simp [h.step], rfl, rfl⟩, rfl, ⟨rfl, rfl, rfl, rfl, id⟩, rfl⟩

theorem finish_out (x : V) (last : F) (ms : List (F × F)) (k : ℕ) (s : AlgState V C O F) (hT : Table s ms k) :
    LoopOut cfg env x last [] ms s (reEvalFinish cfg env last s).1 (reEvalFinish cfg env last s).2 := by
  unfold reEvalFinish
  rw [hT.average]
  dsimp only
  rw [probBetter_eq]
  split
  · rename_i h
    rcases s.xx with _ | y
    · exact .record _ _ [] [] (by simp [List.reduceOption]) (by simp) .nil rfl (by simp) (by simpa [passProb] using h) (by simp) (by simp) id
        (by simp) (fun f hf => by cases hf)
    · refine .record _ _ [] [] ?_ (by simp) .nil rfl (by simp) (by simpa [passProb] using h) ?_ ?_ ?_
        (by simp) ?_
      · simp [dumpControls, List.reduceOption]
      · simp [dumpControls]
      · simp [dumpControls]
      · simp [dumpControls]
      · intro f hf
        simp [dumpControls] at hf
        simp [← hf]
  · have := LoopOut.done (cfg := cfg) (env := env) (x := x) (last := last) (ps := []) (ms := ms) (s := s) s [] [] (by simp [List.reduceOption])
      (by simp) .nil le_rfl (Kept.refl s) (by simp)
    simpa using this

theorem loop_out (hre : cfg.reEval.isSome = true) (hkind : cfg.kind ≠ .grape) (x : V) (it : ℕ) (last : F)
    (ps : List F) (ms : List (F × F)) (k : ℕ) (s : AlgState V C O F) (hT : Table s ms (ps.length + k)) (i : ℕ)
    (hi : i + 1 = ms.length) :
    LoopOut cfg env x last ps ms s (reEvalLoop cfg env ops x it last i ps s).1
      (reEvalLoop cfg env ops x it last i ps s).2 := by
  induction ps generalizing ms i s with
  | nil => exact finish_out cfg env x last ms _ s hT
  | cons p ps ih =>
    unfold reEvalLoop
    rw [Prog.get_bind, hT.average, probBetter_eq]
    by_cases hlt : probSmaller env cfg.tiny (average (ms.map Prod.fst)) (average (ms.map Prod.snd)) s.bestFoM s.bestSigma < p
    · rw [if_pos hlt]
      have := LoopOut.done (cfg := cfg) (env := env) (x := x) (last := last) (ps := p :: ps) (ms := ms) (s := s) s [] []
        (by simp [List.reduceOption]) (by simp) .nil (by simp) (Kept.refl s) (by simp)
      simpa using this
    · rw [if_neg hlt]
      have hshot := routine_shot cfg env ops hre hkind x it s
      rcases hrc : routineCall cfg env ops x it s with ⟨r, s1⟩
      rw [hrc] at hshot
      dsimp only at hshot
      rw [Prog.bind_apply, hrc]
      -- continuing after a value was obtained
      have cont : ∀ (v : F) (o : Option (Call V C F)) (hl : s1.log = s.log ++ [o].reduceOption)
          (hx : ∀ c, o = some c → c.vec = x) (ho : Obtained cfg o (v, s1.fomDict.std.getD 1)) (hk : Kept s s1)
          (h1 : s1.stepNumber = s.stepNumber) (h2 : s1.fomTest = s.fomTest) (h3 : s1.sigmaTest = s.sigmaTest)
          (hr : s1.running = true → o.isSome = true),
          LoopOut cfg env x last (p :: ps) ms s
            ((storeTest (i + 1) v >>= fun _ => reEvalLoop cfg env ops x it last (i + 1) ps) s1).1
            ((storeTest (i + 1) v >>= fun _ => reEvalLoop cfg env ops x it last (i + 1) ps) s1).2 := by
        intro v o hl hx ho hk h1 h2 h3 hr
        have hT1 : Table s1 ms ((ps.length + k) + 1) :=
          ⟨h1.trans hT.step, by rw [h2, hT.fom, List.length_cons, Nat.add_right_comm],
            by rw [h3, hT.sigma, List.length_cons, Nat.add_right_comm]⟩
        obtain ⟨q1, q2, q3, q4, q5⟩ := storeTest_ok hT1 v
        rw [hi]
        rcases hst : storeTest ms.length v s1 with ⟨r2, s2⟩
        rw [hst] at q1 q2 q3 q4 q5
        dsimp only at q1 q2 q3 q4 q5
        subst q1
        rw [Prog.bind_ok hst]
        have := ih (ms ++ [(v, s1.fomDict.std.getD 1)]) s2 q2 ms.length (by simp)
        generalize reEvalLoop cfg env ops x it last ms.length ps s2 = out at this
        obtain ⟨r3, s3⟩ := out
        dsimp only at this ⊢
        have hk2 : Kept s s2 := hk.trans q4
        have hrunback : s3.running = true → (s2.running = false → s3.running = false) → o.isSome = true := by
          intro h3 hm
          refine hr ?_
          rw [← q5]
          by_contra hf
          rw [hm (by simpa using hf)] at h3
          cases h3
        cases this with
        | done s' rs new hl' hx' ho' hn' hk' hr' =>
          have hgoal := LoopOut.done (cfg := cfg) (env := env) (x := x) (last := last) (ps := p :: ps) (ms := ms) (s := s)
            s3 (o :: rs) ((v, s1.fomDict.std.getD 1) :: new) ?_ ?_ (.cons ho ho') (by simpa using hn') (hk2.trans hk') ?_
          · simpa using hgoal
          · rw [hl', q3, hl, List.append_assoc, ← List.reduceOption_append]; rfl
          · intro c hc
            rcases List.mem_cons.1 hc with h | h
            · exact hx c h.symm
            · exact hx' c h
          · intro h r hmem
            rcases List.mem_cons.1 hmem with rfl | h'
            · exact hrunback h hk'.mono
            · exact hr' h r h'
        | record r s' rs new hl' hx' ho' hn' hp' hlast' hb' hs' hrun' hr' hok' =>
          refine .record _ _ (o :: rs) ((v, s1.fomDict.std.getD 1) :: new) ?_ ?_ (.cons ho ho') (by simpa using hn') ?_ ?_
            (by simpa using hb') (by simpa using hs') (fun h => hrun' (hk2.mono h)) ?_ (by simpa using hok')
          · rw [hl', q3, hl, List.append_assoc, ← List.reduceOption_append]; rfl
          · intro c hc
            rcases List.mem_cons.1 hc with h | h
            · exact hx c h.symm
            · exact hx' c h
          · intro j hj
            rcases j with _ | j
            · simpa [passProb] using hlt
            · have := hp' j (by simpa using hj)
              rw [hk2.bestFoM, hk2.bestSigma] at this
              simpa using this
          · rw [hk2.bestFoM, hk2.bestSigma] at hlast'
            simpa using hlast'
          · intro h r hmem
            rcases List.mem_cons.1 hmem with rfl | h'
            · exact hrunback h hrun'
            · exact hr' h r h'
        | raised e s' cs hl' hx' hn' hk' =>
          refine .raised _ _ ([o].reduceOption ++ cs) ?_ ?_ ?_ (hk2.trans hk')
          · rw [hl', q3, hl, List.append_assoc]
          · intro c hc
            rcases List.mem_append.1 hc with h | h
            · rw [List.reduceOption_mem_iff] at h
              exact hx c (by simpa [eq_comm] using h)
            · exact hx' c h
          · have := List.reduceOption_length_le [o]
            simp at this ⊢
            omega
      cases hshot with
      | answer _ c a f hl hx h hf hstd hk h1 h2 h3 =>
        refine cont (dirMul cfg.maximize f) (some c) (by simpa [List.reduceOption] using hl) (fun c' hc' => by cases hc'; exact hx) ?_ hk h1 h2 h3
          (fun _ => rfl)
        rw [hstd]
        exact .answer c a f h hf
      | skipped _ hl hr hk h1 h2 h3 =>
        exact cont cfg.fomMax none (by simpa [List.reduceOption] using hl) (fun c' hc' => by cases hc') (.placeholder _) hk h1 h2 h3
          (fun h => by rw [hr] at h; cases h)
      | raised _ e cs hl hx hn hk =>
        exact .raised _ _ cs hl hx (by simp; omega) hk

theorem routineCall_iter_le (x : V) (it : ℕ) (s : AlgState V C O F) :
    s.iter ≤ (routineCall cfg env ops x it s).2.iter := by
  have h := routineCall_spec (cfg := cfg) (env := env) (ops := ops) x it s
  generalize routineCall cfg env ops x it s = rs at h
  obtain ⟨r, s'⟩ := rs
  have qi : ∀ {a b : AlgState V C O F}, Quiet env a b → b.iter = a.iter := fun q => by rw [q.frame]
  cases h with
  | stopped s1 q hr => exact (qi q).ge
  | sigint s1 r e q hk => exact (qi q).ge
  | noControls s1 e q hr hi h => exact Nat.le_succ _
  | window s1 o c s2 q hr hi h q2 hr2 ha => rw [qi q2]; exact Nat.le_succ _
  | windowSigint s1 o c s2 r e q hr hi h q2 hk => show s.iter ≤ s2.iter; rw [qi q2]; exact Nat.le_succ _
  | measured s1 o c s2 q hr hi hg ht h q2 hr2 =>
    have : s2.iter = s.iter + 1 := qi q2
    rcases hans : env.getFoM s2.log c with e | a
    · rw [measure_raised x c s2 e hans]; show s.iter ≤ s2.iter; omega
    · rcases hf : a.fom with _ | f
      · rw [measure_noValue x c s2 a hans hf]; show s.iter ≤ s2.iter; omega
      · obtain ⟨fl, il, sc', hm⟩ := measure_answered (cfg := cfg) (env := env) x c s2 a f hans hf
        rw [hm]; show s.iter ≤ s2.iter; omega

/-- A requested point under re-evaluation. `used` are the thresholds in use: those of the settings, or `[0.5]` for the
very first evaluation of a run. -/
theorem inner_out (steps : List F) (hre : cfg.reEval = some steps) (hsteps : steps ≠ []) (hkind : cfg.kind ≠ .grape)
    (x : V) (it : ℕ) (s : AlgState V C O F) (hft : s.fomTest.length = steps.length + 1)
    (hst : s.sigmaTest.length = steps.length + 1) :
    (∃ e s1 cs, innerCall cfg env ops x it s = (.error e, s1) ∧ s1.log = s.log ++ cs ∧ (∀ c ∈ cs, c.vec = x) ∧
      cs.length ≤ 1 ∧ s1.bestFoM = s.bestFoM ∧ s1.isRecord = false) ∨
    ∃ s1 o m used last, Obtained cfg o m ∧ s1.log = s.log ++ [o].reduceOption ∧ (∀ c, o = some c → c.vec = x) ∧
      s1.bestFoM = s.bestFoM ∧ s1.bestSigma = s.bestSigma ∧ s1.isRecord = false ∧
      (s1.running = true → o.isSome = true) ∧ (s.running = false → s1.running = false) ∧
      (used = steps ∨ used = [cfg.half] ∧ s.iter ≤ 1) ∧ used.getLast? = some last ∧
      LoopOut cfg env x last used [m] s1 (innerCall cfg env ops x it s).1 (innerCall cfg env ops x it s).2 := by
  have hisSome : cfg.reEval.isSome = true := by rw [hre]; rfl
  set s0 : AlgState V C O F := { s with isRecord := false, stepNumber := 0 } with hs0
  have hshot := routine_shot cfg env ops hisSome hkind x it s0
  rcases hrc : routineCall cfg env ops x it s0 with ⟨r, s1⟩
  rw [hrc] at hshot
  dsimp only at hshot
  have hzero : ∀ l : List F, l.map (fun v => 0 * v) = List.replicate l.length 0 := by
    intro l
    simp only [zero_mul]
    exact List.map_const'
  have cont : ∀ (v : F) (o : Option (Call V C F)) (hres : r = .ok v) (hl : s1.log = s.log ++ [o].reduceOption)
      (hx : ∀ c, o = some c → c.vec = x) (ho : Obtained cfg o (v, s1.fomDict.std.getD 1)) (hk : Kept s0 s1)
      (h1 : s1.stepNumber = 0) (h2 : s1.fomTest = s.fomTest) (h3 : s1.sigmaTest = s.sigmaTest)
      (hr : s1.running = true → o.isSome = true) (hiter : s1.iter = 1 → s.iter ≤ 1),
      ∃ s1 o m used last, Obtained cfg o m ∧ s1.log = s.log ++ [o].reduceOption ∧ (∀ c, o = some c → c.vec = x) ∧
      s1.bestFoM = s.bestFoM ∧ s1.bestSigma = s.bestSigma ∧ s1.isRecord = false ∧
      (s1.running = true → o.isSome = true) ∧ (s.running = false → s1.running = false) ∧
      (used = steps ∨ used = [cfg.half] ∧ s.iter ≤ 1) ∧ used.getLast? = some last ∧
      LoopOut cfg env x last used [m] s1 (innerCall cfg env ops x it s).1 (innerCall cfg env ops x it s).2 := by
    intro v o hres hl hx ho hk h1 h2 h3 hr hiter
    subst hres
    set used := if s1.iter = 1 then [cfg.half] else steps with hused
    have hune : used ≠ [] := by rw [hused]; split <;> simp [hsteps]
    have hulen : used.length ≤ steps.length := by
      rw [hused]; split
      · exact List.length_pos_iff.2 hsteps
      · exact le_rfl
    obtain ⟨last, hlast⟩ : ∃ last, used.getLast? = some last := ⟨_, List.getLast?_eq_some_getLast hune⟩
    set s2 : AlgState V C O F :=
      { s1 with fomTest := s1.fomTest.map (fun v => 0 * v), sigmaTest := s1.sigmaTest.map (fun v => 0 * v) } with hs2
    have hT : Table s2 ([] : List (F × F)) (steps.length + 1) :=
      ⟨h1, by rw [hs2]; simp only [hzero, h2, hft]; rfl, by rw [hs2]; simp only [hzero, h3, hst]; rfl⟩
    obtain ⟨q1, q2, q3, q4, q5⟩ := storeTest_ok hT v
    rcases hstt : storeTest ([] : List (F × F)).length v s2 with ⟨r2, s3⟩
    rw [hstt] at q1 q2 q3 q4 q5
    dsimp only at q1 q2 q3 q4 q5
    subst q1
    have hinner : innerCall cfg env ops x it s = reEvalLoop cfg env ops x it last 0 used s3 := by
      unfold innerCall
      rw [Prog.modify_bind, Prog.bind_ok hrc, hre]
      dsimp only
      rw [Prog.get_bind, Prog.modify_bind]
      refine (Prog.bind_ok hstt).trans ?_
      rw [← hused, hlast]
    have hlen : s3.fomDict = s1.fomDict := by
      have := congrArg (fun p => p.2.fomDict) hstt
      unfold storeTest at this
      dsimp only at this
      rcases hA : setIdx s2.fomTest ([] : List (F × F)).length v with e | ft
      · unfold storeTest at hstt; rw [hA] at hstt; cases hstt
      · rw [hA] at this
        dsimp only at this
        rcases hB : setIdx s2.sigmaTest ([] : List (F × F)).length (s2.fomDict.std.getD 1) with e | st
        · unfold storeTest at hstt; rw [hA] at hstt; dsimp only at hstt; rw [hB] at hstt; cases hstt
        · rw [hB] at this
          exact this.symm
    refine ⟨s3, o, (v, s1.fomDict.std.getD 1), used, last, ho, ?_, hx, ?_, ?_, ?_, ?_, ?_, ?_, hlast, ?_⟩
    · rw [q3]; exact hl
    · rw [q4.bestFoM]; exact hk.bestFoM
    · rw [q4.bestSigma]; exact hk.bestSigma
    · rw [q4.isRecord]; exact hk.isRecord
    · rw [q5]; exact hr
    · intro h; exact q4.mono (hk.mono h)
    · rw [hused]
      split
      · rename_i h; exact .inr ⟨rfl, hiter h⟩
      · exact .inl rfl
    · rw [hinner]
      have hT3 : Table s3 [(v, s1.fomDict.std.getD 1)] (used.length + (steps.length - used.length)) := by
        have : used.length + (steps.length - used.length) = steps.length := by omega
        rw [this]
        simpa using q2
      exact loop_out cfg env ops hisSome hkind x it last used _ _ s3 hT3 0 rfl
  have hiter : s1.iter = 1 → s.iter ≤ 1 := by
    intro h
    have := routineCall_iter_le cfg env ops x it s0
    rw [hrc] at this
    dsimp only at this
    rw [h] at this
    exact this
  cases hshot with
  | answer _ c a f hl hx h hf hstd hk h1 h2 h3 =>
    right
    refine cont (dirMul cfg.maximize f) (some c) rfl (by simpa [List.reduceOption] using hl)
      (fun c' hc' => by cases hc'; exact hx) ?_ hk h1 h2 h3 (fun _ => rfl) hiter
    rw [hstd]
    exact .answer c a f h hf
  | skipped _ hl hr hk h1 h2 h3 =>
    right
    exact cont cfg.fomMax none rfl (by simpa [List.reduceOption] using hl) (fun c' hc' => by cases hc') (.placeholder _)
      hk h1 h2 h3 (fun h => by rw [hr] at h; cases h) hiter
  | raised _ e cs hl hx hn hk =>
    left
    refine ⟨e, s1, cs, ?_, hl, hx, hn, hk.bestFoM, hk.isRecord⟩
    unfold innerCall
    rw [Prog.modify_bind, Prog.bind_error hrc]

/-! ### The tables of measurements -/

/-- The two tables of measurements have one place more than there are re-evaluation steps. -/
def TablesOK (cfg : AlgCfg K F) (s : AlgState V C O F) : Prop :=
  ∀ steps, cfg.reEval = some steps → s.fomTest.length = steps.length + 1 ∧ s.sigmaTest.length = steps.length + 1

theorem Act.tables {d b : Bool} {s s' : AlgState V C O F} (h : Act cfg env ops d b s s') :
    s'.fomTest.length = s.fomTest.length ∧ s'.sigmaTest.length = s.sigmaTest.length := by
  have hr : ∀ x it (s : AlgState V C O F), (routineCall cfg env ops x it s).2.fomTest = s.fomTest ∧
      (routineCall cfg env ops x it s).2.sigmaTest = s.sigmaTest := by
    intro x it s
    have h := routineCall_spec (cfg := cfg) (env := env) (ops := ops) x it s
    generalize routineCall cfg env ops x it s = rs at h
    obtain ⟨r, s'⟩ := rs
    have qi : ∀ {a b : AlgState V C O F}, Quiet env a b → b.fomTest = a.fomTest ∧ b.sigmaTest = a.sigmaTest :=
      fun q => by rw [q.frame]; exact ⟨rfl, rfl⟩
    cases h with
    | stopped s1 q hr => exact qi q
    | sigint s1 r e q hk => exact ⟨(qi q).1, (qi q).2⟩
    | noControls s1 e q hr hi h => exact ⟨(qi q).1, (qi q).2⟩
    | window s1 o c s2 q hr hi h q2 hr2 ha => exact ⟨(qi q2).1.trans (qi q).1, (qi q2).2.trans (qi q).2⟩
    | windowSigint s1 o c s2 r e q hr hi h q2 hk => exact ⟨(qi q2).1.trans (qi q).1, (qi q2).2.trans (qi q).2⟩
    | measured s1 o c s2 q hr hi hg ht h q2 hr2 =>
      have : s2.fomTest = s.fomTest ∧ s2.sigmaTest = s.sigmaTest :=
        ⟨(qi q2).1.trans (qi q).1, (qi q2).2.trans (qi q).2⟩
      rcases hans : env.getFoM s2.log c with e | a
      · rw [measure_raised x c s2 e hans]; exact this
      · rcases hf : a.fom with _ | f
        · rw [measure_noValue x c s2 a hans hf]; exact this
        · obtain ⟨fl, il, sc', hm⟩ := measure_answered (cfg := cfg) (env := env) x c s2 a f hans hf
          rw [hm]; exact this
  cases h with
  | quiet h => rw [h.frame]; exact ⟨rfl, rfl⟩
  | fresh x it s s0 r s' h0 h1 h2 h =>
    have := hr x it s0
    rw [h] at this
    rw [this.1, this.2, h0]; exact ⟨rfl, rfl⟩
  | again x it s h => rw [(hr x it s).1, (hr x it s).2]; exact ⟨rfl, rfl⟩
  | tests b s ft st n hk h hf hs => exact ⟨hf, hs⟩
  | _ => exact ⟨rfl, rfl⟩

/-- The tables have the right size in the state after construction, and keep it in everything a search method does. -/
theorem tables_ok (o : O) : TablesOK cfg (initState (V := V) (C := C) cfg env o) ∧
    ∀ {α : Type} (search : Strat K V F α) (s : AlgState V C O F), TablesOK cfg s →
      TablesOK cfg (search.interp (algHandler cfg env ops) s).2 := by
  refine ⟨fun steps h => by simp [initState, h], fun search s hs steps h => ?_⟩
  refine (Traced.interp (cfg := cfg) (env := env) (ops := ops) (d := true) search (.inl rfl)).inv
    (fun s => s.fomTest.length = steps.length + 1 ∧ s.sigmaTest.length = steps.length + 1) ?_ s (hs steps h)
  intro b s1 s2 ha h1
  have := ha.tables
  rw [this.1, this.2]; exact h1

/-! ### C34 -/

/-- **C34.** One point requested by the search is measured at most `1 + length(re_evaluation_steps)` times, and all these
measurements are made at this point. -/
theorem C34_measurements_bounded (steps : List F) (hre : cfg.reEval = some steps) (hsteps : steps ≠ [])
    (hkind : cfg.kind ≠ .grape) (x : V) (it : ℕ) (s : AlgState V C O F) (hs : TablesOK cfg s) :
    ∃ calls, (algHandler cfg env ops (.eval x it) s).2.log = s.log ++ calls ∧ (∀ c ∈ calls, c.vec = x) ∧
      calls.length ≤ 1 + steps.length := by
  have hpos : 1 ≤ steps.length := List.length_pos_iff.2 hsteps
  have hh : algHandler cfg env ops (.eval x it) s = innerCall cfg env ops x it s := by
    show (if cfg.kind = .grape then innerGrape cfg env ops x else innerCall cfg env ops x it) s = _
    rw [if_neg hkind]
  rw [hh]
  rcases inner_out cfg env ops steps hre hsteps hkind x it s (hs steps hre).1 (hs steps hre).2 with
    ⟨e, s1, cs, h1, h2, h3, h4, _⟩ | ⟨s1, o, m, used, last, ho, hl, hx, hb, _, hrec, hr, hmono, hused, hlast, hout⟩
  · rw [h1]
    exact ⟨cs, h2, h3, by omega⟩
  · have hulen : used.length ≤ steps.length := by
      rcases hused with rfl | ⟨rfl, _⟩
      · exact le_rfl
      · exact hpos
    have ho1 : [o].reduceOption.length ≤ 1 := List.reduceOption_length_le [o]
    have hox : ∀ c ∈ [o].reduceOption, c.vec = x := by
      intro c hc
      rw [List.reduceOption_mem_iff] at hc
      exact hx c (by simpa [eq_comm] using hc)
    have fin : ∀ cs : List (Call V C F), (∀ c ∈ cs, c.vec = x) → cs.length ≤ used.length →
        ∃ calls, s1.log ++ cs = s.log ++ calls ∧ (∀ c ∈ calls, c.vec = x) ∧ calls.length ≤ 1 + steps.length := by
      intro cs h1 h2
      refine ⟨[o].reduceOption ++ cs, by rw [hl, List.append_assoc], ?_, ?_⟩
      · intro c hc
        rcases List.mem_append.1 hc with h | h
        · exact hox c h
        · exact h1 c h
      · rw [List.length_append]; omega
    generalize innerCall cfg env ops x it s = out at hout
    obtain ⟨r, s'⟩ := out
    dsimp only at hout ⊢
    cases hout with
    | done _ rs new hl' hx' ho' hn' hk' hr' =>
      rw [hl']
      refine fin _ (fun c hc => hx' c ?_) ?_
      · rwa [List.reduceOption_mem_iff] at hc
      · have := List.reduceOption_length_le rs
        rw [ho'.length_eq] at this
        omega
    | record _ _ rs new hl' hx' ho' hn' hp' hlast' hb' hs' hrun' hr' hok' =>
      rw [hl']
      refine fin _ (fun c hc => hx' c ?_) ?_
      · rwa [List.reduceOption_mem_iff] at hc
      · have := List.reduceOption_length_le rs
        rw [ho'.length_eq] at this
        omega
    | raised e _ cs hl' hx' hn' hk' =>
      rw [hl']
      exact fin cs hx' hn'

/-- one super-iteration with re-evaluation thresholds -/
def exCfg1 (re : Option (List ℚ)) : AlgCfg ℚ ℚ := { exCfg .dcrab 100 false none re with maxSI := 1 }

/-- The bound is reached: three thresholds, four measurements of the point 2 (after two of the first point). -/
example : ((execute (exCfg1 (some [1 / 10, 1 / 5, 3 / 10]))
    (exEnv (exAns [5, 5, 4, 3, 4, 3]) (fun _ => .none)) exOps (exDsm [1, 2]) ()).2.log.map (fun c => c.vec)) =
    [1, 1, 2, 2, 2, 2] := by decide +kernel

/-- Without re-evaluation a requested point is measured at most once. -/
theorem C34_single_measurement (hre : NoReEval cfg) (x : V) (it : ℕ) (s : AlgState V C O F) :
    (algHandler cfg env ops (.eval x it) s).2.log = s.log ∨
    ∃ c, c.vec = x ∧ (algHandler cfg env ops (.eval x it) s).2.log = s.log ++ [c] := by
  have hr : ∀ (s : AlgState V C O F) it, (routineCall cfg env ops x it s).2.log = s.log ∨
      ∃ c, c.vec = x ∧ (routineCall cfg env ops x it s).2.log = s.log ++ [c] := by
    intro s it
    have h := routineCall_spec (cfg := cfg) (env := env) (ops := ops) x it s
    generalize routineCall cfg env ops x it s = rs at h
    obtain ⟨r, s'⟩ := rs
    cases h with
    | stopped s1 q hr => exact .inl q.log
    | sigint s1 r e q hk => exact .inl q.log
    | noControls s1 e q hr hi h => exact .inl q.log
    | window s1 o c s2 q hr hi h q2 hr2 ha => exact .inl (q2.log.trans q.log)
    | windowSigint s1 o c s2 r e q hr hi h q2 hk => exact .inl (q2.log.trans q.log)
    | measured s1 o c s2 q hr hi hg ht h q2 hr2 =>
      right
      have hl : s2.log = s.log := q2.log.trans q.log
      rcases hans : env.getFoM s2.log c with e | a
      · exact ⟨⟨x, c, .error e, s2.polls, s2.ticks⟩, rfl, by rw [measure_raised x c s2 e hans, ← hl]⟩
      · rcases hf : a.fom with _ | f
        · exact ⟨⟨x, c, .ok a, s2.polls, s2.ticks⟩, rfl, by rw [measure_noValue x c s2 a hans hf, ← hl]⟩
        · obtain ⟨fl, il, sc', hm⟩ := measure_answered (cfg := cfg) (env := env) x c s2 a f hans hf
          exact ⟨⟨x, c, .ok a, s2.polls, s2.ticks⟩, rfl, by rw [hm, ← hl]⟩
  by_cases hk : cfg.kind = .grape
  · have hh : algHandler cfg env ops (.eval x it) s = innerGrape cfg env ops x s := by
      show (if cfg.kind = .grape then innerGrape cfg env ops x else innerCall cfg env ops x it) s = _
      rw [if_pos hk]
    rw [hh]
    unfold innerGrape
    rw [Prog.modify_bind]
    rcases hg : gradientControls ops x { s with isRecord := false } with ⟨e | u, s1⟩
    · rw [Prog.bind_error hg]
      left
      unfold gradientControls at hg
      rcases hc : ops.getControls s.ctl x with e | ⟨o, c⟩ <;> simp [hc] at hg
      rw [← hg.2]
    · rw [Prog.bind_ok hg]
      have : s1.log = s.log := by
        unfold gradientControls at hg
        rcases hc : ops.getControls s.ctl x with e | ⟨o, c⟩ <;> simp [hc] at hg
        rw [← hg]
      rw [← this]
      exact hr s1 0
  · have hn : cfg.reEval = none := hre.resolve_left hk
    have hh : algHandler cfg env ops (.eval x it) s = innerCall cfg env ops x it s := by
      show (if cfg.kind = .grape then innerGrape cfg env ops x else innerCall cfg env ops x it) s = _
      rw [if_neg hk]
    rw [hh]
    unfold innerCall
    rw [Prog.modify_bind, hn]
    have := hr { s with isRecord := false, stepNumber := 0 } it
    rcases hrc : routineCall cfg env ops x it { s with isRecord := false, stepNumber := 0 } with ⟨e | f, s1⟩
    · rw [Prog.bind_error hrc]; rw [hrc] at this; exact this
    · rw [Prog.bind_ok hrc]; rw [hrc] at this; exact this

/-! ### C35 -/

/-- **C35.** With re-evaluation: if requesting a point changes the best figure of merit (or flags a record), then the
point was measured once more than there are thresholds (thresholds of the settings; the single threshold 0.5 for the
first evaluation of the run), before each re-evaluation the probability of being better than the best point so far,
estimated from all measurements so far, was not below the threshold, after the last one it is above the last threshold,
and the new best value is the mean of all measurements. -/
theorem C35_record_passes_thresholds (steps : List F) (hre : cfg.reEval = some steps) (hsteps : steps ≠ [])
    (hkind : cfg.kind ≠ .grape) (x : V) (it : ℕ) (s s' : AlgState V C O F) (r : Py F) (hs : TablesOK cfg s)
    (h : algHandler cfg env ops (.eval x it) s = (r, s')) (hrec : s'.bestFoM ≠ s.bestFoM ∨ s'.isRecord = true) :
    ∃ (thresholds : List F) (calls : List (Option (Call V C F))) (ms : List (F × F)),
      (thresholds = steps ∨ thresholds = [cfg.half] ∧ s.iter ≤ 1) ∧
      s'.log = s.log ++ calls.reduceOption ∧ (∀ c, some c ∈ calls → c.vec = x) ∧
      List.Forall₂ (Obtained cfg) calls ms ∧ ms.length = thresholds.length + 1 ∧
      (∀ i (h : i < thresholds.length), thresholds[i] ≤
        probSmaller env cfg.tiny (average ((ms.take (i + 1)).map Prod.fst)) (average ((ms.take (i + 1)).map Prod.snd))
          s.bestFoM s.bestSigma) ∧
      (∀ last, thresholds.getLast? = some last → last <
        probSmaller env cfg.tiny (average (ms.map Prod.fst)) (average (ms.map Prod.snd)) s.bestFoM s.bestSigma) ∧
      s'.bestFoM = average (ms.map Prod.fst) := by
  have hh : algHandler cfg env ops (.eval x it) s = innerCall cfg env ops x it s := by
    show (if cfg.kind = .grape then innerGrape cfg env ops x else innerCall cfg env ops x it) s = _
    rw [if_neg hkind]
  rw [hh] at h
  rcases inner_out cfg env ops steps hre hsteps hkind x it s (hs steps hre).1 (hs steps hre).2 with
    ⟨e, s1, cs, h1, h2, h3, h4, h5, h6⟩ | ⟨s1, o, m, used, last, ho, hl, hx, hb, hsig, hnrec, hr, hmono, hused, hlast, hout⟩
  · rw [h1] at h
    cases h
    rcases hrec with h | h
    · exact absurd h5 h
    · rw [h6] at h; cases h
  · rw [h] at hout
    dsimp only at hout
    cases hout with
    | done _ rs new hl' hx' ho' hn' hk' hr' =>
      rcases hrec with h | h
      · exact absurd (hk'.bestFoM.trans hb) h
      · rw [hk'.isRecord, hnrec] at h; cases h
    | raised e _ cs hl' hx' hn' hk' =>
      rcases hrec with h | h
      · exact absurd (hk'.bestFoM.trans hb) h
      · rw [hk'.isRecord, hnrec] at h; cases h
    | record _ _ rs new hl' hx' ho' hn' hp' hlast' hb' hs' hrun' hr' hok' =>
      refine ⟨used, o :: rs, m :: new, hused, ?_, ?_, .cons ho ho', by simp [hn'], ?_, ?_, hb'⟩
      · rw [hl', hl, List.append_assoc, ← List.reduceOption_append]; rfl
      · intro c hc
        rcases List.mem_cons.1 hc with h | h
        · exact hx c h.symm
        · exact hx' c h
      · intro i hi
        have := hp' i hi
        rw [hb, hsig] at this
        simpa [passProb] using this
      · intro l hl
        rw [hlast] at hl
        cases hl
        rw [hb, hsig] at hlast'
        simpa [passProb] using hlast'

/-- A run with two thresholds in which the second point becomes the new best after three measurements (mean 3), and the
third does not (it is dropped after one). -/
example : (execute (exCfg1 (some [1 / 10, 1 / 5]))
    (exEnv (exAns [5, 5, 4, 2, 3, 7]) (fun _ => .none)) exOps (exDsm [1, 2, 3]) ()).2.bestFoM = 3 ∧
    (execute (exCfg1 (some [1 / 10, 1 / 5]))
    (exEnv (exAns [5, 5, 4, 2, 3, 7]) (fun _ => .none)) exOps (exDsm [1, 2, 3]) ()).2.log.map (fun c => c.vec) =
      [1, 1, 2, 2, 2, 3] := by constructor <;> decide +kernel

/-! ### C36 -/

/-- **C36.** With re-evaluation, the figure of merit a search method gets for a requested point is the arithmetic mean of
the values obtained for it; as long as the run goes on, these are the answers of the user's function. -/
theorem C36_value_is_mean (steps : List F) (hre : cfg.reEval = some steps) (hsteps : steps ≠ [])
    (hkind : cfg.kind ≠ .grape) (x : V) (it : ℕ) (s s' : AlgState V C O F) (v : F) (hs : TablesOK cfg s)
    (h : algHandler cfg env ops (.eval x it) s = (.ok v, s')) :
    ∃ (calls : List (Option (Call V C F))) (ms : List (F × F)), calls ≠ [] ∧
      s'.log = s.log ++ calls.reduceOption ∧ (∀ c, some c ∈ calls → c.vec = x) ∧
      List.Forall₂ (Obtained cfg) calls ms ∧ v = average (ms.map Prod.fst) ∧
      (s'.running = true → ∀ o ∈ calls, o.isSome = true) := by
  have hh : algHandler cfg env ops (.eval x it) s = innerCall cfg env ops x it s := by
    show (if cfg.kind = .grape then innerGrape cfg env ops x else innerCall cfg env ops x it) s = _
    rw [if_neg hkind]
  rw [hh] at h
  rcases inner_out cfg env ops steps hre hsteps hkind x it s (hs steps hre).1 (hs steps hre).2 with
    ⟨e, s1, cs, h1, h2, h3, h4, h5, h6⟩ | ⟨s1, o, m, used, last, ho, hl, hx, hb, hsig, hnrec, hr, hmono, hused, hlast, hout⟩
  · rw [h1] at h
    cases h
  · rw [h] at hout
    dsimp only at hout
    have back : s'.running = true → (s1.running = false → s'.running = false) → o.isSome = true := by
      intro h3 hm
      refine hr ?_
      by_contra hf
      rw [hm (by simpa using hf)] at h3
      cases h3
    have cat : ∀ rs : List (Option (Call V C F)), s1.log ++ rs.reduceOption = s.log ++ (o :: rs).reduceOption := by
      intro rs
      rw [hl, List.append_assoc, ← List.reduceOption_append]; rfl
    have vecs : ∀ rs : List (Option (Call V C F)), (∀ c, some c ∈ rs → c.vec = x) → ∀ c, some c ∈ o :: rs → c.vec = x := by
      intro rs hx' c hc
      rcases List.mem_cons.1 hc with h | h
      · exact hx c h.symm
      · exact hx' c h
    generalize hrv : (Except.ok v : Py F) = rv at hout
    cases hout with
    | done _ rs new hl' hx' ho' hn' hk' hr' =>
      refine ⟨o :: rs, m :: new, by simp, by rw [hl', cat], vecs rs hx', .cons ho ho', by cases hrv; rfl, ?_⟩
      intro h r hmem
      rcases List.mem_cons.1 hmem with rfl | h'
      · exact back h hk'.mono
      · exact hr' h r h'
    | raised e _ cs hl' hx' hn' hk' => cases hrv
    | record _ _ rs new hl' hx' ho' hn' hp' hlast' hb' hs' hrun' hr' hok' =>
      refine ⟨o :: rs, m :: new, by simp, by rw [hl', cat], vecs rs hx', .cons ho ho', hok' v hrv.symm, ?_⟩
      intro h r hmem
      rcases List.mem_cons.1 hmem with rfl | h'
      · exact back h hrun'
      · exact hr' h r h'

/-- The second point is measured as 4, 2, 3; the search gets the mean 3 (it is the last value, returned by this search). -/
example : ((evalPoints (K := ℚ) 0 0 [1, 2] 0 : Strat ℚ ℚ ℚ _).interp
    (algHandler (exCfg1 (some [1 / 10, 1 / 5])) (exEnv (exAns [5, 5, 4, 2, 3]) (fun _ => .none)) exOps)
    (initState (exCfg1 (some [1 / 10, 1 / 5])) (exEnv (exAns [5, 5, 4, 2, 3]) (fun _ => .none)) ())).1.map
    (fun r => r.fMin) = .ok 3 := by decide +kernel

/-- **The figures of merit shown to the user during re-evaluation are not these means**: the point 2 is measured as 4, 2, 6
(running means 4, 3, 4), but the list of figures of merit shows 4, 2 and 9/2, because a mean over `n` earlier
measurements is weighted with `n - 1` instead of `n`. -/
theorem C36_displayed_average_wrong : ∃ (cfg : AlgCfg ℚ ℚ) (env : Env ℚ ℚ ℚ) (dsm : Dsm ℚ ℚ ℚ),
    (execute cfg env exOps dsm ()).2.log.map (fun c => (c.vec, c.value)) =
      [(1, some 5), (1, some 5), (2, some 4), (2, some 2), (2, some 6)] ∧
    (execute cfg env exOps dsm ()).2.fomList = [5, 5, 4, 2, 9 / 2] :=
  ⟨exCfg1 (some [1 / 10, 1 / 5]), exEnv (exAns [5, 5, 4, 2, 6]) (fun _ => .none), exDsm [1, 2],
    by decide +kernel, by decide +kernel⟩

end QuOCS

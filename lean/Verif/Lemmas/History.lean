/-
What each action adds to the lists of the run and to the signals.
-/
import Verif.Spec.History
import Verif.Lemmas.Run

set_option linter.unusedSectionVars false
set_option linter.unusedVariables false

namespace QuOCS

variable {K V C O F G H : Type} [LE K] [DecidableLE K]
variable [Add F] [Sub F] [Mul F] [Div F] [Neg F] [Zero F] [One F] [NatCast F] [LE F] [LT F] [DecidableLE F]
  [DecidableLT F] [FloatOrder F]
variable {cfg : AlgCfg K F} {env : Env V C F} {ops : CtlOps O V C} {d : Bool}

theorem usableNumbers_append (k : ℕ) (l : List (C × Py (Answer F))) (c : C × Py (Answer F)) :
    usableNumbers k (l ++ [c]) =
      usableNumbers k l ++ (if (usable c).isSome then [k + l.length + 1] else []) := by
  induction l generalizing k with
  | nil => simp [usableNumbers]
  | cons a l ih =>
    rw [List.cons_append, usableNumbers, ih, usableNumbers, List.append_assoc, List.length_cons]
    rw [show k + 1 + l.length + 1 = k + (l.length + 1) + 1 by omega]

theorem signalsOf_append (g : F → G) (k : ℕ) (l : List (C × Py (Answer F))) (c : C × Py (Answer F)) :
    signalsOf g k (l ++ [c]) = signalsOf g k l ++ ([.controls c.1] ++
      ((usable c).toList.map fun f => .plot (k + l.length + 1) (g f))) := by
  induction l generalizing k with
  | nil => simp [signalsOf]
  | cons a l ih =>
    rw [List.cons_append, signalsOf, ih, signalsOf, List.append_assoc, List.append_assoc, List.append_assoc,
      List.length_cons]
    rw [show k + 1 + l.length + 1 = k + (l.length + 1) + 1 by omega]

/-- the value put into the list -/
def listedFoM (cfg : AlgCfg K F) (s : AlgState V C O F) (m : F) : F :=
  if cfg.kind = .directSearch ∧ cfg.reEval.isSome then
    if s.stepNumber = 0 then m
    else (mean (s.fomTest.take s.stepNumber) * ((s.stepNumber : F) - 1) + m) / (s.stepNumber : F)
  else shownFoM cfg s m

theorem response_ok (s : AlgState V C O F) : ∃ r, response cfg s = (.ok r, (response cfg s).2) := ⟨_, rfl⟩

theorem response_lists (s : AlgState V C O F) :
    (response cfg s).2.fomList = (if s.fomDict.status.getD 0 = 0 then s.fomList ++ [dirMul cfg.maximize
      (if cfg.kind = .directSearch ∧ cfg.reEval.isSome then averageCurrent s
        else if cfg.kind = .dcrab then averageCurrent s else s.fomDict.fom)] else s.fomList) ∧
    (response cfg s).2.iterList = if s.fomDict.status.getD 0 = 0 then s.iterList ++ [s.iter] else s.iterList := by
  unfold response
  dsimp only
  by_cases h1 : s.fomDict.status.getD 0 = 0
  · simp only [h1, if_true]
    constructor
    · congr 1
      split_ifs <;> rfl
    · split_ifs <;> rfl
  · simp only [h1, if_false]
    constructor <;> split_ifs <;> rfl

theorem sendResponse_lists (r : F) (s : AlgState V C O F) : sendResponse r s = (.ok (), (sendResponse r s).2) ∧
    (sendResponse r s).2.fomList = s.fomList ∧ (sendResponse r s).2.iterList = s.iterList := by
  unfold sendResponse dumpControls
  split <;> exact ⟨rfl, rfl, rfl⟩

/-- Lists and signals after a measurement. -/
theorem measure_lists (x : V) (c : C) (s : AlgState V C O F) :
    ∃ k : Call V C F, k.ctl = c ∧ (measure cfg env x c s).2.log = s.log ++ [k] ∧
      (measure cfg env x c s).2.iter = s.iter ∧ (measure cfg env x c s).2.stepNumber = s.stepNumber ∧
      match (usable k.seen) with
      | none => (measure cfg env x c s).2.fomList = s.fomList ∧ (measure cfg env x c s).2.iterList = s.iterList ∧
          (measure cfg env x c s).2.signals = s.signals
      | some f =>
          (measure cfg env x c s).2.fomList =
            s.fomList ++ [dirMul cfg.maximize (listedFoM cfg s (dirMul cfg.maximize f))] ∧
          (measure cfg env x c s).2.iterList = s.iterList ++ [s.iter] ∧
          (measure cfg env x c s).2.signals = s.signals ++ [.plot s.iter (shownFoM cfg s (dirMul cfg.maximize f))] := by
  rcases ha : env.getFoM s.log c with e | a
  · rw [measure_raised x c s e ha]
    exact ⟨⟨x, c, .error e, s.polls, s.ticks⟩, rfl, rfl, rfl, rfl, rfl, rfl, rfl⟩
  · rcases hf : a.fom with _ | f
    · rw [measure_noValue x c s a ha hf]
      refine ⟨⟨x, c, .ok a, s.polls, s.ticks⟩, rfl, rfl, rfl, rfl, ?_⟩
      simp [Call.seen, usable, hf]
    · refine ⟨⟨x, c, .ok a, s.polls, s.ticks⟩, rfl, ?_⟩
      obtain ⟨fl, il, sc, he⟩ := measure_answered (cfg := cfg) x c s a f ha hf
      have hg : getData cfg env x c s = (.ok (), { s with
          log := s.log ++ [⟨x, c, .ok a, s.polls, s.ticks⟩]
          fomDict := { fom := dirMul cfg.maximize f, std := a.std, status := some (a.status.getD 0) }
          running := if a.status.getD 0 = 0 then s.running else false }) := by
        unfold getData
        simp only [ha, hf]
      have hl : (measure cfg env x c s).2.fomList = (if a.status.getD 0 = 0 then
            s.fomList ++ [dirMul cfg.maximize (listedFoM cfg s (dirMul cfg.maximize f))] else s.fomList) ∧
          (measure cfg env x c s).2.iterList = if a.status.getD 0 = 0 then s.iterList ++ [s.iter] else s.iterList := by
        unfold measure
        rw [Prog.bind_ok hg]
        have e3 := response_lists (cfg := cfg) ({ s with
          log := s.log ++ [⟨x, c, .ok a, s.polls, s.ticks⟩]
          fomDict := { fom := dirMul cfg.maximize f, std := a.std, status := some (a.status.getD 0) }
          running := if a.status.getD 0 = 0 then s.running else false } : AlgState V C O F)
        obtain ⟨r, hr1⟩ := response_ok (cfg := cfg) ({ s with
          log := s.log ++ [⟨x, c, .ok a, s.polls, s.ticks⟩]
          fomDict := { fom := dirMul cfg.maximize f, std := a.std, status := some (a.status.getD 0) }
          running := if a.status.getD 0 = 0 then s.running else false } : AlgState V C O F)
        rw [Prog.bind_ok hr1]
        generalize (response cfg _).2 = s2 at e3 ⊢
        obtain ⟨hs3, e1, e2⟩ := sendResponse_lists r s2
        rw [Prog.bind_ok hs3]
        unfold trackFoM
        rw [Prog.modify_bind, Prog.get_bind]
        rw [← e1, ← e2] at e3
        generalize (sendResponse r s2).2 = s3 at e3
        have : ∀ t : AlgState V C O F, t.fomList = s3.fomList → t.iterList = s3.iterList →
            t.fomList = (if a.status.getD 0 = 0 then
            s.fomList ++ [dirMul cfg.maximize (listedFoM cfg s (dirMul cfg.maximize f))] else s.fomList) ∧
          t.iterList = if a.status.getD 0 = 0 then s.iterList ++ [s.iter] else s.iterList := by
          intro t h1 h2
          rw [h1, h2, e3.1, e3.2]
          refine ⟨?_, rfl⟩
          unfold listedFoM shownFoM averageCurrent
          rfl
        split <;> exact this _ rfl rfl
      rw [he] at hl ⊢
      refine ⟨rfl, rfl, rfl, ?_⟩
      by_cases hst : a.status.getD 0 = 0
      · simp only [Call.seen, usable, hst, if_true, hf] at hl ⊢
        exact ⟨hl.1, hl.2, trivial⟩
      · simp only [Call.seen, usable, hst, if_false] at hl ⊢
        exact ⟨hl.1, hl.2, trivial⟩

/-- The invariant: the lists and the signals are those of the calls `l`, up to controls sent last and not evaluated.
The values are seen through `gs` and `gl`, which forget them where the code shows something else. -/
structure Told (cfg : AlgCfg K F) (gs : F → G) (gl : F → H) (l : List (C × Py (Answer F))) (s : AlgState V C O F) : Prop where
  numbers : s.iterList = usableNumbers 0 l
  values : s.fomList.map gl = (l.filterMap usable).map gl
  signals : ∃ t, s.signals.map (Signal.mapValue gs) =
    signalsOf (fun f => gs (inSign cfg.maximize f)) 0 l ++ t ∧ (t = [] ∨ ∃ c, t = [.controls c])
  same : cfg.kind ≠ .directSearch ∨ cfg.reEval = none →
    s.fomList = (s.signals.filterMap Signal.plotted?).map fun p => inSign cfg.maximize p.2

/-- While the program goes on. -/
structure Telling (cfg : AlgCfg K F) (gs : F → G) (gl : F → H) (l : List (C × Py (Answer F))) (s : AlgState V C O F) : Prop
    extends Told cfg gs gl l s where
  step : cfg.reEval = none → s.stepNumber = 0
  live : s.running = true → s.iter = l.length ∧
    s.signals.map (Signal.mapValue gs) = signalsOf (fun f => gs (inSign cfg.maximize f)) 0 l

variable {gs : F → G} {gl : F → H} {l : List (C × Py (Answer F))}

theorem Told.frame {s s' : AlgState V C O F} (h : Told cfg gs gl l s) (h1 : s'.iterList = s.iterList)
    (h2 : s'.fomList = s.fomList) (h3 : s'.signals = s.signals) : Told cfg gs gl l s' := by
  obtain ⟨a, b, c, e⟩ := h
  exact ⟨by rw [h1, a], by rw [h2, b], by rw [h3]; exact c, by rw [h2, h3]; exact e⟩

theorem Telling.frame {s s' : AlgState V C O F} (h : Telling cfg gs gl l s) (h1 : s'.iterList = s.iterList)
    (h2 : s'.fomList = s.fomList) (h3 : s'.signals = s.signals) (h5 : s'.iter = s.iter)
    (h6 : cfg.reEval = none → s.stepNumber = 0 → s'.stepNumber = 0) (h7 : s'.running = true → s.running = true) :
    Telling cfg gs gl l s' :=
  ⟨h.toTold.frame h1 h2 h3, fun h' => h6 h' (h.step h'), fun hr => by rw [h5, h3]; exact h.live (h7 hr)⟩

theorem Telling.quiet {s s' : AlgState V C O F} (h : Telling cfg gs gl l s) (q : Quiet env s s') :
    Telling cfg gs gl l s' := by
  have hf := q.frame
  refine h.frame (by rw [hf]) (by rw [hf]) (by rw [hf]) (by rw [hf]) (fun _ h => by rw [hf]; exact h) ?_
  intro hr
  by_contra hn
  rw [q.mono (by simpa using hn)] at hr
  cases hr

theorem shown_seen (hs : (cfg.kind ≠ .dcrab ∨ cfg.reEval = none) ∨ ∀ a b, gs a = gs b) (s : AlgState V C O F)
    (h : cfg.reEval = none → s.stepNumber = 0) (m : F) : gs (shownFoM cfg s m) = gs m := by
  rcases hs with (hk | hr) | hc
  · rw [shownFoM, if_neg hk]
  · rw [shownFoM, if_pos (h hr)]
    split <;> rfl
  · exact hc _ _

theorem listed_seen (hl : (cfg.reEval = none ∨ cfg.kind = .grape) ∨ ∀ a b, gl a = gl b) (s : AlgState V C O F)
    (h : cfg.reEval = none → s.stepNumber = 0) (f : F) :
    gl (dirMul cfg.maximize (listedFoM cfg s (dirMul cfg.maximize f))) = gl f := by
  have hd : dirMul cfg.maximize (dirMul cfg.maximize f) = f := by
    unfold dirMul
    split
    · exact FloatOrder.neg_neg f
    · rfl
  rcases hl with (hr | hk) | hc
  · rw [listedFoM, if_neg (by simp [hr]), shownFoM, if_pos (h hr)]
    split <;> rw [hd]
  · rw [listedFoM, if_neg (by simp [hk]), shownFoM, if_neg (by simp [hk]), hd]
  · exact hc _ _

theorem listed_shown (h : cfg.kind ≠ .directSearch ∨ cfg.reEval = none) (s : AlgState V C O F) (m : F) :
    listedFoM cfg s m = shownFoM cfg s m := by
  rw [listedFoM, if_neg]
  rintro ⟨h1, h2⟩
  rcases h with h | h
  · exact h h1
  · simp [h] at h2

/-- A measurement keeps the invariant, with its call added. -/
theorem Telling.measure (hs : (cfg.kind ≠ .dcrab ∨ cfg.reEval = none) ∨ ∀ a b, gs a = gs b)
    (hl : (cfg.reEval = none ∨ cfg.kind = .grape) ∨ ∀ a b, gl a = gl b) (x : V) (c : C) {s : AlgState V C O F}
    (h1 : s.iterList = usableNumbers 0 l) (h2 : s.fomList.map gl = (l.filterMap usable).map gl)
    (h3 : s.signals.map (Signal.mapValue gs) =
      signalsOf (fun f => gs (inSign cfg.maximize f)) 0 l ++ [.controls c])
    (h4 : cfg.kind ≠ .directSearch ∨ cfg.reEval = none →
      s.fomList = (s.signals.filterMap Signal.plotted?).map fun p => inSign cfg.maximize p.2)
    (h5 : cfg.reEval = none → s.stepNumber = 0) (h6 : s.iter = l.length + 1) :
    ∃ k, (QuOCS.measure cfg env x c s).2.log = s.log ++ [k] ∧
      Telling cfg gs gl (l ++ [k.seen]) (QuOCS.measure cfg env x c s).2 := by
  obtain ⟨k, hk, e1, e2, e3, e⟩ := measure_lists (cfg := cfg) (env := env) x c s
  generalize (QuOCS.measure cfg env x c s).2 = s' at e1 e2 e3 e
  refine ⟨k, e1, ?_⟩
  rcases hu : (usable k.seen) with _ | f
  · rw [hu] at e
    obtain ⟨e4, e5, e6⟩ := e
    have hsig : s'.signals.map (Signal.mapValue gs) =
        signalsOf (fun f => gs (inSign cfg.maximize f)) 0 (l ++ [k.seen]) := by
      rw [e6, h3, signalsOf_append, hu, show k.seen.1 = c from hk]
      simp
    refine ⟨⟨?_, ?_, ⟨[], by rw [hsig, List.append_nil], .inl rfl⟩, ?_⟩, fun h => by rw [e3]; exact h5 h,
      fun _ => ⟨by rw [e2, h6]; simp, hsig⟩⟩
    · rw [e5, usableNumbers_append, hu, h1]; simp
    · rw [e4, h2]; simp [hu]
    · rw [e4, e6]; exact h4
  · rw [hu] at e
    obtain ⟨e4, e5, e6⟩ := e
    have hsig : s'.signals.map (Signal.mapValue gs) =
        signalsOf (fun f => gs (inSign cfg.maximize f)) 0 (l ++ [k.seen]) := by
      rw [e6, List.map_append, h3, signalsOf_append, hu, show k.seen.1 = c from hk, List.append_assoc]
      simp only [List.map_cons, List.map_nil, Signal.mapValue, shown_seen hs s h5, h6]
      simp [inSign, dirMul]
    refine ⟨⟨?_, ?_, ⟨[], by rw [hsig, List.append_nil], .inl rfl⟩, ?_⟩, fun h => by rw [e3]; exact h5 h,
      fun _ => ⟨by rw [e2, h6]; simp, hsig⟩⟩
    · rw [e5, usableNumbers_append, hu, h1, h6]; simp
    · rw [e4, List.map_append, h2, List.filterMap_append, List.map_append, List.map_singleton, listed_seen hl s h5]
      simp [hu]
    · intro hh
      rw [e4, e6, List.filterMap_append, List.map_append, ← h4 hh, listed_shown hh]
      rfl

theorem Telling.routine (hs : (cfg.kind ≠ .dcrab ∨ cfg.reEval = none) ∨ ∀ a b, gs a = gs b)
    (hl : (cfg.reEval = none ∨ cfg.kind = .grape) ∨ ∀ a b, gl a = gl b) {s : AlgState V C O F}
    (h : Telling cfg gs gl l s) (x : V) (it : ℕ) :
    ∃ k : List (Call V C F), k.length ≤ 1 ∧ (routineCall cfg env ops x it s).2.log = s.log ++ k ∧
      Told cfg gs gl (l ++ k.map Call.seen) (routineCall cfg env ops x it s).2 ∧
      (isOk (routineCall cfg env ops x it s).1 = true →
        Telling cfg gs gl (l ++ k.map Call.seen) (routineCall cfg env ops x it s).2) := by
  have hsp := routineCall_spec (cfg := cfg) (env := env) (ops := ops) x it s
  generalize (routineCall cfg env ops x it s).1 = r at hsp
  generalize (routineCall cfg env ops x it s).2 = s' at hsp
  have sent : ∀ (s1 : AlgState V C O F) (o : O) (c : C), Quiet env s s1 → s1.running = true →
      (s1.signals ++ [Signal.controls c]).map (Signal.mapValue gs) =
        signalsOf (fun f => gs (inSign cfg.maximize f)) 0 l ++ [.controls c] ∧ s1.iter = l.length ∧ s1.iter = s.iter ∧
      ∀ s2 : AlgState V C O F, s2.iterList = s1.iterList → s2.fomList = s1.fomList →
        s2.signals = s1.signals ++ [.controls c] → Told cfg gs gl l s2 := by
    intro s1 o c q hr
    have ht := h.quiet q
    have hm : (s1.signals ++ [Signal.controls c]).map (Signal.mapValue gs) =
        signalsOf (fun f => gs (inSign cfg.maximize f)) 0 l ++ [.controls c] := by
      rw [List.map_append, (ht.live hr).2]; rfl
    refine ⟨hm, (ht.live hr).1, by rw [q.frame], ?_⟩
    intro s2 e1 e2 e4
    refine ⟨by rw [e1]; exact ht.numbers, by rw [e2]; exact ht.values, ⟨_, ?_, .inr ⟨c, rfl⟩⟩, fun hh => ?_⟩
    · rw [e4]; exact hm
    · rw [e2, e4, ht.same hh]; simp [Signal.plotted?]
  have quietLog : ∀ {a b : AlgState V C O F}, Quiet env a b → b.log = a.log := fun q => by rw [q.frame]
  cases hsp with
  | stopped s1 q hr =>
    refine ⟨[], by simp, by rw [quietLog q, List.append_nil], ?_⟩
    rw [List.map_nil, List.append_nil]
    exact ⟨(h.quiet q).toTold, fun _ => h.quiet q⟩
  | sigint s1 r e q hk =>
    refine ⟨[], by simp, by rw [List.append_nil]; exact (quietLog q : s1.log = s.log), ?_⟩
    rw [List.map_nil, List.append_nil]
    exact ⟨(h.quiet q).toTold.frame rfl rfl rfl, fun h => by cases h⟩
  | noControls s1 e q hr hi hg =>
    refine ⟨[], by simp, by rw [List.append_nil]; exact (quietLog q : s1.log = s.log), ?_⟩
    rw [List.map_nil, List.append_nil]
    exact ⟨(h.quiet q).toTold.frame rfl rfl rfl, fun h => by cases h⟩
  | window s1 o c s2 q hr hi hg q2 hr2 ha =>
    have hf := q2.frame
    have ht := (sent s1 o c q hr).2.2.2 s' (by rw [hf]) (by rw [hf]) (by rw [hf])
    refine ⟨[], by simp, by rw [List.append_nil, quietLog q2]; exact (quietLog q : s1.log = s.log), ?_⟩
    rw [List.map_nil, List.append_nil]
    refine ⟨ht, fun _ => ⟨ht, fun hh => ?_, fun h' => by rw [hr2] at h'; cases h'⟩⟩
    rw [hf]; exact (h.quiet q).step hh
  | windowSigint s1 o c s2 r e q hr hi hg q2 hk =>
    have hf := q2.frame
    refine ⟨[], by simp, by rw [List.append_nil]; exact (quietLog q2).trans (quietLog q : s1.log = s.log), ?_⟩
    rw [List.map_nil, List.append_nil]
    exact ⟨(sent s1 o c q hr).2.2.2 _ (by rw [hf]) (by rw [hf]) (by rw [hf]), fun h => by cases h⟩
  | measured s1 o c s2 q hr hi hg' ht hg q2 hr2 =>
    have hf := q2.frame
    have h1 := h.quiet q
    obtain ⟨a1, a2, a3, a4⟩ := sent s1 o c q hr
    obtain ⟨k, hk, this⟩ := Telling.measure (env := env) hs hl x c (s := s2) (l := l) (by rw [hf]; exact h1.numbers)
      (by rw [hf]; exact h1.values) (by rw [hf]; exact a1) (a4 s2 (by rw [hf]) (by rw [hf]) (by rw [hf])).same
      (by rw [hf]; exact h1.step) (by rw [hf]; show s.iter + 1 = l.length + 1; rw [← a3, a2])
    refine ⟨[k], le_rfl, ?_, this.toTold, fun _ => this⟩
    rw [hk, quietLog q2]
    show s1.log ++ [k] = _
    rw [quietLog q]

theorem Telling.act (hs : (cfg.kind ≠ .dcrab ∨ cfg.reEval = none) ∨ ∀ a b, gs a = gs b)
    (hl : (cfg.reEval = none ∨ cfg.kind = .grape) ∨ ∀ a b, gl a = gl b) {b : Bool} {s s' : AlgState V C O F}
    (h : Telling cfg gs gl (s.log.map Call.seen) s) (a : Act cfg env ops d b s s') :
    Told cfg gs gl (s'.log.map Call.seen) s' ∧ (b = true → Telling cfg gs gl (s'.log.map Call.seen) s') := by
  have fr : ∀ {s s' : AlgState V C O F}, Telling cfg gs gl (s.log.map Call.seen) s → s'.log = s.log → s'.iterList = s.iterList →
    s'.fomList = s.fomList → s'.signals = s.signals → s'.iter = s.iter →
    (cfg.reEval = none → s.stepNumber = 0 → s'.stepNumber = 0) → (s'.running = true → s.running = true) →
    Told cfg gs gl (s'.log.map Call.seen) s' ∧ (b = true → Telling cfg gs gl (s'.log.map Call.seen) s') :=
    fun h h0 h1 h2 h3 h5 h6 h7 => by
      rw [h0]
      exact ⟨(h.frame h1 h2 h3 h5 h6 h7).toTold, fun _ => h.frame h1 h2 h3 h5 h6 h7⟩
  cases a with
  | quiet q =>
    have hq := h.quiet q
    rw [show s'.log = s.log by rw [q.frame]]
    exact ⟨hq.toTold, fun _ => hq⟩
  | fresh x it s s0 r s' h0 h1 h2 hr =>
    obtain ⟨k, _, hk, this⟩ := Telling.routine (env := env) (ops := ops) hs hl (s := s0) (h.frame (by rw [h0]) (by rw [h0]) (by rw [h0])
      (by rw [h0]) (fun hn hz => by
        by_cases hk : cfg.kind = .grape
        · rw [h2 hk, hz]
        · exact h1 hk) (by rw [h0]; exact id)) x it
    rw [hr] at this hk
    rw [hk, show s0.log = s.log by rw [h0], List.map_append]
    exact this
  | again x it s hh =>
    obtain ⟨k, _, hk, this⟩ := h.routine (env := env) (ops := ops) hs hl x it
    rw [hk, List.map_append]
    exact this
  | tests b s ft st n hk hh hf hs' =>
    exact fr h rfl rfl rfl rfl rfl (fun hn => absurd hn hh) id
  | driftBegin s hk hd => exact fr h rfl rfl rfl rfl rfl (fun _ _ => rfl) id
  | _ => exact fr h rfl rfl rfl rfl rfl (fun _ h => h) id

/-- In every execution, whether it ends normally or with an exception. -/
theorem execute_told (hs : (cfg.kind ≠ .dcrab ∨ cfg.reEval = none) ∨ ∀ a b, gs a = gs b)
    (hl : (cfg.reEval = none ∨ cfg.kind = .grape) ∨ ∀ a b, gl a = gl b) (dsm : Dsm K V F) (o : O) :
    Told cfg gs gl ((execute cfg env ops dsm o).2.log.map Call.seen) (execute cfg env ops dsm o).2 :=
  (execute_inv (d := true) (fun s => Telling cfg gs gl (s.log.map Call.seen) s) (fun s => Told cfg gs gl (s.log.map Call.seen) s) dsm o (.inl rfl)
    ⟨⟨rfl, rfl, ⟨[], rfl, .inl rfl⟩, fun _ => rfl⟩, fun _ => rfl, fun _ => ⟨rfl, rfl⟩⟩
    (fun s s' a h => (h.act hs hl a).2 rfl) (fun s s' a h => (h.act hs hl a).1) (fun s h => h.toTold)).1

end QuOCS

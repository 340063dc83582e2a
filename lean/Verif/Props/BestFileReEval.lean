/-
C10 with re-evaluation and drift compensation: what the best-controls file shows.
-/
import Verif.Props.GoalReEval
import Verif.Props.BestMean

set_option linter.unusedSectionVars false
set_option linter.unusedVariables false

namespace QuOCS

variable {K V C O F : Type} [LE K] [DecidableLE K]
variable [Add F] [Sub F] [Mul F] [Div F] [Neg F] [Zero F] [One F] [NatCast F] [LE F] [LT F] [DecidableLE F]
  [DecidableLT F] [FloatOrder F]
variable {cfg : AlgCfg K F} {env : Env V C F} {ops : CtlOps O V C}

/-! ### The controls in a report are those of the last call -/

/-- the controls of the last call -/
def lastControls (l : List (Call V C F)) : Option C := l.getLast?.map (fun c => c.ctl)

/-- All reports show the controls of the last call before them. -/
def ReportsShow (s : AlgState V C O F) : Prop :=
  ∀ r ∈ s.dumps, r.calls ≤ s.log.length ∧ r.ctl = lastControls (s.log.take r.calls)

theorem ReportsShow.mono {s s' : AlgState V C O F} (h : ReportsShow s) (hd : s'.dumps = s.dumps) (hl : s.log <+: s'.log) :
    ReportsShow s' := by
  intro r hr
  rw [hd] at hr
  obtain ⟨h1, h2⟩ := h r hr
  obtain ⟨t, ht⟩ := hl
  refine ⟨by rw [← ht, List.length_append]; omega, ?_⟩
  rw [← ht, List.take_append_of_le_length h1]
  exact h2

theorem ReportsShow.add {s s' : AlgState V C O F} (h : ReportsShow s) (hl : s.log <+: s'.log) (r : DumpCall C F)
    (hr : r.calls = s'.log.length) (hc : r.ctl = lastControls s'.log) (hd : s'.dumps = s.dumps ++ [r]) : ReportsShow s' := by
  intro q hq
  rw [hd] at hq
  rcases List.mem_append.mp hq with h1 | h1
  · exact ReportsShow.mono (s' := { s with log := s'.log }) h rfl hl q h1
  · rw [List.mem_singleton] at h1
    subst h1
    rw [hr, List.take_length]
    exact ⟨le_rfl, hc⟩

/-- the state between two actions: the sent controls are those of the last call -/
def SentShow (s : AlgState V C O F) : Prop := ReportsShow s ∧ s.commCtl = lastControls s.log

theorem SentShow.routine (hasync : ∀ n, env.async n = .none) (x : V) (it : ℕ) (s : AlgState V C O F) (h : SentShow s) :
    ReportsShow (routineCall cfg env ops x it s).2 ∧
    (isOk (routineCall cfg env ops x it s).1 = true → SentShow (routineCall cfg env ops x it s).2) := by
  have hs := routineCall_spec (cfg := cfg) (env := env) (ops := ops) x it s
  generalize routineCall cfg env ops x it s = rs at hs ⊢
  obtain ⟨r, s'⟩ := rs
  have hq : ∀ s s' : AlgState V C O F, Quiet env s s' → ReportsShow s → ReportsShow s' := fun s s' q h =>
    h.mono (by rw [q.frame]) (by rw [q.log])
  cases hs with
  | stopped s1 q hr =>
    exact ⟨hq _ _ q h.1, fun _ => ⟨hq _ _ q h.1, by
      replace q : Quiet env s s' := q
      show s'.commCtl = lastControls s'.log
      rw [q.frame]; exact h.2⟩⟩
  | sigint s1 r e q hk => exact ⟨(hq _ s1 q h.1 :), fun h => by cases h⟩
  | noControls s1 e q hr hi _ => exact ⟨(hq _ s1 q h.1 :), fun h => by cases h⟩
  | window s1 o c s2 q hr hi _ q2 hr2 ha =>
    obtain ⟨n, hn⟩ := ha
    exact absurd (hasync n) hn
  | windowSigint s1 o c s2 r e q hr hi _ q2 hk => exact ⟨(hq _ s2 q2 (hq _ s1 q h.1 :) :), fun h => by cases h⟩
  | measured s1 o c s2 q hr hi hg ht _ q2 hr2 =>
    have h2 : ReportsShow s2 := hq _ s2 q2 (hq _ s1 q h.1 :)
    have hc : s2.commCtl = some c := by rw [q2.frame]
    rcases hans : env.getFoM s2.log c with e | a
    · rw [measure_raised x c s2 e hans]
      exact ⟨h2.mono rfl (List.prefix_append _ _), fun h => by cases h⟩
    · rcases hf : a.fom with _ | f
      · rw [measure_noValue x c s2 a hans hf]
        exact ⟨h2.mono rfl (List.prefix_append _ _), fun h => by cases h⟩
      · obtain ⟨fl, il, sc', hm⟩ := measure_answered (cfg := cfg) (env := env) x c s2 a f hans hf
        rw [hm]
        have hlast : s2.commCtl = lastControls (s2.log ++ [(⟨x, c, .ok a, s2.polls, s2.ticks⟩ : Call V C F)]) := by
          rw [hc]; unfold lastControls; simp
        have : ReportsShow (measure cfg env x c s2).2 := by
          rw [hm]
          by_cases hst : a.status.getD 0 = 0
          · simp only [hst, if_true]
            refine h2.add ?_ _ ?_ ?_ rfl
            · exact List.prefix_append _ _
            · simp
            · exact hlast
          · simp only [hst, if_false]
            exact h2.mono rfl (List.prefix_append _ _)
        rw [hm] at this
        exact ⟨this, fun _ => ⟨this, hlast⟩⟩

theorem SentShow.step (hasync : ∀ n, env.async n = .none) {d b : Bool} {s s' : AlgState V C O F} (ha : Act cfg env ops d b s s')
    (h : SentShow s) : ReportsShow s' ∧ (b = true → SentShow s') := by
  have same : ∀ s' : AlgState V C O F, s'.dumps = s.dumps → s'.log = s.log → s'.commCtl = s.commCtl →
      ReportsShow s' ∧ (b = true → SentShow s') := by
    intro s' h1 h2 h3
    have : ReportsShow s' := h.1.mono h1 (by rw [h2])
    exact ⟨this, fun _ => ⟨this, by rw [h3, h2]; exact h.2⟩⟩
  have add : ∀ (s' : AlgState V C O F) (r : DumpCall C F), s'.dumps = s.dumps ++ [r] → s'.log = s.log → s'.commCtl = s.commCtl →
      r.ctl = s.commCtl → r.calls = s.log.length → ReportsShow s' ∧ (b = true → SentShow s') := by
    intro s' r h1 h2 h3 h4 h5
    have : ReportsShow s' := h.1.add (by rw [h2]) r (by rw [h5, h2]) (by rw [h4, h2]; exact h.2) h1
    exact ⟨this, fun _ => ⟨this, by rw [h3, h2]; exact h.2⟩⟩
  cases ha with
  | quiet q => exact same _ (by rw [q.frame]) q.log (by rw [q.frame])
  | fresh x it _ s0 r _ h0 h1 h2 h3 =>
    have h' : SentShow s0 := by
      have e1 : s0.dumps = s.dumps := by rw [h0]
      have e2 : s0.log = s.log := by rw [h0]
      have e3 : s0.commCtl = s.commCtl := by rw [h0]
      exact ⟨h.1.mono e1 (by rw [e2]), by rw [e3, e2]; exact h.2⟩
    have := SentShow.routine (cfg := cfg) (ops := ops) hasync x it s0 h'
    rw [h3] at this
    exact this
  | again x it _ _ => exact SentShow.routine (cfg := cfg) (ops := ops) hasync x it s h
  | record _ mu sg x hk hre hx => exact add _ _ rfl rfl rfl rfl rfl
  | drift _ v x hd hx => exact add _ _ rfl rfl rfl rfl rfl
  | _ => exact same _ rfl rfl rfl

/-- **C10** (controls in the file). In every run without stop requests - with or without re-evaluation and drift compensation - every
report, and so also the best-controls file at every moment, shows the controls of the last call of the user's function before it. -/
theorem C10_reports_show_last_call_partial (hasync : ∀ n, env.async n = .none) (dsm : Dsm K V F) (o : O) :
    ∀ r ∈ (execute cfg env ops dsm o).2.dumps, r.calls ≤ (execute cfg env ops dsm o).2.log.length ∧
      r.ctl = ((execute cfg env ops dsm o).2.log.take r.calls).getLast?.map (fun c => c.ctl) :=
  (execute_inv (cfg := cfg) (env := env) (ops := ops) (d := true) SentShow ReportsShow dsm o (.inl rfl)
    ⟨fun r hr => by simp [initState] at hr, rfl⟩ (fun s s' ha h => (h.step hasync ha).2 rfl)
    (fun s s' ha h => (h.step hasync ha).1) (fun s h => h.1)).1

/-! ### The figure of merit in the file is the best figure of merit -/

/-- the figure of merit in the best-controls file, or the initial value while there is no file -/
def fileFoM (cfg : AlgCfg K F) (ds : List (DumpCall C F)) : F := match bestFile ds with
  | some d => d.fom
  | none => cfg.fomMax

theorem fileFoM_report (ds : List (DumpCall C F)) (r : DumpCall C F) (hr : r.isRecord = false) :
    fileFoM cfg (ds ++ [r]) = fileFoM cfg ds := by
  unfold fileFoM bestFile
  rw [List.foldl_append]
  simp [hr]

theorem fileFoM_record (ds : List (DumpCall C F)) (r : DumpCall C F) (hr : r.isRecord = true) :
    fileFoM cfg (ds ++ [r]) = r.fom := by
  unfold fileFoM bestFile
  rw [List.foldl_append]
  simp [hr]

/-- the file shows the best figure of merit -/
def FileIsBest (cfg : AlgCfg K F) (s : AlgState V C O F) : Prop := fileFoM cfg s.dumps = s.bestFoM

theorem FileIsBest.routine (hk : cfg.kind ≠ .grape) (hre : cfg.reEval ≠ none) (x : V) (it : ℕ) :
    KeepsAll (fun s : AlgState V C O F => FileIsBest cfg s ∧ s.isRecord = false) (routineCall cfg env ops x it) := by
  intro s0 h0
  have hq : ∀ s s' : AlgState V C O F, Quiet env s s' → FileIsBest cfg s ∧ s.isRecord = false → FileIsBest cfg s' ∧ s'.isRecord = false := by
    intro s s' q h
    rw [q.frame]; exact h
  have h := routineCall_spec (cfg := cfg) (env := env) (ops := ops) x it s0
  generalize routineCall cfg env ops x it s0 = rs at h ⊢
  obtain ⟨r, s'⟩ := rs
  cases h with
  | stopped s1 q hr => exact hq _ _ q h0
  | sigint s1 r e q hk => exact (hq _ s1 q h0 :)
  | noControls s1 e q hr hi h => exact (hq _ s1 q h0 :)
  | window s1 o c s2 q hr hi h q2 hr2 ha => exact (hq _ _ q2 (hq _ s1 q h0 :) :)
  | windowSigint s1 o c s2 r e q hr hi h q2 hk => exact (hq _ s2 q2 (hq _ s1 q h0 :) :)
  | measured s1 o c s2 q hr hi hg ht h q2 hr2 =>
    have h2 := hq _ s2 q2 (hq _ s1 q h0 :)
    have hno : ∀ v : F, ¬ ((cfg.kind = .grape ∨ cfg.reEval.isNone = true) ∧ v < s2.bestFoM) := by
      rintro v ⟨h1 | h1, _⟩
      · exact hk h1
      · exact hre (Option.isNone_iff_eq_none.mp h1)
    rcases hans : env.getFoM s2.log c with e | a
    · rw [measure_raised x c s2 e hans]; exact h2
    · rcases hf : a.fom with _ | f
      · rw [measure_noValue x c s2 a hans hf]; exact h2
      · obtain ⟨fl, il, sc', hm⟩ := measure_answered (cfg := cfg) (env := env) x c s2 a f hans hf
        rw [hm]
        simp only [if_neg (hno _)]
        refine ⟨?_, h2.2⟩
        unfold FileIsBest
        dsimp only
        split
        · rw [fileFoM_report _ _ h2.2]; exact h2.1
        · exact h2.1

theorem FileIsBest.storeTest (i : ℕ) (f : F) :
    KeepsAll (fun s : AlgState V C O F => FileIsBest cfg s ∧ s.isRecord = false) (QuOCS.storeTest i f) := by
  intro s h
  unfold QuOCS.storeTest
  rcases setIdx s.fomTest i f with e | ft
  · exact h
  · dsimp only
    rcases setIdx s.sigmaTest i (s.fomDict.std.getD 1) with e | st
    · exact h
    · exact h

theorem Leads.of_keeps {S α : Type} {P : S → Prop} {m : Prog S α} (h : KeepsAll P m) : Leads P P m := by
  intro s a s' hs e
  have := h s hs
  rw [e] at this
  exact this

theorem Leads.weaken {S α : Type} {P Q R : S → Prop} {m : Prog S α} (h : Leads P Q m) (hq : ∀ s, Q s → R s) : Leads P R m :=
  fun s a s' hs e => hq s' (h s a s' hs e)

theorem FileIsBest.finish (last : F) : Leads (fun s : AlgState V C O F => FileIsBest cfg s ∧ s.isRecord = false)
    (FileIsBest cfg) (reEvalFinish cfg env last) := by
  intro s a s' h e
  unfold reEvalFinish at e
  dsimp only at e
  split at e
  · rcases hx : s.xx with _ | x
    · rw [hx] at e; cases e
    · rw [hx] at e
      cases e
      unfold FileIsBest
      exact fileFoM_record _ _ rfl
  · cases e; exact h.1

theorem FileIsBest.loop (hk : cfg.kind ≠ .grape) (hre : cfg.reEval ≠ none) (x : V) (it : ℕ) (last : F) (ps : List F) :
    ∀ i, Leads (fun s : AlgState V C O F => FileIsBest cfg s ∧ s.isRecord = false) (FileIsBest cfg)
      (reEvalLoop cfg env ops x it last i ps) := by
  induction ps with
  | nil => exact fun i => FileIsBest.finish last
  | cons p ps ih =>
    intro i
    refine .bind .get fun s => ?_
    dsimp only
    split
    · exact Leads.weaken (.pure _) fun s h => h.1
    · exact .bind (.of_keeps (FileIsBest.routine hk hre x it)) fun f => .bind (.of_keeps (FileIsBest.storeTest _ f)) fun _ => ih (i + 1)

theorem FileIsBest.inner (hk : cfg.kind ≠ .grape) (hre : cfg.reEval ≠ none) (x : V) (it : ℕ) :
    Leads (FileIsBest cfg) (FileIsBest cfg) (innerCall cfg env ops x it : Prog (AlgState V C O F) F) := by
  obtain ⟨steps, hst⟩ := Option.ne_none_iff_exists'.mp hre
  unfold innerCall
  rw [hst]
  refine .bind (Q := fun s : AlgState V C O F => FileIsBest cfg s ∧ s.isRecord = false) (.modify fun s h => ⟨h, rfl⟩) fun _ =>
    .bind (.of_keeps (FileIsBest.routine hk hre x it)) fun f => .bind .get fun s => .bind (.modify fun s h => h) fun _ =>
    .bind (.of_keeps (FileIsBest.storeTest _ f)) fun _ => ?_
  rcases (if s.iter = 1 then [cfg.half] else steps).getLast? with _ | last
  · intro s a s' h e; cases e
  · exact FileIsBest.loop hk hre x it last _ 0

theorem FileIsBest.interp (hk : cfg.kind ≠ .grape) (hre : cfg.reEval ≠ none) {α : Type} (st : Strat K V F α) (hd : st.NoDrift) :
    Leads (FileIsBest cfg) (FileIsBest cfg) (st.interp (algHandler cfg env ops) : Prog (AlgState V C O F) α) := by
  induction st with
  | ret a => exact .pure a
  | op o k ih =>
    refine .bind ?_ fun r => ih r (hd.2 r)
    intro s r s' hs h
    by_cases he : ∃ x it, o = .eval x it
    · obtain ⟨x, it, rfl⟩ := he
      have h : (if cfg.kind = .grape then innerGrape cfg env ops x else innerCall cfg env ops x it : Prog _ F) s = (.ok r, s') := h
      rw [if_neg hk] at h
      exact FileIsBest.inner hk hre x it s r s' hs h
    · have q := handler_quiet o (fun x it h => he ⟨x, it, h⟩) hd.1 s s' r h
      unfold FileIsBest
      rw [q.frame]; exact hs

theorem FileIsBest.build (hk : cfg.kind ≠ .grape) (hre : cfg.reEval ≠ none) (dsm : Dsm K V F) (hd : ∀ i x sim sg, (dsm i x sim sg).NoDrift) :
    Leads (FileIsBest cfg) (FileIsBest cfg) (dsmBuild cfg env ops dsm : Prog (AlgState V C O F) Unit) :=
  .bind .get fun s => .bind (.lift _) fun x0 => .bind (.lift _) fun sg => .bind (.lift _) fun sim =>
    .bind (.modify fun s h => h) fun _ => .bind (FileIsBest.interp hk hre _ (hd _ _ _ _)) fun r => .modify fun s h => h

theorem FileIsBest.superLoop (hk : cfg.kind ≠ .grape) (hre : cfg.reEval ≠ none) (dsm : Dsm K V F) (hdr : NoDriftRun cfg dsm) (n : ℕ) :
    ∀ k, Leads (FileIsBest cfg) (FileIsBest cfg) (dcrabLoop cfg env ops dsm n k : Prog (AlgState V C O F) Unit) := by
  induction n with
  | zero => exact fun k => .pure _
  | succ n ih =>
    intro k
    refine .bind (Q := FileIsBest cfg) ?_ fun _ => .bind .get fun s => ?_
    · intro s a s' hs h
      rcases poll_cases (cfg := cfg) (env := env) s with ⟨_, q⟩ | ⟨_, e, he⟩
      · rw [h] at q
        replace q : Quiet env s s' := q
        unfold FileIsBest
        rw [q.frame]; exact hs
      · rw [he] at h; cases h
    split
    · exact .pure _
    · refine .bind (Q := FileIsBest cfg) ?_ fun _ => ih (k + 1)
      refine .bind (Q := FileIsBest cfg) ?_ fun now => .bind (Q := FileIsBest cfg) (.modify fun s h => h) fun _ =>
        .bind (Q := FileIsBest cfg) (.modify fun s h => h) fun _ => .bind (Q := FileIsBest cfg) ?_ fun _ => .bind .get fun s => .bind (.lift _) fun o =>
        .bind (Q := FileIsBest cfg) (.modify fun s h => h) fun _ => .bind (FileIsBest.build hk hre dsm hdr.2) fun _ => ?_
      · intro s a s' hs h; cases h; exact hs
      · unfold driftStep
        rw [if_neg (by rw [hdr.1]; simp)]
        exact .pure _
      · intro s a s' hs h
        unfold updateBasePulses at h
        rcases hx : s.bestXX with _ | x
        · rw [hx] at h; cases h
        · rw [hx] at h
          dsimp only at h
          rcases ho : ops.updateBase s.ctl x with e | o
          · rw [ho] at h; cases h
          · rw [ho] at h; cases h; exact hs

/-- **C10** (re-evaluation). After a run with re-evaluation steps (without drift compensation) that ends without exception, the
best-controls file contains the reported best figure of merit, the mean of the accepted measurements; without a file the best figure of
merit is still the initial value. With `maxSI` and `max_eval_total` arbitrary this covers the run after any super-iteration. -/
theorem C10_file_is_final_best_reeval_partial (hre : ¬ NoReEval cfg) (dsm : Dsm K V F) (hdr : NoDriftRun cfg dsm) (o : O)
    (hok : (execute cfg env ops dsm o).1 = .ok ()) :
    (match bestFile (execute cfg env ops dsm o).2.dumps with
      | some d => d.fom
      | none => cfg.fomMax) = (execute cfg env ops dsm o).2.bestFoM := by
  unfold NoReEval at hre
  push Not at hre
  have h0 : FileIsBest cfg (initState cfg env o : AlgState V C O F) := rfl
  have he : execute cfg env ops dsm o = (.ok (), (execute cfg env ops dsm o).2) := by rw [← hok]
  generalize (execute cfg env ops dsm o).2 = s' at he ⊢
  unfold execute run at he
  rcases hkd : cfg.kind with _ | _ | _
  · rw [hkd] at he
    exact FileIsBest.superLoop hre.1 hre.2 dsm hdr _ _ _ () s' h0 he
  · rw [hkd] at he
    exact FileIsBest.build hre.1 hre.2 dsm hdr.2 _ () s' h0 he
  · exact absurd hkd hre.1

/-- Re-evaluation with one threshold: the last record has mean 1 and shows the controls of the fifth call; the run ends well. -/
example : let r := (execute (exCfg .dcrab 100 false none (some [1 / 2])) (exEnv (exAns [5, 5, 6, 1, 1, 8, 9, 9, 9, 9, 9]) (fun _ => .none))
      exOps (exDsm [1, 2, 3, 4]) ())
    (r.1 = .ok () ∧ (bestFile r.2.dumps).map (fun d => (d.ctl, d.fom, d.calls)) = some (some 3, 1, 5) ∧ r.2.bestFoM = 1) := by
  decide +kernel

/-- the settings of a run with two super-iterations and drift compensation with two measurements (see `siRunRe`) -/
def siDriftCfg : AlgCfg ℚ ℚ := { exCfg .dcrab 100 false none none with driftAfterSI := true, driftAverage := 2 }

/-- **C10 is violated with drift compensation.** The best controls (call 2, value 4) are measured again between the two super-iterations,
with 7 and 9. Both measurements are written to the best-controls file as records, so the file shows 9 for these controls, while the run
goes on with the mean 8 as best figure of merit, reports 8 at its end, and nothing better than 8 is found. -/
theorem C10_drift_file_is_not_best : ∃ o, mkControls exFns (siPd false) exTd siRd = .ok o ∧
    let r := execute siDriftCfg (siEnv [5, 4, 7, 9, 10, 12]) siOps siDsm o
    (r.1 = .ok () ∧
    r.2.log.map (fun c => (c.value, c.ctl.pulses)) = [(some 5, [[1, 2]]), (some 4, [[3, 1]]), (some 7, [[3, 1]]), (some 9, [[3, 1]]),
      (some 10, [[4, 3]]), (some 12, [[5, 2]])] ∧
    (bestFile r.2.dumps).map (fun d => (d.ctl.map (fun c => c.pulses), d.fom)) = some (some [[3, 1]], 9) ∧
    finalFoM siDriftCfg r.2 = 8) := by
  rcases h : mkControls exFns (siPd false) exTd siRd with e | o
  · have hok : isOk (mkControls exFns (siPd false) exTd siRd) = true := by decide +kernel
    rw [h] at hok; cases hok
  · refine ⟨o, rfl, ?_⟩
    have hall : (mkControls exFns (siPd false) exTd siRd).map (fun o =>
      let r := execute siDriftCfg (siEnv [5, 4, 7, 9, 10, 12]) siOps siDsm o
      decide (r.1 = .ok () ∧
      r.2.log.map (fun c => (c.value, c.ctl.pulses)) = [(some 5, [[1, 2]]), (some 4, [[3, 1]]), (some 7, [[3, 1]]), (some 9, [[3, 1]]),
        (some 10, [[4, 3]]), (some 12, [[5, 2]])] ∧
      (bestFile r.2.dumps).map (fun d => (d.ctl.map (fun c => c.pulses), d.fom)) = some (some [[3, 1]], 9) ∧
      finalFoM siDriftCfg r.2 = 8)) = .ok true := by decide +kernel
    rw [h] at hall
    simpa [Except.map] using hall

end QuOCS

/-
C06: maximization is minimization of the negated figure of merit.
-/
import Verif.Spec.Direction
import Verif.Props.Run

set_option linter.unusedSectionVars false

namespace QuOCS

variable {K V C O F : Type} [LE K] [DecidableLE K]
variable [Add F] [Sub F] [Mul F] [Div F] [Neg F] [Zero F] [One F] [NatCast F] [LE F] [LT F] [DecidableLE F]
  [DecidableLT F] [FloatOrder F]

/-- the state of the mirrored run -/
def mirrorState (s : AlgState V C O F) : AlgState V C O F :=
  { s with log := s.log.map mirrorCall, fomList := s.fomList.map (fun x => -x) }

theorem mirrorAnswer_invol (a : Py (Answer F)) : mirrorAnswer (mirrorAnswer a) = a := by
  rcases a with e | ⟨_ | f, std, st⟩
  · rfl
  · rfl
  · simp [mirrorAnswer, FloatOrder.neg_neg]

theorem mirrorCall_invol (l : List (Call V C F)) : (l.map mirrorCall).map mirrorCall = l := by
  rw [List.map_map]
  conv_rhs => rw [← List.map_id l]
  congr 1
  funext c
  simp [mirrorCall, mirrorAnswer_invol]

/-- `m'` does in the mirrored run what `m` does in the original run. -/
def Mirror {α : Type} (m m' : Prog (AlgState V C O F) α) : Prop :=
  ∀ s, m' (mirrorState s) = ((m s).1, mirrorState (m s).2)

namespace Mirror
variable {α β : Type}

theorem bind {m m' : Prog (AlgState V C O F) α} {f f' : α → Prog (AlgState V C O F) β} (h : Mirror m m')
    (hf : ∀ a, Mirror (f a) (f' a)) : Mirror (m >>= f) (m' >>= f') := by
  intro s
  rw [Prog.bind_apply, Prog.bind_apply, h s]
  rcases m s with ⟨_ | a, s'⟩
  · rfl
  · exact hf a s'

theorem pure (a : α) : Mirror (Pure.pure a : Prog (AlgState V C O F) α) (Pure.pure a) := fun _ => rfl
theorem lift (a : Py α) : Mirror (Prog.lift a : Prog (AlgState V C O F) α) (Prog.lift a) := fun _ => rfl
theorem raise (e : PyErr) : Mirror (Prog.raise e : Prog (AlgState V C O F) α) (Prog.raise e) := fun _ => rfl

theorem modify (f : AlgState V C O F → AlgState V C O F) (h : ∀ s, f (mirrorState s) = mirrorState (f s)) :
    Mirror (Prog.modify f) (Prog.modify f) := fun s => by rw [Prog.modify_apply, h]; rfl

theorem get_bind {f f' : AlgState V C O F → Prog (AlgState V C O F) β}
    (h : ∀ s, Mirror (f s) (f' (mirrorState s))) : Mirror (Prog.get >>= f) (Prog.get >>= f') := fun s => h s s

theorem ite {p : Prop} [Decidable p] {a b a' b' : Prog (AlgState V C O F) α} (h1 : Mirror a a') (h2 : Mirror b b') :
    Mirror (if p then a else b) (if p then a' else b') := by
  split
  · exact h1
  · exact h2

variable (cfg : AlgCfg K F) (env : Env V C F) (ops : CtlOps O V C) (hm : cfg.maximize = true)
include hm

theorem goal_eq : (asMinimization cfg).goal = cfg.goal := by
  unfold AlgCfg.goal asMinimization
  rw [hm, Option.map_map]
  rfl

theorem poll : Mirror (poll (O := O) cfg env) (QuOCS.poll (asMinimization cfg) (mirrorEnv env)) := by
  intro s
  unfold QuOCS.poll
  show (match env.async s.polls with
    | .none => _ | .guiStop => _ | .sigint => _) = _
  rcases env.async s.polls with _ | _ | _
  · rfl
  · rfl
  · show (if cfg.hasDsm = true then _ else _) = _
    by_cases h : cfg.hasDsm = true
    · simp only [h, if_true]
      show (_, _) = _
      rfl
    · simp only [h]
      rfl

theorem readClock : Mirror (readClock env) (readClock (O := O) (mirrorEnv env)) := fun _ => rfl

theorem stopWith (r : String) : Mirror (stopWith cfg r) (QuOCS.stopWith (V := V) (C := C) (O := O) (asMinimization cfg) r) :=
  fun _ => rfl

theorem stopChecks : Mirror (stopChecks cfg env) (QuOCS.stopChecks (O := O) (asMinimization cfg) (mirrorEnv env)) := by
  refine bind ?_ fun _ => bind ?_ fun _ => ?_
  · intro s
    unfold budgetCheck
    show (if (s.iter : ℤ) ≥ cfg.maxEvalTotal then _ else _) = _
    split <;> rfl
  · intro s
    unfold goalCheck
    rw [goal_eq cfg hm]
    rcases cfg.goal with _ | g
    · rfl
    · show (if s.bestFoM ≤ g then _ else _) = _
      dsimp only
      split <;> rfl
  · refine ite (bind (readClock cfg env hm) fun now => ?_) (pure _)
    intro s
    unfold timeCheckAt
    show (if now - s.optStart ≥ cfg.totalTimeLim then _ else _) = _
    split <;> rfl

theorem sendControls (x : V) : Mirror (sendControls ops x) (QuOCS.sendControls (F := F) ops x) := by
  intro s
  unfold QuOCS.sendControls
  show (match ops.getControls s.ctl x with | .error e => _ | .ok (o, c) => _) = _
  rcases ops.getControls s.ctl x with e | ⟨o, c⟩ <;> rfl

theorem getData (x : V) (c : C) :
    Mirror (getData cfg env x c) (QuOCS.getData (O := O) (asMinimization cfg) (mirrorEnv env) x c) := by
  intro s
  unfold QuOCS.getData mirrorEnv
  simp only [mirrorState, mirrorCall_invol]
  rcases h : env.getFoM s.log c with e | ⟨_ | f, std, st⟩
  · simp [mirrorAnswer, mirrorCall]
  · simp [mirrorAnswer, mirrorCall]
  · simp [mirrorAnswer, mirrorCall, dirMul, hm, asMinimization]

theorem response : Mirror (response cfg) (QuOCS.response (V := V) (C := C) (O := O) (asMinimization cfg)) := by
  intro s
  have e1 : averageCurrent (mirrorState s) = averageCurrent s := rfl
  unfold QuOCS.response
  rw [e1]
  simp only [asMinimization, hm, dirMul, mirrorState, if_true, Bool.false_eq_true, if_false]
  have hk : cfg.kind = .dcrab ∨ cfg.kind = .directSearch ∨ cfg.kind = .grape := by cases cfg.kind <;> simp
  have hr : cfg.reEval = none ∨ ∃ l, cfg.reEval = some l := by cases cfg.reEval <;> simp
  by_cases h2 : s.fomDict.status.getD 0 = 0 <;> by_cases h3 : averageCurrent s < s.bestFoM <;>
    by_cases h4 : s.fomDict.fom < s.bestFoM <;> rcases hk with hk | hk | hk <;>
    rcases hr with hr | ⟨l, hr⟩ <;> simp [h2, h3, h4, hk, hr, FloatOrder.neg_neg]

theorem trackFoM : Mirror (trackFoM cfg) (QuOCS.trackFoM (V := V) (C := C) (O := O) (asMinimization cfg)) := by
  intro s
  unfold QuOCS.trackFoM
  rw [Prog.modify_apply, Prog.modify_apply]
  show (_, if cfg.hasDsm = true then _ else _) = _
  dsimp only
  split <;> rfl

theorem sendResponse (f : F) : Mirror (sendResponse f) (QuOCS.sendResponse (V := V) (C := C) (O := O) f) := by
  intro s
  unfold QuOCS.sendResponse
  show (if s.fomDict.status.getD 0 ≠ 0 then _ else _) = _
  split
  · rfl
  · simp [dumpControls, mirrorState]

theorem measure (x : V) (c : C) :
    Mirror (measure cfg env x c) (QuOCS.measure (O := O) (asMinimization cfg) (mirrorEnv env) x c) :=
  bind (getData cfg env hm x c) fun _ => bind (response cfg hm) fun f => bind (sendResponse cfg hm f) fun _ =>
    bind (trackFoM cfg hm) fun _ => get_bind fun _ => pure _

theorem routineCall (x : V) (it : ℕ) :
    Mirror (routineCall cfg env ops x it) (QuOCS.routineCall (asMinimization cfg) (mirrorEnv env) ops x it) :=
  bind (poll cfg env hm) fun _ => bind (stopChecks cfg env hm) fun _ => bind (poll cfg env hm) fun _ =>
    get_bind fun _ => ite (pure _) (bind (modify _ fun _ => rfl) fun _ => bind (sendControls cfg ops hm x) fun c =>
      bind (poll cfg env hm) fun _ => get_bind fun _ => ite (pure _) (measure cfg env hm x c))

theorem storeTest (i : ℕ) (f : F) : Mirror (storeTest i f) (QuOCS.storeTest (V := V) (C := C) (O := O) i f) := by
  intro s
  unfold QuOCS.storeTest
  show (match setIdx s.fomTest i f with | .error e => _ | .ok ft => _) = _
  rcases setIdx s.fomTest i f with e | ft
  · rfl
  · show (match setIdx s.sigmaTest i (s.fomDict.std.getD 1) with | .error e => _ | .ok st => _) = _
    dsimp only
    rcases setIdx s.sigmaTest i (s.fomDict.std.getD 1) with e | st <;> rfl

theorem reEvalFinish (last : F) :
    Mirror (reEvalFinish cfg env last) (QuOCS.reEvalFinish (O := O) (asMinimization cfg) (mirrorEnv env) last) := by
  intro s
  unfold QuOCS.reEvalFinish
  show (if probBetter cfg env (averageSum s).1 (averageSum s).2 s.bestFoM s.bestSigma > last then _ else _) = _
  dsimp only
  by_cases h : probBetter cfg env (averageSum s).1 (averageSum s).2 s.bestFoM s.bestSigma > last
  · rw [if_pos h, if_pos h]
    have hx : (mirrorState s).xx = s.xx := rfl
    simp only [hx]
    rcases s.xx with _ | x <;> simp [mirrorState, dumpControls, averageSum]
  · rw [if_neg h, if_neg h]
    rfl

theorem reEvalLoop (x : V) (it : ℕ) (last : F) (ps : List F) (i : ℕ) :
    Mirror (reEvalLoop cfg env ops x it last i ps)
      (QuOCS.reEvalLoop (asMinimization cfg) (mirrorEnv env) ops x it last i ps) := by
  induction ps generalizing i with
  | nil => exact reEvalFinish cfg env hm last
  | cons p ps ih =>
    exact get_bind fun _ => ite (pure _)
      (bind (routineCall cfg env ops hm x it) fun f => bind (storeTest cfg hm _ f) fun _ => ih _)

theorem innerCall (x : V) (it : ℕ) :
    Mirror (innerCall cfg env ops x it) (QuOCS.innerCall (asMinimization cfg) (mirrorEnv env) ops x it) := by
  refine bind (modify _ fun _ => rfl) fun _ => bind (routineCall cfg env ops hm x it) fun f => ?_
  show Mirror _ (match cfg.reEval with | none => _ | some steps => _)
  rcases cfg.reEval with _ | steps
  · exact pure f
  · refine get_bind fun s => bind (modify _ fun _ => rfl) fun _ => bind (storeTest cfg hm _ f) fun _ => ?_
    show Mirror _ (match (if s.iter = 1 then [cfg.half] else steps).getLast? with | none => _ | some last => _)
    rcases (if s.iter = 1 then [cfg.half] else steps).getLast? with _ | last
    · exact raise _
    · exact reEvalLoop cfg env ops hm x it last _ _

theorem innerDrift (v : F) : Mirror (innerDrift v) (QuOCS.innerDrift (V := V) (C := C) (O := O) v) := by
  intro s
  have hx : (mirrorState s).xx = s.xx := rfl
  unfold QuOCS.innerDrift
  simp only [hx]
  rcases s.xx with _ | x <;> simp [mirrorState, dumpControls, averageSum]

theorem innerGrape (x : V) :
    Mirror (innerGrape cfg env ops x) (QuOCS.innerGrape (asMinimization cfg) (mirrorEnv env) ops x) := by
  refine bind (modify _ fun _ => rfl) fun _ => bind ?_ fun _ => routineCall cfg env ops hm x 0
  intro s
  unfold gradientControls
  show (match ops.getControls s.ctl x with | .error e => _ | .ok (o, _) => _) = _
  rcases ops.getControls s.ctl x with e | ⟨o, c⟩ <;> rfl

theorem withSc (f : Sc F → Sc F) : Mirror (withSc f) (QuOCS.withSc (V := V) (C := C) (O := O) f) := fun _ => rfl

theorem algHandler (o : Op K V F) :
    Mirror (algHandler cfg env ops o) (QuOCS.algHandler (asMinimization cfg) (mirrorEnv env) ops o) := by
  cases o with
  | eval x it =>
    show Mirror (if cfg.kind = .grape then _ else _) (if cfg.kind = .grape then _ else _)
    split
    · exact innerGrape cfg env ops hm x
    · exact innerCall cfg env ops hm x it
  | drift x it v => exact innerDrift cfg hm v
  | readConv => exact bind (poll cfg env hm) fun _ => get_bind fun _ => pure _
  | setConv b => exact withSc cfg hm (fun sc => { sc with isConverged := b })
  | callback => exact bind (poll cfg env hm) fun _ => get_bind fun _ => pure _
  | userStop => exact withSc cfg hm (fun sc => { sc with isConverged := true, reason :=
      "User stopped the optimization or higher order stopping criterion has been reached" })
  | checkNM size fsim calls =>
    exact bind (readClock cfg env hm) fun now => get_bind fun s =>
      bind (lift (nmCheck env.sqrt cfg.sc s.sc size fsim calls now)) fun sc => withSc cfg hm _
  | checkCMA fsim calls => exact bind (readClock cfg env hm) fun now => withSc cfg hm _
  | now => exact readClock cfg env hm
  | reason => exact get_bind fun _ => pure _
  | fail e => exact raise e

theorem interp (m : Strat K V F α) :
    Mirror (m.interp (QuOCS.algHandler cfg env ops)) (m.interp (QuOCS.algHandler (asMinimization cfg) (mirrorEnv env) ops)) := by
  induction m with
  | ret a => exact pure a
  | op o k ih => exact bind (algHandler cfg env ops hm o) ih

theorem dsmBuild (dsm : Dsm K V F) :
    Mirror (dsmBuild cfg env ops dsm) (QuOCS.dsmBuild (asMinimization cfg) (mirrorEnv env) ops dsm) :=
  get_bind fun s => bind (lift (ops.mean s.ctl)) fun x0 => bind (lift (ops.sigma s.ctl)) fun sg =>
    bind (lift (ops.simplex s.superIt x0 sg)) fun sim => bind (modify _ fun _ => rfl) fun _ =>
      bind (interp cfg env ops hm (dsm _ x0 sim sg)) fun r => modify _ fun _ => rfl

theorem sumRoutine (x : V) (n : ℕ) (acc : F) :
    Mirror (sumRoutine cfg env ops x n acc) (QuOCS.sumRoutine (asMinimization cfg) (mirrorEnv env) ops x n acc) := by
  induction n generalizing acc with
  | zero => exact pure acc
  | succ n ih => exact bind (routineCall cfg env ops hm x 0) fun f => ih _

theorem updateFoM : Mirror (updateFoM cfg env ops) (QuOCS.updateFoM (asMinimization cfg) (mirrorEnv env) ops) := by
  exact get_bind fun s => bind (lift (ops.mean s.ctl)) fun x0 => bind (modify _ fun _ => rfl) fun _ =>
    bind (sumRoutine cfg env ops hm x0 _ _) fun f =>
      ite (raise _) (modify _ fun _ => rfl)

theorem updateBasePulses : Mirror (updateBasePulses ops) (QuOCS.updateBasePulses (F := F) ops) := by
  intro s
  have hx : (mirrorState s).bestXX = s.bestXX := rfl
  have hc : (mirrorState s).ctl = s.ctl := rfl
  unfold QuOCS.updateBasePulses
  simp only [hx, hc]
  rcases s.bestXX with _ | x
  · rfl
  · dsimp only
    rcases ops.updateBase s.ctl x with e | o <;> rfl

theorem superIteration (dsm : Dsm K V F) (k : ℕ) :
    Mirror (superIteration cfg env ops dsm k) (QuOCS.superIteration (asMinimization cfg) (mirrorEnv env) ops dsm k) := by
  refine bind (readClock cfg env hm) fun now => bind (withSc cfg hm _) fun _ => bind (modify _ fun _ => rfl) fun _ =>
    bind ?_ fun _ => get_bind fun s => ?_
  · show Mirror (if cfg.driftAfterSI = true ∧ k ≥ 2 then _ else _) (if cfg.driftAfterSI = true ∧ k ≥ 2 then _ else _)
    split
    · exact updateFoM cfg env ops hm
    · exact pure _
  · exact bind (lift (ops.selectBasis k s.ctl)) fun o => bind (modify _ fun _ => rfl) fun _ =>
      bind (dsmBuild cfg env ops hm dsm) fun _ => updateBasePulses cfg ops hm

theorem dcrabLoop (dsm : Dsm K V F) (n k : ℕ) :
    Mirror (dcrabLoop cfg env ops dsm n k) (QuOCS.dcrabLoop (asMinimization cfg) (mirrorEnv env) ops dsm n k) := by
  induction n generalizing k with
  | zero => exact pure _
  | succ n ih =>
    exact bind (poll cfg env hm) fun _ => get_bind fun _ => ite (pure _)
      (bind (superIteration cfg env ops hm dsm k) fun _ => ih _)

theorem run (dsm : Dsm K V F) : Mirror (run cfg env ops dsm) (QuOCS.run (asMinimization cfg) (mirrorEnv env) ops dsm) := by
  unfold QuOCS.run
  show Mirror _ (match cfg.kind with | .dcrab => _ | .directSearch => _ | .grape => _)
  rcases cfg.kind with _ | _ | _
  · exact dcrabLoop cfg env ops hm dsm _ _
  · exact dsmBuild cfg env ops hm dsm
  · exact get_bind fun s => bind (lift (ops.mean s.ctl)) fun x0 => bind (lift (ops.sigma s.ctl)) fun sg =>
      bind (lift (ops.simplex 0 x0 sg)) fun sim => bind (interp cfg env ops hm (dsm 0 x0 sim sg)) fun _ =>
        updateBasePulses cfg ops hm

end Mirror

variable (cfg : AlgCfg K F) (env : Env V C F) (ops : CtlOps O V C)

/-- **C06.** A maximization and the minimization of the negated figure of merit (negated goal) call the user's function
with the same search vectors and controls in the same order at the same times, get opposite answers, give the same
reports and internal state, end in the same way, and report opposite best values. Holds for every search method, with
re-evaluation and drift compensation, for failing and raising user functions. -/
theorem C06_maximization_mirrors_minimization (hm : cfg.maximize = true) (dsm : Dsm K V F) (o : O) :
    (execute (asMinimization cfg) (mirrorEnv env) ops dsm o).1 = (execute cfg env ops dsm o).1 ∧
    (execute (asMinimization cfg) (mirrorEnv env) ops dsm o).2.log = (execute cfg env ops dsm o).2.log.map mirrorCall ∧
    (execute (asMinimization cfg) (mirrorEnv env) ops dsm o).2.fomList =
      (execute cfg env ops dsm o).2.fomList.map (fun x => -x) ∧
    (execute (asMinimization cfg) (mirrorEnv env) ops dsm o).2.dumps = (execute cfg env ops dsm o).2.dumps ∧
    (execute (asMinimization cfg) (mirrorEnv env) ops dsm o).2.ctl = (execute cfg env ops dsm o).2.ctl ∧
    (execute (asMinimization cfg) (mirrorEnv env) ops dsm o).2.bestXX = (execute cfg env ops dsm o).2.bestXX ∧
    finalFoM cfg (execute cfg env ops dsm o).2 =
      -finalFoM (asMinimization cfg) (execute (asMinimization cfg) (mirrorEnv env) ops dsm o).2 := by
  have h := Mirror.run cfg env ops hm dsm (initState cfg env o)
  have hi : mirrorState (initState cfg env o) = initState (asMinimization cfg) (mirrorEnv env) o := rfl
  rw [hi] at h
  unfold execute
  rw [h]
  refine ⟨rfl, rfl, rfl, rfl, rfl, rfl, ?_⟩
  unfold finalFoM dirMul
  rw [hm]
  rfl

/-- A maximization with goal and the mirrored minimization. -/
example : ((execute (exCfg .dcrab 100 true (some 6) none) (exEnv (exAns [5, 4, 6, 7]) (fun _ => .none)) exOps
      (exDsm [1, 2, 3, 4]) ()).2.log.map (fun c => (c.ctl, c.value)) = [(1, some 5), (2, some 4), (3, some 6)]) ∧
    ((execute (exCfg .dcrab 100 false (some (-6)) none) (exEnv (exAns [-5, -4, -6, -7]) (fun _ => .none)) exOps
      (exDsm [1, 2, 3, 4]) ()).2.log.map (fun c => (c.ctl, c.value)) = [(1, some (-5)), (2, some (-4)), (3, some (-6))]) := by
  constructor <;> decide +kernel

end QuOCS

/-
Two runs with controls objects that correspond to each other take the same steps.
-/
import Verif.Spec.Recoord
import Verif.Lemmas.Prog
import Verif.Lemmas.MapSearch

set_option linter.unusedSectionVars false
set_option linter.unusedVariables false

namespace QuOCS

section
variable {K V C O F : Type} [LE K] [DecidableLE K]
variable [Add F] [Sub F] [Mul F] [Div F] [Neg F] [Zero F] [One F] [NatCast F] [LE F] [LT F] [DecidableLE F]
  [DecidableLT F]
variable {α β γ δ : Type}

/-- the same exception, or related results -/
def RelPy (R : α → β → Prop) : Py α → Py β → Prop
  | .ok a, .ok b => R a b
  | .error e, .error e' => e = e'
  | _, _ => False

theorem RelPy.imp {R R' : α → β → Prop} {x : Py α} {y : Py β} (h : RelPy R x y) (hR : ∀ a b, R a b → R' a b) : RelPy R' x y := by
  rcases x with e | a <;> rcases y with e' | b
  · exact h
  · exact h
  · exact h
  · exact hR _ _ h

theorem RelPy.bind {R : α → β → Prop} {R' : γ → δ → Prop} {x : Py α} {y : Py β} {f : α → Py γ} {g : β → Py δ} (h : RelPy R x y)
    (hf : ∀ a b, R a b → RelPy R' (f a) (g b)) : RelPy R' (x >>= f) (y >>= g) := by
  rcases x with e | a <;> rcases y with e' | b
  · exact h
  · exact h.elim
  · exact h.elim
  · exact hf _ _ h

/-- the signals in the other units -/
def Signal.recoord (Tc : C → C) : Signal C F → Signal C F
  | .controls c => .controls (Tc c)
  | .plot i f => .plot i f

/-- the state of the run in the other units, with the controls object `o` -/
def AlgState.recoord (T : V → V) (Tc : C → C) (o : O) (s : AlgState V C O F) : AlgState V C O F :=
  { s with xx := s.xx.map T, bestXX := s.bestXX.map T, ctl := o, commCtl := s.commCtl.map Tc, paraList := s.paraList.map T
           dumps := s.dumps.map (DumpCall.recoord Tc), signals := s.signals.map (Signal.recoord Tc), log := s.log.map (Call.recoord T Tc) }

/-- The operations of the two controls objects correspond to each other: `T` acts on search vectors, `Ts` on start sizes. -/
structure Corresponds (ops ops' : CtlOps O V C) (RO : O → O → Prop) (T Ts : V → V) (Tc : C → C) : Prop where
  get : ∀ o o' x, RO o o' → RelPy (fun p q => RO p.1 q.1 ∧ q.2 = Tc p.2) (ops.getControls o x) (ops'.getControls o' (T x))
  mean : ∀ o o', RO o o' → RelPy (fun x y => y = T x) (ops.mean o) (ops'.mean o')
  sigma : ∀ o o', RO o o' → RelPy (fun x y => y = Ts x) (ops.sigma o) (ops'.sigma o')
  update : ∀ o o' x, RO o o' → RelPy RO (ops.updateBase o x) (ops'.updateBase o' (T x))
  select : ∀ k o o', RO o o' → RelPy RO (ops.selectBasis k o) (ops'.selectBasis k o')
  simplex : ∀ k x sg, RelPy (fun l l' => l' = l.map T) (ops.simplex k x sg) (ops'.simplex k (T x) (Ts sg))

variable {T Ts : V → V} {Tc : C → C} {RO : O → O → Prop}

/-- `m'` does in the other units what `m` does. -/
def Par (T : V → V) (Tc : C → C) (RO : O → O → Prop) (R : α → β → Prop) (m : Prog (AlgState V C O F) α)
    (m' : Prog (AlgState V C O F) β) : Prop :=
  ∀ s o, RO s.ctl o → RelPy R (m s).1 (m' (s.recoord T Tc o)).1 ∧
    ∃ o', RO (m s).2.ctl o' ∧ (m' (s.recoord T Tc o)).2 = (m s).2.recoord T Tc o'

theorem Par.bind {R : α → β → Prop} {R' : γ → δ → Prop} {m : Prog (AlgState V C O F) α} {m' : Prog (AlgState V C O F) β}
    {f : α → Prog (AlgState V C O F) γ} {f' : β → Prog (AlgState V C O F) δ} (hm : Par T Tc RO R m m')
    (hf : ∀ a b, R a b → Par T Tc RO R' (f a) (f' b)) : Par T Tc RO R' (m >>= f) (m' >>= f') := by
  intro s o ho
  obtain ⟨h1, o', h2, h3⟩ := hm s o ho
  rw [Prog.bind_apply, Prog.bind_apply]
  rcases e : m s with ⟨e1 | a, t⟩ <;> rcases e' : m' (s.recoord T Tc o) with ⟨e2 | b, t'⟩ <;> rw [e, e'] at h1 h3 <;> rw [e] at h2
  · exact ⟨h1, o', h2, h3⟩
  · exact h1.elim
  · exact h1.elim
  · have h3 : t' = t.recoord T Tc o' := h3
    subst h3
    exact hf a b h1 t o' h2

theorem Par.get_bind {R : γ → δ → Prop} {f : AlgState V C O F → Prog (AlgState V C O F) γ}
    {f' : AlgState V C O F → Prog (AlgState V C O F) δ}
    (h : ∀ s o, RO s.ctl o → Par T Tc RO R (f s) (f' (s.recoord T Tc o))) : Par T Tc RO R (Prog.get >>= f) (Prog.get >>= f') :=
  fun s o ho => h s o ho s o ho

theorem Par.pure {R : α → β → Prop} {a : α} {b : β} (h : R a b) :
    Par (F := F) T Tc RO R (Pure.pure a) (Pure.pure b) := fun s o ho => ⟨h, o, ho, rfl⟩

theorem Par.lift {R : α → β → Prop} {x : Py α} {y : Py β} (h : RelPy R x y) : Par (F := F) T Tc RO R (Prog.lift x) (Prog.lift y) := by
  intro s o ho
  rcases x with e | a <;> rcases y with e' | b
  · exact ⟨h, o, ho, rfl⟩
  · exact h.elim
  · exact h.elim
  · exact ⟨h, o, ho, rfl⟩

theorem Par.raise {R : α → β → Prop} (e : PyErr) : Par (F := F) T Tc RO R (Prog.raise e) (Prog.raise e) :=
  fun s o ho => ⟨rfl, o, ho, rfl⟩

theorem Par.modify {f f' : AlgState V C O F → AlgState V C O F} (h : ∀ s o, RO s.ctl o → ∃ o', RO (f s).ctl o' ∧
    f' (s.recoord T Tc o) = (f s).recoord T Tc o') : Par T Tc RO (fun _ _ => True) (Prog.modify f) (Prog.modify f') := by
  intro s o ho
  obtain ⟨o', h1, h2⟩ := h s o ho
  exact ⟨trivial, o', h1, h2⟩

theorem Par.imp {R R' : α → β → Prop} {m : Prog (AlgState V C O F) α} {m' : Prog (AlgState V C O F) β} (h : Par T Tc RO R m m')
    (hR : ∀ a b, R a b → R' a b) : Par T Tc RO R' m m' := by
  intro s o ho
  obtain ⟨h1, h2⟩ := h s o ho
  exact ⟨h1.imp hR, h2⟩

variable {cfg : AlgCfg K F} {env : Env V C F} {ops ops' : CtlOps O V C} {xatol : K}
variable {fm : List (Call V C F) → C → Py (Answer F)}

local notation "cfg'" => AlgCfg.withTol cfg xatol
local notation "env'" => Env.asking env fm

theorem par_stopWith (r : String) : Par (V := V) (C := C) (F := F) T Tc RO (fun _ _ => True) (stopWith cfg r) (stopWith cfg' r) :=
  .modify fun s o ho => ⟨o, ho, rfl⟩

theorem par_poll : Par (O := O) T Tc RO (fun _ _ => True) (poll cfg env) (poll cfg' env') := by
  intro s o ho
  unfold poll
  rw [show (env').async (s.recoord T Tc o).polls = env.async s.polls from rfl]
  rcases env.async s.polls with _ | _ | _
  · exact ⟨trivial, o, ho, rfl⟩
  · exact ⟨trivial, o, ho, rfl⟩
  · dsimp only
    rw [show (cfg').hasDsm = cfg.hasDsm from rfl]
    split
    · exact par_stopWith _ { s with polls := s.polls + 1 } o ho
    · exact ⟨rfl, o, ho, rfl⟩

theorem par_readClock : Par (O := O) T Tc RO (fun a b => b = a) (readClock env) (readClock env') :=
  fun s o ho => ⟨rfl, o, ho, rfl⟩

theorem par_stopChecks : Par (O := O) T Tc RO (fun _ _ => True) (stopChecks cfg env) (stopChecks cfg' env') := by
  refine .bind (R := fun _ _ => True) ?_ fun _ _ _ => .bind (R := fun _ _ => True) ?_ fun _ _ _ => ?_
  · intro s o ho
    unfold budgetCheck
    by_cases h : (s.iter : ℤ) ≥ cfg.maxEvalTotal
    · rw [if_pos h, if_pos (show ((s.recoord T Tc o).iter : ℤ) ≥ (cfg').maxEvalTotal from h)]
      exact par_stopWith _ s o ho
    · rw [if_neg h, if_neg (show ¬ ((s.recoord T Tc o).iter : ℤ) ≥ (cfg').maxEvalTotal from h)]
      exact ⟨trivial, o, ho, rfl⟩
  · intro s o ho
    unfold goalCheck
    rw [show (cfg').goal = cfg.goal from rfl]
    rcases cfg.goal with _ | g
    · exact ⟨trivial, o, ho, rfl⟩
    · dsimp only
      split
      · next h =>
        rw [if_pos (show (s.recoord T Tc o).bestFoM ≤ g from h)]
        exact par_stopWith _ s o ho
      · next h =>
        rw [if_neg (show ¬ (s.recoord T Tc o).bestFoM ≤ g from h)]
        exact ⟨trivial, o, ho, rfl⟩
  · unfold timeCheck
    rw [show (cfg').totalTimeLim = cfg.totalTimeLim from rfl]
    split
    · refine par_readClock.bind fun a b hb => ?_
      subst hb
      intro s o ho
      unfold timeCheckAt
      by_cases h : b - s.optStart ≥ cfg.totalTimeLim
      · rw [if_pos h, if_pos (show b - (s.recoord T Tc o).optStart ≥ (cfg').totalTimeLim from h)]
        exact par_stopWith _ s o ho
      · rw [if_neg h, if_neg (show ¬ b - (s.recoord T Tc o).optStart ≥ (cfg').totalTimeLim from h)]
        exact ⟨trivial, o, ho, rfl⟩
    · exact .pure trivial

theorem par_sendControls (hC : Corresponds ops ops' RO T Ts Tc) (x : V) :
    Par (F := F) T Tc RO (fun c c' => c' = Tc c) (sendControls ops x) (sendControls ops' (T x)) := by
  intro s o ho
  have h := hC.get s.ctl o x ho
  unfold sendControls
  dsimp only [AlgState.recoord]
  generalize ops.getControls s.ctl x = u at h ⊢
  generalize ops'.getControls o (T x) = u' at h ⊢
  rcases u with e | ⟨p, c⟩ <;> rcases u' with e' | ⟨p', c'⟩
  · exact ⟨h, o, ho, rfl⟩
  · exact h.elim
  · exact h.elim
  · obtain ⟨h1, h2⟩ := h
    subst h2
    refine ⟨rfl, p', h1, ?_⟩
    simp only [AlgState.recoord, List.map_append, List.map_cons, List.map_nil, Signal.recoord, Option.map_some]

theorem par_dump (b : Bool) (f : F) : Par (V := V) T Tc RO (fun _ _ => True) (dumpControls b f) (dumpControls b f) := by
  refine .modify fun s o ho => ⟨o, ho, ?_⟩
  simp only [AlgState.recoord, List.map_append, List.map_cons, List.map_nil, DumpCall.recoord, List.length_map]

theorem par_getData (hfm : InUnits T Tc env.getFoM fm) (x : V) (c : C) :
    Par (O := O) T Tc RO (fun _ _ => True) (getData cfg env x c) (getData cfg' env' (T x) (Tc c)) := by
  intro s o ho
  have ha : (env').getFoM (s.recoord T Tc o).log (Tc c) = env.getFoM s.log c := hfm s.log c
  unfold getData
  dsimp only
  rw [ha]
  have hl : (s.recoord T Tc o).log ++ [(⟨T x, Tc c, env.getFoM s.log c, (s.recoord T Tc o).polls, (s.recoord T Tc o).ticks⟩ : Call V C F)] =
      (s.log ++ [(⟨x, c, env.getFoM s.log c, s.polls, s.ticks⟩ : Call V C F)]).map (Call.recoord T Tc) := by
    rw [List.map_append]; rfl
  rw [hl]
  rcases env.getFoM s.log c with e | ⟨_ | f, st, code⟩
  · exact ⟨rfl, o, ho, rfl⟩
  · exact ⟨rfl, o, ho, rfl⟩
  · exact ⟨trivial, o, ho, rfl⟩

theorem averageCurrent_recoord (s : AlgState V C O F) (o : O) : averageCurrent (s.recoord T Tc o) = averageCurrent s := rfl

theorem par_response : Par (V := V) T Tc RO (fun a b => b = a) (response cfg) (response cfg') := by
  intro s o ho
  unfold response
  rw [averageCurrent_recoord, show (cfg').kind = cfg.kind from rfl, show (cfg').reEval = cfg.reEval from rfl,
    show (cfg').maximize = cfg.maximize from rfl]
  dsimp only
  rw [show (s.recoord T Tc o).fomDict = s.fomDict from rfl, show (s.recoord T Tc o).bestFoM = s.bestFoM from rfl]
  generalize (if cfg.kind = .dcrab then averageCurrent s else s.fomDict.fom) = fom
  generalize (if cfg.kind = .directSearch ∧ cfg.reEval.isSome = true then averageCurrent s else fom) = listed
  by_cases h1 : (cfg.kind = .grape ∨ cfg.reEval.isNone = true) ∧ fom < s.bestFoM <;>
    by_cases h2 : s.fomDict.status.getD 0 = 0 <;> simp only [h1, h2, and_self, if_true, if_false] <;> exact ⟨rfl, o, ho, rfl⟩

theorem par_sendResponse (f : F) : Par (V := V) T Tc RO (fun _ _ => True) (sendResponse f) (sendResponse f) := by
  intro s o ho
  unfold sendResponse
  rw [show (s.recoord T Tc o).fomDict = s.fomDict from rfl]
  split
  · exact ⟨trivial, o, ho, rfl⟩
  · refine ⟨trivial, o, ho, ?_⟩
    simp only [dumpControls, Prog.modify_apply, AlgState.recoord, List.map_append, List.map_cons, List.map_nil, DumpCall.recoord, Signal.recoord,
      List.length_map]

theorem par_trackFoM : Par (V := V) T Tc RO (fun _ _ => True) (trackFoM cfg) (trackFoM cfg') := by
  refine .modify fun s o ho => ⟨o, ?_, ?_⟩
  · split <;> exact ho
  · rw [show (cfg').hasDsm = cfg.hasDsm from rfl]
    split <;> rfl

theorem par_measure (hfm : InUnits T Tc env.getFoM fm) (x : V) (c : C) :
    Par (O := O) T Tc RO (fun a b => b = a) (measure cfg env x c) (measure cfg' env' (T x) (Tc c)) := by
  refine (par_getData hfm x c).bind fun _ _ _ => par_response.bind fun a b hb => ?_
  subst hb
  refine (par_sendResponse b).bind fun _ _ _ => par_trackFoM.bind fun _ _ _ => .get_bind fun s o ho => .pure rfl

theorem par_routine (hC : Corresponds ops ops' RO T Ts Tc) (hfm : InUnits T Tc env.getFoM fm) (x : V) (it : ℕ) :
    Par T Tc RO (fun a b => b = a) (routineCall cfg env ops x it) (routineCall cfg' env' ops' (T x) it) := by
  refine par_poll.bind fun _ _ _ => par_stopChecks.bind fun _ _ _ => par_poll.bind fun _ _ _ => .get_bind fun s o ho => ?_
  rw [show (s.recoord T Tc o).running = s.running from rfl]
  split
  · exact .pure rfl
  · refine .bind (R := fun _ _ => True) (.modify fun s o ho => ⟨o, ho, rfl⟩) fun _ _ _ => (par_sendControls hC x).bind fun c c' hc => ?_
    subst hc
    refine par_poll.bind fun _ _ _ => .get_bind fun s o ho => ?_
    rw [show (s.recoord T Tc o).running = s.running from rfl]
    split
    · exact .pure rfl
    · exact par_measure hfm x c

theorem par_storeTest (i : ℕ) (f : F) : Par (V := V) T Tc RO (fun _ _ => True) (storeTest i f) (storeTest i f) := by
  intro s o ho
  unfold storeTest
  rw [show (s.recoord T Tc o).fomTest = s.fomTest from rfl]
  rcases setIdx s.fomTest i f with e | ft
  · exact ⟨rfl, o, ho, rfl⟩
  · dsimp only
    rw [show (s.recoord T Tc o).sigmaTest = s.sigmaTest from rfl, show (s.recoord T Tc o).fomDict = s.fomDict from rfl]
    rcases setIdx s.sigmaTest i (s.fomDict.std.getD 1) with e | st
    · exact ⟨rfl, o, ho, rfl⟩
    · exact ⟨trivial, o, ho, rfl⟩

theorem par_reEvalFinish (last : F) :
    Par (O := O) T Tc RO (fun a b => b = a) (reEvalFinish cfg env last) (reEvalFinish cfg' env' last) := by
  intro s o ho
  unfold reEvalFinish
  rw [show averageSum (s.recoord T Tc o) = averageSum s from rfl]
  dsimp only
  rw [show probBetter cfg' env' (averageSum s).1 (averageSum s).2 (s.recoord T Tc o).bestFoM (s.recoord T Tc o).bestSigma =
    probBetter cfg env (averageSum s).1 (averageSum s).2 s.bestFoM s.bestSigma from rfl]
  split
  · rw [show (s.recoord T Tc o).xx = s.xx.map T from rfl]
    rcases hx : s.xx with _ | x
    · exact ⟨rfl, o, ho, by simp only [AlgState.recoord, hx]; rfl⟩
    · have h := ((par_dump (V := V) (T := T) (Tc := Tc) (RO := RO) true (averageSum s).1).bind fun _ _ _ => Par.pure (T := T) (Tc := Tc) (RO := RO) (R := fun a b => b = a) (a := (averageSum s).1) rfl)
        { s with bestSigma := (averageSum s).2, bestFoM := (averageSum s).1, isRecord := true, bestXX := some x } o ho
      rw [hx] at h
      exact h
  · exact ⟨rfl, o, ho, rfl⟩

theorem par_reEvalLoop (hC : Corresponds ops ops' RO T Ts Tc) (hfm : InUnits T Tc env.getFoM fm) (x : V) (it : ℕ) (last : F) (ps : List F) :
    ∀ i, Par T Tc RO (fun a b => b = a) (reEvalLoop cfg env ops x it last i ps) (reEvalLoop cfg' env' ops' (T x) it last i ps) := by
  induction ps with
  | nil => exact fun i => par_reEvalFinish last
  | cons p ps ih =>
    intro i
    refine .get_bind fun s o ho => ?_
    dsimp only
    rw [show averageSum (s.recoord T Tc o) = averageSum s from rfl,
      show probBetter cfg' env' (averageSum s).1 (averageSum s).2 (s.recoord T Tc o).bestFoM (s.recoord T Tc o).bestSigma =
        probBetter cfg env (averageSum s).1 (averageSum s).2 s.bestFoM s.bestSigma from rfl]
    split
    · exact .pure rfl
    · refine (par_routine hC hfm x it).bind fun a b hb => ?_
      subst hb
      exact (par_storeTest _ _).bind fun _ _ _ => ih _

theorem par_inner (hC : Corresponds ops ops' RO T Ts Tc) (hfm : InUnits T Tc env.getFoM fm) (x : V) (it : ℕ) :
    Par T Tc RO (fun a b => b = a) (innerCall cfg env ops x it) (innerCall cfg' env' ops' (T x) it) := by
  refine .bind (R := fun _ _ => True) (.modify fun s o ho => ⟨o, ho, rfl⟩) fun _ _ _ => (par_routine hC hfm x it).bind fun a b hb => ?_
  subst hb
  rw [show (cfg').reEval = cfg.reEval from rfl]
  rcases cfg.reEval with _ | steps
  · exact .pure rfl
  · refine .get_bind fun s o ho => ?_
    dsimp only
    rw [show (s.recoord T Tc o).iter = s.iter from rfl, show (cfg').half = cfg.half from rfl]
    generalize (if s.iter = 1 then [cfg.half] else steps) = l
    refine .bind (R := fun _ _ => True) (.modify fun s o ho => ⟨o, ho, rfl⟩) fun _ _ _ => (par_storeTest _ _).bind fun _ _ _ => ?_
    rcases l.getLast? with _ | last
    · exact .raise _
    · exact par_reEvalLoop hC hfm x it last l 0

theorem par_innerDrift (v : F) : Par (V := V) T Tc RO (fun a b => b = a) (innerDrift v) (innerDrift v) := by
  intro s o ho
  unfold innerDrift
  rw [show (s.recoord T Tc o).xx = s.xx.map T from rfl]
  rcases hx : s.xx with _ | x
  · exact ⟨rfl, o, ho, by simp only [AlgState.recoord, hx]; rfl⟩
  · have h := ((par_dump (V := V) (T := T) (Tc := Tc) (RO := RO) true v).bind fun _ _ _ => Par.pure (T := T) (Tc := Tc) (RO := RO) (R := fun a b => b = a) (a := v) rfl)
      { s with bestFoM := v, isRecord := true, bestXX := some x } o ho
    rw [hx] at h
    exact h

theorem par_innerGrape (hC : Corresponds ops ops' RO T Ts Tc) (hfm : InUnits T Tc env.getFoM fm) (x : V) :
    Par T Tc RO (fun a b => b = a) (innerGrape cfg env ops x) (innerGrape cfg' env' ops' (T x)) := by
  refine .bind (R := fun _ _ => True) (.modify fun s o ho => ⟨o, ho, rfl⟩) fun _ _ _ => .bind (R := fun _ _ => True) ?_ fun _ _ _ =>
    par_routine hC hfm x 0
  intro s o ho
  have h := hC.get s.ctl o x ho
  unfold gradientControls
  dsimp only [AlgState.recoord]
  generalize ops.getControls s.ctl x = u at h ⊢
  generalize ops'.getControls o (T x) = u' at h ⊢
  rcases u with e | ⟨p, c⟩ <;> rcases u' with e' | ⟨p', c'⟩
  · exact ⟨h, o, ho, rfl⟩
  · exact h.elim
  · exact h.elim
  · exact ⟨trivial, p', h.1, rfl⟩

/-- the stopping criterion for the simplex decides in the same way -/
def SameSize (xatol xatol' : K) : Py K → Py K → Prop := RelPy fun m m' => m' ≤ xatol' ↔ m ≤ xatol

theorem nmCheck_same {m m' : Py K} (h : SameSize cfg.sc.xatol xatol m m') (sqrt : F → F) (sc : Sc F) (fs : List F) (n : ℕ) (t : ℚ) :
    nmCheck sqrt (cfg').sc sc m' fs n t = nmCheck sqrt cfg.sc sc m fs n t := by
  have hc : checkSimplex (cfg').sc m' = checkSimplex cfg.sc m := by
    unfold checkSimplex
    rcases m with e | m <;> rcases m' with e' | m'
    · exact congrArg _ (Eq.symm h)
    · exact h.elim
    · exact h.elim
    · have h : m' ≤ xatol ↔ m ≤ cfg.sc.xatol := h
      show Except.ok (decide (m' ≤ xatol), _) = Except.ok (decide (m ≤ cfg.sc.xatol), _)
      simp only [h]
  unfold nmCheck
  rw [hc]
  rfl

theorem par_withSc {f f' : Sc F → Sc F} (h : f' = f) :
    Par (V := V) (C := C) (O := O) T Tc RO (fun a b => b = a) (withSc f) (withSc f') := by
  subst h
  exact fun s o ho => ⟨rfl, o, ho, rfl⟩

theorem par_interp (hC : Corresponds ops ops' RO T Ts Tc) (hfm : InUnits T Tc env.getFoM fm) {R : α → β → Prop} {st : Strat K V F α}
    {st' : Strat K V F β} (h : SimMap T id (SameSize cfg.sc.xatol xatol) R st st') :
    Par T Tc RO R (st.interp (algHandler cfg env ops)) (st'.interp (algHandler cfg' env' ops')) := by
  induction h with
  | ret a b h => exact .pure h
  | op o k k' h hn ih =>
    refine .bind (R := fun r r' => r' = o.mapRes T id r) ?_ fun r r' hr => ?_
    · cases o with
      | eval x it =>
        show Par T Tc RO (fun a b : F => b = a) (if cfg.kind = .grape then innerGrape cfg env ops x else innerCall cfg env ops x it)
          (if cfg.kind = .grape then innerGrape cfg' env' ops' (T x) else innerCall cfg' env' ops' (T x) it)
        by_cases hk : cfg.kind = .grape
        · rw [if_pos hk, if_pos hk]
          exact par_innerGrape hC hfm x
        · rw [if_neg hk, if_neg hk]
          exact par_inner hC hfm x it
      | drift x it v => exact par_innerDrift v
      | readConv => exact par_poll.bind fun _ _ _ => .get_bind fun s o ho => .pure rfl
      | setConv b => exact par_withSc rfl
      | callback => exact par_poll.bind fun _ _ _ => .get_bind fun s o ho => .pure rfl
      | userStop => exact par_withSc rfl
      | checkNM size fs m => exact absurd rfl (hn size fs m)
      | checkCMA fs m =>
        refine par_readClock.bind fun a b hb => ?_
        subst hb
        refine par_withSc ?_
        rw [List.map_id]
        rfl
      | now => exact par_readClock
      | reason => exact .get_bind fun s o ho => .pure rfl
      | fail e => exact .raise e
    · subst hr
      exact ih r
  | size m m' fs n k k' hs h ih =>
    refine .bind (R := fun r r' => r' = r) ?_ fun r r' hr => by subst hr; exact ih r'
    refine par_readClock.bind fun a b hb => ?_
    subst hb
    refine .get_bind fun s o ho => ?_
    rw [List.map_id, show (s.recoord T Tc o).sc = s.sc from rfl, show (env').sqrt = env.sqrt from rfl, nmCheck_same hs]
    refine .bind (R := fun a b => b = a) (.lift ?_) fun sc sc' he => ?_
    · rcases nmCheck env.sqrt cfg.sc s.sc m fs n b with e | sc <;> exact rfl
    · subst he
      exact par_withSc rfl

/-- the two search methods correspond to each other -/
def DsmSim (cfg : AlgCfg K F) (xatol : K) (T Ts : V → V) (dsm dsm' : Dsm K V F) : Prop :=
  ∀ i x sim sg, SimMap T id (SameSize cfg.sc.xatol xatol) (fun r r' => r'.reason = r.reason) (dsm i x sim sg) (dsm' i (T x) (sim.map T) (Ts sg))

variable {dsm dsm' : Dsm K V F}

theorem par_dsmBuild (hC : Corresponds ops ops' RO T Ts Tc) (hfm : InUnits T Tc env.getFoM fm) (hd : DsmSim cfg xatol T Ts dsm dsm') :
    Par T Tc RO (fun _ _ => True) (dsmBuild cfg env ops dsm) (dsmBuild cfg' env' ops' dsm') := by
  refine .get_bind fun s o ho => .bind (.lift (hC.mean _ _ ho)) fun x x' hx => .bind (.lift (hC.sigma _ _ ho)) fun sg sg' hsg => ?_
  subst hx; subst hsg
  rw [show (s.recoord T Tc o).superIt = s.superIt from rfl]
  refine .bind (.lift (hC.simplex s.superIt x sg)) fun sim sim' hsim => ?_
  subst hsim
  refine .bind (R := fun _ _ => True) (.modify fun s o ho => ⟨o, ho, rfl⟩) fun _ _ _ => (par_interp hC hfm (hd _ x sim sg)).bind fun r r' hr => ?_
  refine .modify fun s o ho => ⟨o, ho, ?_⟩
  rw [hr]; rfl

theorem par_sumRoutine (hC : Corresponds ops ops' RO T Ts Tc) (hfm : InUnits T Tc env.getFoM fm) (x : V) (n : ℕ) : ∀ acc,
    Par T Tc RO (fun a b => b = a) (sumRoutine cfg env ops x n acc) (sumRoutine cfg' env' ops' (T x) n acc) := by
  induction n with
  | zero => exact fun acc => .pure rfl
  | succ n ih =>
    intro acc
    refine (par_routine hC hfm x 0).bind fun a b hb => ?_
    subst hb
    exact ih _

theorem par_updateFoM (hC : Corresponds ops ops' RO T Ts Tc) (hfm : InUnits T Tc env.getFoM fm) :
    Par T Tc RO (fun _ _ => True) (updateFoM cfg env ops) (updateFoM cfg' env' ops') := by
  refine .get_bind fun s o ho => .bind (.lift (hC.mean _ _ ho)) fun x x' hx => ?_
  subst hx
  refine .bind (R := fun _ _ => True) (.modify fun s o ho => ⟨o, ho, rfl⟩) fun _ _ _ =>
    (par_sumRoutine hC hfm x cfg.driftAverage 0).bind fun a b hb => ?_
  subst hb
  show Par T Tc RO _ (if cfg.driftAverage = 0 then _ else _) (if cfg.driftAverage = 0 then _ else _)
  split
  · exact .raise _
  · exact .modify fun s o ho => ⟨o, ho, rfl⟩

theorem par_updateBase (hC : Corresponds ops ops' RO T Ts Tc) :
    Par (F := F) T Tc RO (fun _ _ => True) (updateBasePulses ops) (updateBasePulses ops') := by
  intro s o ho
  unfold updateBasePulses
  rw [show (s.recoord T Tc o).bestXX = s.bestXX.map T from rfl]
  rcases s.bestXX with _ | x
  · exact ⟨rfl, o, ho, rfl⟩
  · have h := hC.update s.ctl o x ho
    dsimp only [AlgState.recoord, Option.map_some]
    generalize ops.updateBase s.ctl x = u at h ⊢
    generalize ops'.updateBase o (T x) = u' at h ⊢
    rcases u with e | p <;> rcases u' with e' | p'
    · exact ⟨h, o, ho, rfl⟩
    · exact h.elim
    · exact h.elim
    · refine ⟨trivial, p', h, ?_⟩
      simp only [List.map_append, List.map_cons, List.map_nil, Option.map_some]

theorem par_super (hC : Corresponds ops ops' RO T Ts Tc) (hfm : InUnits T Tc env.getFoM fm) (hd : DsmSim cfg xatol T Ts dsm dsm') (k : ℕ) :
    Par T Tc RO (fun _ _ => True) (superIteration cfg env ops dsm k) (superIteration cfg' env' ops' dsm' k) := by
  refine par_readClock.bind fun a b hb => ?_
  subst hb
  refine .bind (R := fun _ _ => True) (.modify fun s o ho => ⟨o, ho, rfl⟩) fun _ _ _ => .bind (R := fun _ _ => True)
    (.modify fun s o ho => ⟨o, ho, rfl⟩) fun _ _ _ => .bind (R := fun _ _ => True) ?_ fun _ _ _ => .get_bind fun s o ho => ?_
  · unfold driftStep
    show Par T Tc RO _ (if cfg.driftAfterSI = true ∧ k ≥ 2 then _ else _) (if cfg.driftAfterSI = true ∧ k ≥ 2 then _ else _)
    split
    · exact par_updateFoM hC hfm
    · exact .pure trivial
  · refine .bind (.lift (hC.select k _ _ ho)) fun p p' hp => .bind (R := fun _ _ => True) (.modify fun s o ho => ⟨p', hp, rfl⟩) fun _ _ _ =>
      (par_dsmBuild hC hfm hd).bind fun _ _ _ => par_updateBase hC

theorem par_loop (hC : Corresponds ops ops' RO T Ts Tc) (hfm : InUnits T Tc env.getFoM fm) (hd : DsmSim cfg xatol T Ts dsm dsm') (n : ℕ) :
    ∀ k, Par T Tc RO (fun _ _ => True) (dcrabLoop cfg env ops dsm n k) (dcrabLoop cfg' env' ops' dsm' n k) := by
  induction n with
  | zero => exact fun k => .pure trivial
  | succ n ih =>
    intro k
    refine par_poll.bind fun _ _ _ => .get_bind fun s o ho => ?_
    rw [show (s.recoord T Tc o).running = s.running from rfl]
    split
    · exact .pure trivial
    · exact (par_super hC hfm hd k).bind fun _ _ _ => ih _

theorem par_run (hC : Corresponds ops ops' RO T Ts Tc) (hfm : InUnits T Tc env.getFoM fm) (hd : DsmSim cfg xatol T Ts dsm dsm') :
    Par T Tc RO (fun _ _ => True) (run cfg env ops dsm) (run cfg' env' ops' dsm') := by
  unfold run
  rw [show (cfg').kind = cfg.kind from rfl]
  rcases cfg.kind with _ | _ | _
  · exact par_loop hC hfm hd _ _
  · exact par_dsmBuild hC hfm hd
  · refine .get_bind fun s o ho => .bind (.lift (hC.mean _ _ ho)) fun x x' hx => .bind (.lift (hC.sigma _ _ ho)) fun sg sg' hsg => ?_
    subst hx; subst hsg
    refine .bind (.lift (hC.simplex 0 x sg)) fun sim sim' hsim => ?_
    subst hsim
    exact (par_interp hC hfm (hd _ x sim sg)).bind fun r r' hr => par_updateBase hC

/-- the whole run -/
theorem execute_recoord (hC : Corresponds ops ops' RO T Ts Tc) (hfm : InUnits T Tc env.getFoM fm) (hd : DsmSim cfg xatol T Ts dsm dsm')
    {o o' : O} (ho : RO o o') :
    SameRunIn ops ops' cfg T Tc (execute cfg env ops dsm o) (execute cfg' env' ops' dsm' o') := by
  obtain ⟨h1, p, h2, h3⟩ := par_run hC hfm hd (initState cfg env o) o' ho
  have he : run cfg' env' ops' dsm' (AlgState.recoord T Tc o' (initState cfg env o)) = execute cfg' env' ops' dsm' o' := rfl
  rw [he] at h1 h3
  have hr : run cfg env ops dsm (initState cfg env o) = execute cfg env ops dsm o := rfl
  rw [hr] at h1 h2 h3
  constructor
  · rcases h : (execute cfg env ops dsm o).1 with e | a <;> rcases h' : (execute cfg' env' ops' dsm' o').1 with e' | b <;> rw [h, h'] at h1
    · exact congrArg _ (Eq.symm h1)
    · exact h1.elim
    · exact h1.elim
  · exact congrArg AlgState.log h3
  · exact congrArg AlgState.dumps h3
  · rw [h3]
    unfold bestControls
    have hb := RelPy.bind (hC.mean _ _ h2) (R' := fun c c' => c' = Tc c)
      (f := fun x => ops.getControls (execute cfg env ops dsm o).2.ctl x >>= fun r => pure r.2)
      (g := fun x => ops'.getControls p x >>= fun r => pure r.2) fun x x' hx => by
        subst hx
        exact RelPy.bind (hC.get _ _ x h2) fun a b hab => hab.2
    show (ops'.mean p >>= fun x => ops'.getControls p x >>= fun r => pure r.2) = _
    generalize (ops'.mean p >>= fun x => ops'.getControls p x >>= fun r => pure r.2) = y at hb ⊢
    change RelPy _ (ops.mean _ >>= fun x => ops.getControls _ x >>= fun r => pure r.2) y at hb
    generalize (ops.mean (execute cfg env ops dsm o).2.ctl >>= fun x => ops.getControls _ x >>= fun r => (pure r.2 : Py C)) = x at hb ⊢
    rcases x with e | a <;> rcases y with e' | b
    · exact congrArg _ (Eq.symm hb)
    · exact hb.elim
    · exact hb.elim
    · exact congrArg _ hb
  · rw [h3]; rfl
  · rw [h3]; exact ⟨rfl, rfl⟩
  · rw [h3]; rfl
  · rw [h3]; exact ⟨rfl, rfl⟩

end
end QuOCS

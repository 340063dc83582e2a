/-
Programs that keep a property of the state and raise only certain exceptions.
-/
import Verif.Lemmas.Algorithm

set_option linter.unusedSectionVars false
set_option linter.unusedVariables false

namespace QuOCS

/-- `m` keeps `P`, also when it raises, and raises only exceptions in `E`. -/
def Safe {S α : Type} (P : S → Prop) (E : PyErr → Prop) (m : Prog S α) : Prop :=
  ∀ s, P s → P (m s).2 ∧ ∀ e, (m s).1 = .error e → E e

namespace Safe
section
variable {S α β : Type} {P : S → Prop} {E : PyErr → Prop}

theorem pure (a : α) : Safe P E (Pure.pure a : Prog S α) := fun _ h => ⟨h, fun e he => by cases he⟩
theorem get : Safe P E (Prog.get : Prog S S) := fun _ h => ⟨h, fun e he => by cases he⟩
theorem raise {e : PyErr} (he : E e) : Safe P E (Prog.raise e : Prog S α) :=
  fun _ h => ⟨h, fun e' h' => by cases h'; exact he⟩
theorem lift {x : Py α} (hx : ∀ e, x = .error e → E e) : Safe P E (Prog.lift x : Prog S α) :=
  fun _ h => ⟨h, hx⟩
theorem modify {f : S → S} (hf : ∀ s, P s → P (f s)) : Safe P E (Prog.modify f) :=
  fun s h => ⟨hf s h, fun e he => by cases he⟩

theorem bind {m : Prog S α} {f : α → Prog S β} (hm : Safe P E m) (hf : ∀ a, Safe P E (f a)) : Safe P E (m >>= f) := by
  intro s h
  rw [Prog.bind_apply]
  obtain ⟨h1, h2⟩ := hm s h
  rcases hs : m s with ⟨e | a, s'⟩
  · rw [hs] at h1 h2
    exact ⟨h1, fun e' he => by cases he; exact h2 _ rfl⟩
  · rw [hs] at h1
    exact hf a s' h1

theorem ite {c : Prop} [Decidable c] {a b : Prog S α} (ha : c → Safe P E a) (hb : ¬ c → Safe P E b) :
    Safe P E (if c then a else b) := by
  by_cases h : c
  · rw [if_pos h]; exact ha h
  · rw [if_neg h]; exact hb h

/-- the state read is the current one -/
theorem get_bind {f : S → Prog S β} (hf : ∀ s, P s → P (f s s).2 ∧ ∀ e, (f s s).1 = .error e → E e) :
    Safe P E (Prog.get >>= f) := fun s h => by rw [Prog.get_bind]; exact hf s h
end
end Safe

section
variable {K V C O F : Type} [LE K] [DecidableLE K]
variable [Add F] [Sub F] [Mul F] [Div F] [Neg F] [Zero F] [One F] [NatCast F] [LE F] [LT F] [DecidableLE F]
  [DecidableLT F]
variable {cfg : AlgCfg K F} {env : Env V C F} {ops : CtlOps O V C}

/-- Properties that survive everything but writing the controls object and resetting the stopping criteria, and also
survive building the controls. -/
structure Stable (ops : CtlOps O V C) (P : AlgState V C O F → Prop) : Prop where
  frame : ∀ s s', P s → (s.sc.isConverged = true → s'.sc.isConverged = true) → s'.ctl = s.ctl →
    s'.superIt = s.superIt → P s'
  controls : ∀ s x o c, P s → ops.getControls s.ctl x = .ok (o, c) → P { s with ctl := o }

/-- The exceptions that may come up: everything but the marker `outOfFuel` of a cut-off loop, and what the user's
function and the controls object raise. -/
structure Errs (env : Env V C F) (ops : CtlOps O V C) (E : PyErr → Prop) : Prop where
  other : ∀ e, e ≠ .outOfFuel → E e
  getFoM : ∀ h c e, env.getFoM h c = .error e → E e
  getControls : ∀ o x e, ops.getControls o x = .error e → E e
  mean : ∀ o e, ops.mean o = .error e → E e
  sigma : ∀ o e, ops.sigma o = .error e → E e
  updateBase : ∀ o x e, ops.updateBase o x = .error e → E e
  selectBasis : ∀ k o e, ops.selectBasis k o = .error e → E e
  simplex : ∀ k x y e, ops.simplex k x y = .error e → E e

theorem Errs.all : Errs env ops (fun _ => True) := by constructor <;> intros <;> trivial

variable {P : AlgState V C O F → Prop} {E : PyErr → Prop}

/-- a state update outside of controls object and stopping criteria -/
theorem Stable.modify (hP : Stable ops P) {f : AlgState V C O F → AlgState V C O F}
    (h1 : ∀ s, s.sc.isConverged = true → (f s).sc.isConverged = true) (h2 : ∀ s, (f s).ctl = s.ctl)
    (h3 : ∀ s, (f s).superIt = s.superIt) :
    Safe P E (Prog.modify f) := Safe.modify fun s h => hP.frame s _ h (h1 s) (h2 s) (h3 s)

theorem Stable.withSc (hP : Stable ops P) {f : Sc F → Sc F} (h1 : ∀ s, s.isConverged = true → (f s).isConverged = true) :
    Safe P E (QuOCS.withSc f : Prog (AlgState V C O F) Unit) := hP.modify (fun s => h1 s.sc) (fun _ => rfl) (fun _ => rfl)

theorem Stable.readClock (hP : Stable ops P) : Safe P E (QuOCS.readClock env : Prog (AlgState V C O F) ℚ) :=
  fun s h => ⟨hP.frame s _ h id rfl rfl, fun e he => by cases he⟩

theorem Stable.stopWith (hP : Stable ops P) (r : String) :
    Safe P E (QuOCS.stopWith cfg r : Prog (AlgState V C O F) Unit) :=
  hP.modify (fun s h => by dsimp only; split <;> [rfl; exact h]) (fun _ => rfl) (fun _ => rfl)

theorem Stable.poll (hP : Stable ops P) (hE : Errs env ops E) :
    Safe P E (QuOCS.poll cfg env : Prog (AlgState V C O F) Unit) := by
  intro s h
  have h' : P { s with polls := s.polls + 1 } := hP.frame s _ h id rfl rfl
  unfold QuOCS.poll
  rcases env.async s.polls with _ | _ | _
  · exact ⟨h', fun e he => by cases he⟩
  · exact ⟨hP.frame s _ h id rfl rfl, fun e he => by cases he⟩
  · dsimp only
    split
    · exact hP.stopWith _ _ h'
    · exact ⟨hP.frame s _ h id rfl rfl, fun e he => by cases he; exact hE.other _ (by decide)⟩

theorem Stable.dumpControls (hP : Stable ops P) (b : Bool) (f : F) :
    Safe P E (QuOCS.dumpControls b f : Prog (AlgState V C O F) Unit) := hP.modify (fun _ => id) (fun _ => rfl) (fun _ => rfl)

theorem Stable.stopChecks (hP : Stable ops P) :
    Safe P E (QuOCS.stopChecks cfg env : Prog (AlgState V C O F) Unit) := by
  refine .bind (fun s h => ?_) fun _ => .bind (fun s h => ?_) fun _ => ?_
  · unfold budgetCheck
    split
    · exact hP.stopWith _ s h
    · exact ⟨h, fun e he => by cases he⟩
  · unfold goalCheck
    split
    · split
      · exact hP.stopWith _ s h
      · exact ⟨h, fun e he => by cases he⟩
    · exact ⟨h, fun e he => by cases he⟩
  · refine .ite (fun _ => .bind hP.readClock fun t => fun s h => ?_) fun _ => .pure _
    unfold timeCheckAt
    split
    · exact hP.stopWith _ s h
    · exact ⟨h, fun e he => by cases he⟩

theorem checkAdvanced_conv (c : ScCfg K F) (sc : Sc F) (h : sc.isConverged = true) :
    (checkAdvanced c sc).isConverged = true := by
  unfold checkAdvanced checkCbs
  dsimp only
  split
  · split
    · split
      · rfl
      · exact h
    · exact h
  · exact h

theorem addToTrack_conv (c : ScCfg K F) (sc : Sc F) (f : F) (h : sc.isConverged = true) :
    (addToTrack c sc f).isConverged = true := by
  unfold addToTrack
  split <;> exact h

theorem Stable.measure (hP : Stable ops P) (hE : Errs env ops E) (x : V) (c : C) :
    Safe P E (QuOCS.measure cfg env x c : Prog (AlgState V C O F) F) := by
  refine .bind (fun s h => ?_) fun _ => .bind (fun s h => ?_) fun f => .bind (fun s h => ?_) fun _ =>
    .bind (hP.modify (fun s h => ?_) (fun s => ?_) (fun s => ?_)) fun _ => .bind .get fun s => .pure _
  · unfold getData
    dsimp only
    rcases ha : env.getFoM s.log c with e | a
    · exact ⟨hP.frame s _ h id rfl rfl, fun e' he => by cases he; exact hE.getFoM _ _ _ ha⟩
    · dsimp only
      rcases a.fom with _ | f
      · exact ⟨hP.frame s _ h id rfl rfl, fun e' he => by cases he; exact hE.other _ (by decide)⟩
      · exact ⟨hP.frame s _ h id rfl rfl, fun e' he => by cases he⟩
  · refine ⟨hP.frame s _ h ?_ ?_ ?_, fun e' he => by cases he⟩ <;> unfold response <;> dsimp only <;>
      (repeat' split) <;> first | exact id | rfl
  · unfold sendResponse
    split
    · exact ⟨hP.frame s _ h id rfl rfl, fun e' he => by cases he⟩
    · exact ⟨hP.frame s _ h id rfl rfl, fun e' he => by cases he⟩
  · split
    · exact checkAdvanced_conv _ _ (addToTrack_conv _ _ _ h)
    · exact h
  · split <;> rfl
  · split <;> rfl

theorem Stable.sendControls (hP : Stable ops P) (hE : Errs env ops E) (x : V) :
    Safe P E (QuOCS.sendControls ops x : Prog (AlgState V C O F) C) := by
  intro s h
  unfold QuOCS.sendControls
  rcases ho : ops.getControls s.ctl x with e | ⟨o, c⟩
  · exact ⟨h, fun e' he => by cases he; exact hE.getControls _ _ _ ho⟩
  · exact ⟨hP.frame _ _ (hP.controls s x o c h ho) id rfl rfl, fun e' he => by cases he⟩

theorem Stable.routineCall (hP : Stable ops P) (hE : Errs env ops E) (x : V) (it : ℕ) :
    Safe P E (QuOCS.routineCall cfg env ops x it) := by
  refine .bind (hP.poll hE) fun _ => .bind hP.stopChecks fun _ => .bind (hP.poll hE) fun _ => .bind .get fun s =>
    .ite (fun _ => .pure _) fun _ => .bind (hP.modify (fun _ => id) (fun _ => rfl) (fun _ => rfl)) fun _ =>
    .bind (hP.sendControls hE x) fun c => .bind (hP.poll hE) fun _ => .bind .get fun s => .ite (fun _ => .pure _) fun _ =>
    hP.measure hE x c

theorem setIdx_err {l : List F} {i : ℕ} {v : F} {e : PyErr} (h : setIdx l i v = .error e) : e = .indexError := by
  unfold setIdx at h
  split at h <;> cases h
  rfl

theorem Stable.storeTest (hP : Stable ops P) (hE : Errs env ops E) (i : ℕ) (f : F) :
    Safe P E (QuOCS.storeTest i f : Prog (AlgState V C O F) Unit) := by
  intro s h
  unfold QuOCS.storeTest
  rcases h1 : setIdx s.fomTest i f with e | ft
  · exact ⟨h, fun e' he => by cases he; rw [setIdx_err h1]; exact hE.other _ (by decide)⟩
  · dsimp only
    rcases h2 : setIdx s.sigmaTest i (s.fomDict.std.getD 1) with e | st
    · exact ⟨hP.frame s _ h id rfl rfl, fun e' he => by cases he; rw [setIdx_err h2]; exact hE.other _ (by decide)⟩
    · exact ⟨hP.frame s _ h id rfl rfl, fun e' he => by cases he⟩

theorem Stable.reEvalLoop (hP : Stable ops P) (hE : Errs env ops E) (x : V) (it : ℕ) (last : F) (ps : List F) (i : ℕ) :
    Safe P E (QuOCS.reEvalLoop cfg env ops x it last i ps) := by
  induction ps generalizing i with
  | nil =>
    intro s h
    unfold QuOCS.reEvalLoop reEvalFinish
    dsimp only
    split
    · split
      · exact ⟨hP.frame s _ h id rfl rfl, fun e' he => by cases he; exact hE.other _ (by decide)⟩
      · exact (Safe.bind (hP.dumpControls _ _) fun _ => Safe.pure (E := E) _) _ (hP.frame s _ h id rfl rfl)
    · exact ⟨h, fun e' he => by cases he⟩
  | cons p ps ih =>
    refine .bind .get fun s => .ite (fun _ => .pure _) fun _ => ?_
    exact .bind (hP.routineCall hE x it) fun f => .bind (hP.storeTest hE _ f) fun _ => ih _

theorem Stable.innerCall (hP : Stable ops P) (hE : Errs env ops E) (x : V) (it : ℕ) :
    Safe P E (QuOCS.innerCall cfg env ops x it) := by
  unfold QuOCS.innerCall
  refine .bind (hP.modify (fun _ => id) (fun _ => rfl) (fun _ => rfl)) fun _ => .bind (hP.routineCall hE x it) fun f => ?_
  rcases cfg.reEval with _ | steps
  · exact .pure _
  · refine .bind .get fun s => .bind (hP.modify (fun _ => id) (fun _ => rfl) (fun _ => rfl)) fun _ =>
      .bind (hP.storeTest hE 0 f) fun _ => ?_
    rcases (if s.iter = 1 then [cfg.half] else steps).getLast? with _ | last
    · exact .raise (hE.other _ (by decide))
    · exact hP.reEvalLoop hE x it last _ 0

theorem Stable.innerDrift (hP : Stable ops P) (hE : Errs env ops E) (v : F) :
    Safe P E (QuOCS.innerDrift v : Prog (AlgState V C O F) F) := by
  intro s h
  unfold QuOCS.innerDrift
  dsimp only
  split
  · exact ⟨hP.frame s _ h id rfl rfl, fun e' he => by cases he; exact hE.other _ (by decide)⟩
  · exact (Safe.bind (hP.dumpControls _ _) fun _ => Safe.pure (E := E) _) _ (hP.frame s _ h id rfl rfl)

theorem Stable.innerGrape (hP : Stable ops P) (hE : Errs env ops E) (x : V) :
    Safe P E (QuOCS.innerGrape cfg env ops x) := by
  refine .bind (hP.modify (fun _ => id) (fun _ => rfl) (fun _ => rfl)) fun _ => .bind (fun s h => ?_) fun _ => hP.routineCall hE x 0
  unfold gradientControls
  rcases ho : ops.getControls s.ctl x with e | ⟨o, c⟩
  · exact ⟨h, fun e' he => by cases he; exact hE.getControls _ _ _ ho⟩
  · exact ⟨hP.controls s x o c h ho, fun e' he => by cases he⟩

theorem nmCheck_conv {sqrt : F → F} {c : ScCfg K F} {sc sc' : Sc F} {size : Py K} {fs : List F} {n : ℕ} {t : ℚ}
    (h : nmCheck sqrt c sc size fs n t = .ok sc') (hc : sc.isConverged = true) : sc'.isConverged = true := by
  unfold nmCheck at h
  rw [if_pos hc] at h
  cases h; exact hc

theorem cmaCheck_conv {sqrt : F → F} {c : ScCfg K F} {sc : Sc F} {fs : List F} {n : ℕ} {t : ℚ}
    (hc : sc.isConverged = true) : (cmaCheck sqrt c sc fs n t).isConverged = true := by
  unfold cmaCheck
  rw [if_pos hc]; exact hc

theorem nmCheck_err {sqrt : F → F} {c : ScCfg K F} {sc : Sc F} {size : Py K} {fs : List F} {n : ℕ} {t : ℚ} {e : PyErr}
    (h : nmCheck sqrt c sc size fs n t = .error e) : size = .error e := by
  unfold nmCheck at h
  dsimp only at h
  split at h
  · cases h
  · split at h
    · cases h
    · unfold checkSimplex at h
      rcases size with e' | x
      · dsimp only at h; cases h; rfl
      · dsimp only at h
        split at h
        · cases h
        · split at h
          · cases h
          · split at h <;> cases h

/-- the exceptions an operation itself contains are in `E` -/
def OpErrs (E : PyErr → Prop) : Op K V F → Prop
  | .checkNM size _ _ => ∀ e, size = .error e → E e
  | .fail e => E e
  | _ => True

theorem Stable.handler (hP : Stable ops P) (hE : Errs env ops E) (o : Op K V F) (ho : ∀ b, o ≠ .setConv b)
    (he : OpErrs E o) : Safe P E (algHandler cfg env ops o) := by
  cases o with
  | eval x it => exact .ite (fun _ => hP.innerGrape hE x) fun _ => hP.innerCall hE x it
  | drift x it v => exact hP.innerDrift hE v
  | readConv => exact .bind (hP.poll hE) fun _ => .bind .get fun s => .pure _
  | setConv b => exact absurd rfl (ho b)
  | callback => exact .bind (hP.poll hE) fun _ => .bind .get fun s => .pure _
  | userStop => exact hP.withSc fun _ _ => rfl
  | checkNM size fsim calls =>
    refine .bind hP.readClock fun t => .get_bind fun s h => ?_
    rw [Prog.bind_apply, Prog.lift_apply]
    rcases hc : nmCheck env.sqrt cfg.sc s.sc size fsim calls t with e | sc
    · exact ⟨h, fun e' he' => by cases he'; exact he _ (nmCheck_err hc)⟩
    · exact ⟨hP.frame s _ h (nmCheck_conv hc) rfl rfl, fun e' he' => by cases he'⟩
  | checkCMA fsim calls => exact .bind hP.readClock fun t => hP.withSc fun _ => cmaCheck_conv
  | now => exact hP.readClock
  | reason => exact .bind .get fun s => .pure _
  | fail e => exact .raise he

theorem Stable.setConv (hP : Stable ops P) (h : ∀ s b, P s → P { s with sc := { s.sc with isConverged := b } }) (b : Bool) :
    Safe P E (algHandler cfg env ops (.setConv b)) := Safe.modify fun s hs => h s b hs

/-- also for properties that do not look at the stopping criteria -/
theorem Stable.handler' (hP : Stable ops P) (hE : Errs env ops E)
    (h : ∀ s b, P s → P { s with sc := { s.sc with isConverged := b } }) (o : Op K V F)
    (he : OpErrs E o) : Safe P E (algHandler cfg env ops o) := by
  by_cases ho : ∃ b, o = .setConv b
  · obtain ⟨b, rfl⟩ := ho
    exact hP.setConv h b
  · exact hP.handler hE o (fun b hb => ho ⟨b, hb⟩) he

theorem Stable.interp (hP : Stable ops P) (hE : Errs env ops E)
    (h : ∀ s b, P s → P { s with sc := { s.sc with isConverged := b } }) (hall : ∀ e, E e) {α : Type}
    (st : Strat K V F α) : Safe P E (st.interp (algHandler cfg env ops)) := by
  induction st with
  | ret a => exact .pure a
  | op o k ih =>
    refine .bind (hP.handler' hE h o ?_) fun r => ih r
    cases o <;> first | exact trivial | exact fun _ _ => hall _ | exact hall _

theorem Stable.sumRoutine (hP : Stable ops P) (hE : Errs env ops E) (x : V) (n : ℕ) (acc : F) :
    Safe P E (QuOCS.sumRoutine cfg env ops x n acc) := by
  induction n generalizing acc with
  | zero => exact .pure _
  | succ n ih => exact .bind (hP.routineCall hE x 0) fun f => ih _

theorem Stable.driftStep (hP : Stable ops P) (hE : Errs env ops E) (k : ℕ) :
    Safe P E (QuOCS.driftStep cfg env ops k) := by
  refine .ite (fun _ => ?_) fun _ => .pure _
  exact .bind .get fun s => .bind (.lift (hE.mean _)) fun x0 =>
    .bind (hP.modify (fun _ => id) (fun _ => rfl) (fun _ => rfl)) fun _ => .bind (hP.sumRoutine hE x0 _ _) fun f =>
    .ite (fun _ => .raise (hE.other _ (by decide))) fun _ => hP.modify (fun _ => id) (fun _ => rfl) (fun _ => rfl)

theorem Stable.dsmBuild (hP : Stable ops P) (hE : Errs env ops E) (dsm : Dsm K V F)
    (hd : ∀ i x sim sg, Safe P E ((dsm i x sim sg).interp (algHandler cfg env ops))) :
    Safe P E (QuOCS.dsmBuild cfg env ops dsm) :=
  .bind .get fun s => .bind (.lift (hE.mean _)) fun x0 => .bind (.lift (hE.sigma _)) fun sg =>
    .bind (.lift (hE.simplex _ _ _)) fun sim => .bind (hP.modify (fun _ => id) (fun _ => rfl) (fun _ => rfl)) fun _ =>
    .bind (hd _ _ _ _) fun r => hP.modify (fun _ => id) (fun _ => rfl) (fun _ => rfl)

theorem Stable.updateBasePulses (hP : Stable ops P) (hE : Errs env ops E)
    (hu : ∀ s x o, P s → ops.updateBase s.ctl x = .ok o → P { s with ctl := o }) :
    Safe P E (QuOCS.updateBasePulses ops : Prog (AlgState V C O F) Unit) := by
  intro s h
  unfold QuOCS.updateBasePulses
  split
  · exact ⟨h, fun e' he => by cases he; exact hE.other _ (by decide)⟩
  · rename_i x hx
    rcases ho : ops.updateBase s.ctl x with e | o
    · exact ⟨h, fun e' he => by cases he; exact hE.updateBase _ _ _ ho⟩
    · exact ⟨hP.frame _ _ (hu s x o h ho) id rfl rfl, fun e' he => by cases he⟩

/-- Nothing is assumed about the state. -/
theorem Stable.triv : Stable ops (fun _ : AlgState V C O F => True) := ⟨fun _ _ _ _ _ _ => trivial, fun _ _ _ _ _ _ => trivial⟩

/-- A run whose searches raise only exceptions in `E` raises only exceptions in `E`. -/
theorem execute_errs (hE : Errs env ops E) (dsm : Dsm K V F)
    (hd : ∀ i x sim sg, Safe (fun _ => True) E ((dsm i x sim sg).interp (algHandler cfg env ops))) (o : O) (e : PyErr)
    (h : (execute cfg env ops dsm o).1 = .error e) : E e := by
  have hT : Stable ops (fun _ : AlgState V C O F => True) := .triv
  have hup : Safe (fun _ => True) E (updateBasePulses ops : Prog (AlgState V C O F) Unit) :=
    hT.updateBasePulses hE (fun _ _ _ _ _ => trivial)
  have hloop : ∀ n k, Safe (fun _ => True) E (dcrabLoop cfg env ops dsm n k) := by
    intro n
    induction n with
    | zero => exact fun k => .pure _
    | succ n ih =>
      refine fun k => .bind (hT.poll hE) fun _ => .bind .get fun s => .ite (fun _ => .pure _) fun _ => .bind ?_ fun _ => ih _
      refine .bind hT.readClock fun t => .bind (.modify fun _ _ => trivial) fun _ => .bind (.modify fun _ _ => trivial) fun _ =>
        .bind (hT.driftStep hE k) fun _ => .bind .get fun s => .bind (.lift (hE.selectBasis _ _)) fun o =>
        .bind (.modify fun _ _ => trivial) fun _ => .bind (hT.dsmBuild hE dsm hd) fun _ => hup
  have : Safe (fun _ => True) E (run cfg env ops dsm) := by
    unfold run
    rcases cfg.kind
    · exact hloop _ _
    · exact hT.dsmBuild hE dsm hd
    · exact .bind .get fun s => .bind (.lift (hE.mean _)) fun _ => .bind (.lift (hE.sigma _)) fun _ =>
        .bind (.lift (hE.simplex _ _ _)) fun _ => .bind (hd _ _ _ _) fun _ => hup
  exact (this _ trivial).2 e h

end
end QuOCS

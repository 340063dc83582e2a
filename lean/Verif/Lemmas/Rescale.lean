/-
Two runs whose figures of merit are on different scales take the same steps.
-/
import Verif.Spec.Rescale
import Verif.Lemmas.Prog
import Verif.Model.CMAES

set_option linter.unusedSectionVars false
set_option linter.unusedVariables false

namespace QuOCS

section
variable {K V C O F : Type} [LE K] [DecidableLE K]
variable [Add F] [Sub F] [Mul F] [Div F] [Neg F] [Zero F] [One F] [NatCast F] [LE F] [LT F] [DecidableLE F]
  [DecidableLT F]
variable {α β γ δ : Type}

/-- the signals on the other scale -/
def Signal.rescale (φ : F → F) : Signal C F → Signal C F
  | .controls c => .controls c
  | .plot i f => .plot i (φ f)

/-- The state of the run on the other scale; `φ` acts on internal values, `ψ` on the user's values. -/
def AlgState.rescale (φ ψ : F → F) (s : AlgState V C O F) : AlgState V C O F :=
  { s with bestFoM := φ s.bestFoM, fomDict := { s.fomDict with fom := φ s.fomDict.fom }
           sc := { s.sc with track := s.sc.track.map φ }, fomList := s.fomList.map ψ
           dumps := s.dumps.map (DumpCall.rescale φ), signals := s.signals.map (Signal.rescale φ), log := s.log.map (Call.rescale ψ) }

/-- What the two runs have to satisfy. `real` are the values that can be measured. -/
structure OtherScale (cfg : AlgCfg K F) (env : Env V C F) (goal : Option F) (fatol cbs : F)
    (fm : List (Call V C F) → C → Py (Answer F)) (φ ψ : F → F) (real : F → Prop) : Prop where
  kind : cfg.kind ≠ .grape
  reEval : cfg.reEval = none
  drift : cfg.driftAfterSI = false ∨ (cfg.driftAverage = 1 ∧ ∀ v : F, (0 + v) / ((1 : ℕ) : F) = v)
  top : φ cfg.fomMax = cfg.fomMax
  lt : ∀ a b, (real a ∨ a = cfg.fomMax) → (real b ∨ b = cfg.fomMax) → (φ a < φ b ↔ a < b)
  le : ∀ a b, (real a ∨ a = cfg.fomMax) → (real b ∨ b = cfg.fomMax) → (φ a ≤ φ b ↔ a ≤ b)
  goal : (cfg.userGoal = none ∧ goal = none) ∨ ∃ g g', cfg.userGoal = some g ∧ goal = some g' ∧
    ∀ v, (real v ∨ v = cfg.fomMax) → (φ v ≤ dirMul cfg.maximize g' ↔ v ≤ dirMul cfg.maximize g)
  answers : Rescales ψ env fm
  seen : ∀ l c a f, env.getFoM l c = .ok a → a.fom = some f → real (dirMul cfg.maximize f)
  dir : ∀ f, real (dirMul cfg.maximize f) → dirMul cfg.maximize (ψ f) = φ (dirMul cfg.maximize f)
  back : ∀ v, real v → ψ (dirMul cfg.maximize v) = dirMul cfg.maximize (φ v)
  fsize : ∀ l, (∀ v ∈ l, real v) → (env.sqrt (variance (l.map φ)) ≤ fatol ↔ env.sqrt (variance l) ≤ cfg.sc.fatol)
  cbs : 1 < cfg.sc.cbsEvals → ∀ l, (∀ v ∈ l, real v) → (pyAbs (lsSlope (l.map φ) * (cfg.sc.cbsEvals.toNat : F)) < cbs ↔
    pyAbs (lsSlope l * (cfg.sc.cbsEvals.toNat : F)) < cfg.sc.cbsChange)

/-- Outcomes of both programs: the same exception, or results related by `Q`. -/
def Both (φ ψ : F → F) (Q : α → β → AlgState V C O F → Prop) (r : Py α × AlgState V C O F) (r' : Py β × AlgState V C O F) : Prop :=
  match r with
  | (.ok a, t) => ∃ b, r' = (.ok b, t.rescale φ ψ) ∧ Q a b t
  | (.error e, t) => r' = (.error e, t.rescale φ ψ)

/-- `m'` does on the other scale what `m` does. -/
def Mor (φ ψ : F → F) (P : AlgState V C O F → Prop) (Q : α → β → AlgState V C O F → Prop) (m : Prog (AlgState V C O F) α)
    (m' : Prog (AlgState V C O F) β) : Prop := ∀ s, P s → Both φ ψ Q (m s) (m' (s.rescale φ ψ))

variable {φ ψ : F → F} {P P' : AlgState V C O F → Prop}

theorem Mor.bind {Q : α → β → AlgState V C O F → Prop} {R : γ → δ → AlgState V C O F → Prop}
    {m : Prog (AlgState V C O F) α} {m' : Prog (AlgState V C O F) β} {f : α → Prog (AlgState V C O F) γ}
    {f' : β → Prog (AlgState V C O F) δ} (hm : Mor φ ψ P Q m m') (hf : ∀ a b, Mor φ ψ (Q a b) R (f a) (f' b)) :
    Mor φ ψ P R (m >>= f) (m' >>= f') := by
  intro s hs
  have h := hm s hs
  rw [Prog.bind_apply, Prog.bind_apply]
  rcases e : m s with ⟨e | a, t⟩
  · rw [e] at h
    have h : m' (s.rescale φ ψ) = _ := h
    rw [h]; rfl
  · rw [e] at h
    obtain ⟨b, h1, h2⟩ := h
    rw [h1]
    exact hf a b t h2

theorem Mor.get_bind {R : γ → δ → AlgState V C O F → Prop} {f f' : AlgState V C O F → Prog (AlgState V C O F) _}
    (h : ∀ s, Mor φ ψ (fun t => P t ∧ s = t) R (f s) (f' (s.rescale φ ψ))) : Mor φ ψ P R (Prog.get >>= f) (Prog.get >>= f') :=
  fun s hs => h s s ⟨hs, rfl⟩

theorem Mor.pure {Q : α → β → AlgState V C O F → Prop} {a : α} {b : β} (h : ∀ s, P s → Q a b s) :
    Mor φ ψ P Q (Pure.pure a) (Pure.pure b) := fun s hs => ⟨b, rfl, h s hs⟩

theorem Mor.lift (x : Py α) : Mor φ ψ P (fun a b t => a = b ∧ P t) (Prog.lift x) (Prog.lift x) := by
  intro s hs
  rcases x with e | a
  · exact rfl
  · exact ⟨a, rfl, rfl, hs⟩

theorem Mor.modify {f f' : AlgState V C O F → AlgState V C O F} (h : ∀ s, P s → f' (s.rescale φ ψ) = (f s).rescale φ ψ ∧ P' (f s)) :
    Mor φ ψ P (fun _ _ t => P' t) (Prog.modify f) (Prog.modify f') :=
  fun s hs => ⟨(), by rw [Prog.modify_apply, (h s hs).1], (h s hs).2⟩

theorem Mor.imp {Q Q' : α → β → AlgState V C O F → Prop} {m : Prog (AlgState V C O F) α} {m' : Prog (AlgState V C O F) β}
    (h : Mor φ ψ P Q m m') (hP : ∀ s, P' s → P s) (hQ : ∀ a b t, Q a b t → Q' a b t) : Mor φ ψ P' Q' m m' := by
  intro s hs
  have := h s (hP s hs)
  rcases e : m s with ⟨e | a, t⟩
  · rw [e] at this; exact this
  · rw [e] at this
    obtain ⟨b, h1, h2⟩ := this
    exact ⟨b, h1, hQ _ _ _ h2⟩

variable {cfg : AlgCfg K F} {env : Env V C F} {ops : CtlOps O V C} {goal : Option F} {fatol cbs : F}
variable {fm : List (Call V C F) → C → Py (Answer F)} {real : F → Prop}

/-- Invariant of the states; with the flag `false` the run is stopped. -/
structure Live (cfg : AlgCfg K F) (real : F → Prop) (l : Bool) (s : AlgState V C O F) : Prop where
  best : real s.bestFoM ∨ s.bestFoM = cfg.fomMax
  track : ∀ v ∈ s.sc.track, real v
  step : s.stepNumber = 0
  stopped : l = false → s.running = false

variable {l : Bool}

theorem mor_poll : Mor φ ψ (Live (V := V) (C := C) (O := O) cfg real l) (fun _ _ => Live cfg real l) (poll cfg env)
    (poll (cfg.onScale goal fatol cbs) (env.answering fm)) := by
  intro s hs
  have e1 : poll (cfg.onScale goal fatol cbs) (env.answering fm) (s.rescale φ ψ) =
      ((poll cfg env s).1, (poll cfg env s).2.rescale φ ψ) := by
    unfold poll
    show (match env.async s.polls with
      | .none => _ | .guiStop => _ | .sigint => _) = _
    rcases env.async s.polls with _ | _ | _
    · rfl
    · rfl
    · show (if cfg.hasDsm = true then _ else _) = _
      by_cases h : cfg.hasDsm = true
      · simp only [h, if_true]
        show (_, _) = _
        simp only [stopWith, Prog.modify_apply, h, if_true, show (cfg.onScale goal fatol cbs).hasDsm = true from h]
        rfl
      · simp only [h]
        rfl
  have e2 : Live cfg real l (poll cfg env s).2 := by
    unfold poll stopWith
    rcases env.async s.polls with _ | _ | _
    · exact ⟨hs.best, hs.track, hs.step, hs.stopped⟩
    · exact ⟨hs.best, hs.track, hs.step, fun _ => rfl⟩
    · dsimp only
      split
      · refine ⟨hs.best, ?_, hs.step, fun _ => rfl⟩
        exact hs.track
      · exact ⟨hs.best, hs.track, hs.step, hs.stopped⟩
  rw [e1]
  rcases h : poll cfg env s with ⟨e | a, t⟩
  · exact rfl
  · rw [h] at e2; exact ⟨a, rfl, e2⟩

theorem mor_stopWith (r : String) : Mor φ ψ (Live (V := V) (C := C) (O := O) cfg real l) (fun _ _ => Live cfg real l) (stopWith cfg r)
    (stopWith (cfg.onScale goal fatol cbs) r) := by
  intro s hs
  refine ⟨(), ?_, hs.best, ?_, hs.step, fun _ => rfl⟩
  · unfold stopWith
    show (_, _) = _
    by_cases h : cfg.hasDsm = true
    · simp only [h, if_true, show (cfg.onScale goal fatol cbs).hasDsm = true from h]; rfl
    · simp only [h, show (cfg.onScale goal fatol cbs).hasDsm = cfg.hasDsm from rfl]; rfl
  · show ∀ v ∈ (if cfg.hasDsm then { s.sc with isConverged := true } else s.sc).track, real v
    split <;> exact hs.track

theorem mor_readClock (P : AlgState V C O F → Prop) (h : ∀ s, P s → P { s with ticks := s.ticks + 1 }) :
    Mor φ ψ P (fun a b t => a = b ∧ P t) (readClock env) (readClock (env.answering fm)) :=
  fun s hs => ⟨_, rfl, rfl, h s hs⟩

theorem mor_checks (hS : OtherScale cfg env goal fatol cbs fm φ ψ real) :
    Mor φ ψ (Live (V := V) (C := C) (O := O) cfg real l) (fun _ _ => Live cfg real l) (stopChecks cfg env)
      (stopChecks (cfg.onScale goal fatol cbs) (env.answering fm)) := by
  refine .bind (Q := fun _ _ => Live cfg real l) ?_ fun _ _ => .bind (Q := fun _ _ => Live cfg real l) ?_ fun _ _ => ?_
  · intro s hs
    unfold budgetCheck
    show Both φ ψ _ _ (if (s.iter : ℤ) ≥ cfg.maxEvalTotal then _ else _)
    split
    · exact mor_stopWith _ s hs
    · exact ⟨(), rfl, hs⟩
  · intro s hs
    unfold goalCheck AlgCfg.goal
    rcases hS.goal with ⟨h1, h2⟩ | ⟨g, g', h1, h2, h3⟩
    · show Both φ ψ _ _ (match goal.map (dirMul cfg.maximize) with
        | some g => if φ s.bestFoM ≤ g then _ else _
        | none => _)
      rw [h1, h2]
      exact ⟨(), rfl, hs⟩
    · show Both φ ψ _ _ (match goal.map (dirMul cfg.maximize) with
        | some g => if φ s.bestFoM ≤ g then _ else _
        | none => _)
      rw [h1, h2]
      simp only [Option.map_some]
      by_cases h : s.bestFoM ≤ dirMul cfg.maximize g
      · rw [if_pos h, if_pos ((h3 _ hs.best).2 h)]
        exact mor_stopWith _ s hs
      · rw [if_neg h, if_neg (fun h' => h ((h3 _ hs.best).1 h'))]
        exact ⟨(), rfl, hs⟩
  · unfold timeCheck
    by_cases ht : cfg.totalTimeLim < 10 ^ 10
    · rw [if_pos ht, if_pos (show (cfg.onScale goal fatol cbs).totalTimeLim < 10 ^ 10 from ht)]
      refine .bind (mor_readClock _ fun s hs => ⟨hs.best, hs.track, hs.step, hs.stopped⟩) fun a b => ?_
      intro s hs
      obtain ⟨rfl, hs⟩ := hs
      unfold timeCheckAt
      show Both φ ψ _ _ (if a - s.optStart ≥ cfg.totalTimeLim then _ else _)
      split
      · exact mor_stopWith _ s hs
      · exact ⟨(), rfl, hs⟩
    · rw [if_neg ht, if_neg (show ¬ (cfg.onScale goal fatol cbs).totalTimeLim < 10 ^ 10 from ht)]
      exact .pure fun s hs => hs

/-- the last measured value is a real one -/
def Measured (cfg : AlgCfg K F) (real : F → Prop) (l : Bool) (s : AlgState V C O F) : Prop :=
  Live cfg real l s ∧ real s.fomDict.fom

theorem mor_getData (hS : OtherScale cfg env goal fatol cbs fm φ ψ real) (x : V) (c : C) :
    Mor φ ψ (Live (O := O) cfg real l) (fun _ _ => Measured cfg real l) (getData cfg env x c)
      (getData (cfg.onScale goal fatol cbs) (env.answering fm) x c) := by
  intro s hs
  unfold getData
  have ha : fm ((s.rescale φ ψ).log) c = (env.getFoM s.log c).map (Answer.rescale ψ) := hS.answers s.log c
  show Both φ ψ _ _ (match fm ((s.rescale φ ψ).log) c with | .error e => _ | .ok a => _)
  rcases h : env.getFoM s.log c with e | a
  · rw [h] at ha
    rw [ha]
    show (_, _) = (_, _)
    simp only [AlgState.rescale, Env.answering, List.map_append, List.map_cons, List.map_nil, Call.rescale, Except.map]
    rw [show fm (List.map (Call.rescale ψ) s.log) c = _ from ha]; rfl
  · rw [h] at ha
    rcases hf : a.fom with _ | f
    · rw [ha]
      simp only [Except.map, Answer.rescale, hf, Option.map_none]
      show (_, _) = (_, _)
      simp only [AlgState.rescale, Env.answering, List.map_append, List.map_cons, List.map_nil, Call.rescale, Except.map]
      rw [show fm (List.map (Call.rescale ψ) s.log) c = _ from ha]; rfl
    · rw [ha]
      simp only [Except.map, Answer.rescale, hf, Option.map_some]
      have hr := hS.seen _ _ _ _ h hf
      refine ⟨(), ?_, ⟨hs.best, hs.track, hs.step, fun hl => ?_⟩, hr⟩
      · simp only [AlgState.rescale, Env.answering, List.map_append, List.map_cons, List.map_nil, Call.rescale, Except.map]
        rw [show fm (List.map (Call.rescale ψ) s.log) c = _ from ha]
        simp only [AlgCfg.onScale, hS.dir f hr, Except.map, Answer.rescale]
      · show (if _ then s.running else false) = false
        rw [hs.stopped hl]; split <;> rfl

theorem mor_response (hS : OtherScale cfg env goal fatol cbs fm φ ψ real) :
    Mor φ ψ (Measured (V := V) (C := C) (O := O) cfg real l) (fun a b t => b = φ a ∧ Measured cfg real l t) (response cfg)
      (response (cfg.onScale goal fatol cbs)) := by
  rintro s ⟨hs, hr⟩
  have e1 : averageCurrent s = s.fomDict.fom := by unfold averageCurrent; rw [if_pos hs.step]
  have e2 : averageCurrent (s.rescale φ ψ) = φ s.fomDict.fom := by
    unfold averageCurrent
    rw [if_pos (show (s.rescale φ ψ).stepNumber = 0 from hs.step)]; rfl
  have hcmp : (φ s.fomDict.fom < φ s.bestFoM) = (s.fomDict.fom < s.bestFoM) := propext (hS.lt _ _ (.inl hr) hs.best)
  have hback := hS.back _ hr
  unfold response
  rw [e1, e2]
  have hd : (s.rescale φ ψ).fomDict.fom = φ s.fomDict.fom := rfl
  have hst : (s.rescale φ ψ).fomDict.status = s.fomDict.status := rfl
  have hb : (s.rescale φ ψ).bestFoM = φ s.bestFoM := rfl
  have hkk : (cfg.onScale goal fatol cbs).kind = cfg.kind := rfl
  have hrr : (cfg.onScale goal fatol cbs).reEval = none := hS.reEval
  have hmm : (cfg.onScale goal fatol cbs).maximize = cfg.maximize := rfl
  simp only [hd, hst, hb, hkk, hrr, hmm, hS.reEval, hS.kind, ite_self, Option.isSome_none, Option.isNone_none, and_false,
    Bool.false_eq_true, or_true, true_and, hcmp]
  by_cases h1 : s.fomDict.fom < s.bestFoM <;> by_cases h2 : s.fomDict.status.getD 0 = 0 <;> simp only [h1, h2, if_true, if_false]
  · refine ⟨_, ?_, rfl, ⟨.inl hr, hs.track, hs.step, hs.stopped⟩, hr⟩
    simp only [AlgState.rescale, List.map_append, List.map_cons, List.map_nil, hback]
  · exact ⟨_, rfl, rfl, ⟨.inl hr, hs.track, hs.step, hs.stopped⟩, hr⟩
  · refine ⟨_, ?_, rfl, ⟨hs.best, hs.track, hs.step, hs.stopped⟩, hr⟩
    simp only [AlgState.rescale, List.map_append, List.map_cons, List.map_nil, hback]
  · exact ⟨_, rfl, rfl, ⟨hs.best, hs.track, hs.step, hs.stopped⟩, hr⟩

theorem mor_sendResponse (v : F) :
    Mor φ ψ (Measured (V := V) (C := C) (O := O) cfg real l) (fun _ _ t => Measured cfg real l t) (sendResponse v)
      (sendResponse (φ v)) := by
  rintro s ⟨hs, hr⟩
  unfold sendResponse
  show Both φ ψ _ _ (if s.fomDict.status.getD 0 ≠ 0 then _ else _)
  split
  · exact ⟨(), rfl, ⟨hs.best, hs.track, hs.step, fun _ => rfl⟩, hr⟩
  · refine ⟨(), ?_, ⟨hs.best, hs.track, hs.step, hs.stopped⟩, hr⟩
    unfold dumpControls
    simp only [Prog.modify_apply, AlgState.rescale, List.map_append, List.map_cons, List.map_nil, DumpCall.rescale, Signal.rescale, List.length_map]

theorem scale_track (hS : OtherScale cfg env goal fatol cbs fm φ ψ real) {sc : Sc F} {v : F} (hv : real v) (ht : ∀ v ∈ sc.track, real v) :
    checkAdvanced (cfg.onScale goal fatol cbs).sc (addToTrack (cfg.onScale goal fatol cbs).sc { sc with track := sc.track.map φ } (φ v)) =
      { checkAdvanced cfg.sc (addToTrack cfg.sc sc v) with track := (checkAdvanced cfg.sc (addToTrack cfg.sc sc v)).track.map φ } ∧
    ∀ w ∈ (checkAdvanced cfg.sc (addToTrack cfg.sc sc v)).track, real w := by
  unfold checkAdvanced addToTrack
  simp only [show (cfg.onScale goal fatol cbs).sc.cbsEvals = cfg.sc.cbsEvals from rfl]
  by_cases h : cfg.sc.cbsEvals > 1
  · simp only [h, if_true]
    have ht' : ∀ w ∈ sc.track ++ [v], real w := by
      intro w hw
      rcases List.mem_append.1 hw with h | h
      · exact ht w h
      · rw [List.mem_singleton.1 h]; exact hv
    unfold checkCbs
    dsimp only
    simp only [show (cfg.onScale goal fatol cbs).sc.cbsEvals = cfg.sc.cbsEvals from rfl,
      show (cfg.onScale goal fatol cbs).sc.cbsChange = cbs from rfl]
    have hm : sc.track.map φ ++ [φ v] = (sc.track ++ [v]).map φ := by simp
    rw [hm, List.length_map, ← List.map_drop]
    have hd := hS.cbs h ((sc.track ++ [v]).drop ((sc.track ++ [v]).length - cfg.sc.cbsEvals.toNat))
      (fun w hw => ht' w (List.mem_of_mem_drop hw))
    by_cases hlen : (sc.track ++ [v]).length ≥ cfg.sc.cbsEvals.toNat
    · rw [if_pos hlen, if_pos hlen]
      by_cases hc : pyAbs (lsSlope ((sc.track ++ [v]).drop ((sc.track ++ [v]).length - cfg.sc.cbsEvals.toNat)) *
          (cfg.sc.cbsEvals.toNat : F)) < cfg.sc.cbsChange
      · rw [if_pos (hd.2 hc), if_pos hc]
        exact ⟨rfl, ht'⟩
      · rw [if_neg (fun h => hc (hd.1 h)), if_neg hc]
        exact ⟨rfl, ht'⟩
    · rw [if_neg hlen, if_neg hlen]
      exact ⟨rfl, ht'⟩
  · rw [if_neg h, if_neg h, if_neg h, if_neg h]
    exact ⟨rfl, ht⟩

theorem mor_trackFoM (hS : OtherScale cfg env goal fatol cbs fm φ ψ real) :
    Mor φ ψ (Measured (V := V) (C := C) (O := O) cfg real l) (fun _ _ t => Measured cfg real l t) (trackFoM cfg)
      (trackFoM (cfg.onScale goal fatol cbs)) := by
  unfold trackFoM
  refine .modify fun s hs => ?_
  obtain ⟨hs, hr⟩ := hs
  have hk : cfg.hasDsm = true := by simp [AlgCfg.hasDsm, hS.kind]
  obtain ⟨h1, h2⟩ := scale_track hS (sc := s.sc) hr hs.track
  rw [if_pos hk, if_pos (show (cfg.onScale goal fatol cbs).hasDsm = true from hk)]
  refine ⟨?_, ⟨hs.best, h2, hs.step, hs.stopped⟩, hr⟩
  show ({ (s.rescale φ ψ) with sc := _ } : AlgState V C O F) = _
  rw [show checkAdvanced (cfg.onScale goal fatol cbs).sc (addToTrack (cfg.onScale goal fatol cbs).sc (s.rescale φ ψ).sc
    (s.rescale φ ψ).fomDict.fom) = _ from h1]
  rfl

theorem mor_measure (hS : OtherScale cfg env goal fatol cbs fm φ ψ real) (x : V) (c : C) :
    Mor φ ψ (Live (O := O) cfg real l) (fun a b t => b = φ a ∧ Live cfg real l t ∧ real a) (measure cfg env x c)
      (measure (cfg.onScale goal fatol cbs) (env.answering fm) x c) := by
  unfold measure
  refine .bind (mor_getData hS x c) fun _ _ => .bind (mor_response hS) fun a b => ?_
  intro s hs
  obtain ⟨rfl, hs⟩ := hs
  refine Mor.bind (mor_sendResponse a) (fun _ _ => .bind (mor_trackFoM hS) fun _ _ => ?_) s hs
  intro s hs
  exact ⟨_, rfl, rfl, hs.1, hs.2⟩

/-- the value returned by a call: measured, or the placeholder in a stopped run -/
def Returned (cfg : AlgCfg K F) (φ : F → F) (real : F → Prop) (l : Bool) (v v' : F) (s : AlgState V C O F) : Prop :=
  v' = φ v ∧ Live cfg real l s ∧ (real v ∨ (v = cfg.fomMax ∧ s.running = false))

theorem mor_routineCall (hS : OtherScale cfg env goal fatol cbs fm φ ψ real) (x : V) (it : ℕ) :
    Mor φ ψ (Live (O := O) cfg real l) (Returned cfg φ real l) (routineCall cfg env ops x it)
      (routineCall (cfg.onScale goal fatol cbs) (env.answering fm) ops x it) := by
  unfold routineCall
  refine .bind mor_poll fun _ _ => .bind (mor_checks hS) fun _ _ => .bind mor_poll fun _ _ => ?_
  intro s hs
  rw [Prog.get_bind, Prog.get_bind]
  show Both φ ψ _ _ ((if s.running = false then _ else _ : Prog _ _) _)
  by_cases hr : s.running = false
  · rw [if_pos hr, if_pos hr]
    exact ⟨_, rfl, hS.top.symm, hs, .inr ⟨rfl, hr⟩⟩
  · rw [if_neg hr, if_neg hr]
    have hmod : Mor φ ψ (Live (V := V) (C := C) (O := O) cfg real l) (fun _ _ => Live cfg real l)
        (Prog.modify (fun s => { s with xx := some x, algIter := it, iter := s.iter + 1 }))
        (Prog.modify (fun s => { s with xx := some x, algIter := it, iter := s.iter + 1 })) :=
      .modify fun s hs => ⟨rfl, ⟨hs.best, hs.track, hs.step, hs.stopped⟩⟩
    refine Mor.bind hmod (fun _ _ => ?_) s hs
    refine Mor.bind (Q := fun a b => fun t => a = b ∧ Live cfg real l t) ?_ fun a b => ?_
    · intro s hs
      unfold sendControls
      show Both φ ψ _ _ (match ops.getControls s.ctl x with | .error e => _ | .ok (o, c) => _)
      rcases ops.getControls s.ctl x with e | ⟨o, c⟩
      · exact rfl
      · refine ⟨c, ?_, rfl, hs.best, hs.track, hs.step, hs.stopped⟩
        simp only [AlgState.rescale, List.map_append, List.map_cons, List.map_nil, Signal.rescale]
    · intro s hs
      obtain ⟨rfl, hs⟩ := hs
      refine Mor.bind mor_poll (fun _ _ => ?_) s hs
      intro s hs
      rw [Prog.get_bind, Prog.get_bind]
      show Both φ ψ _ _ ((if s.running = false then _ else _ : Prog _ _) _)
      by_cases hr : s.running = false
      · rw [if_pos hr, if_pos hr]
        exact ⟨_, rfl, hS.top.symm, hs, .inr ⟨rfl, hr⟩⟩
      · rw [if_neg hr, if_neg hr]
        exact Mor.imp (mor_measure hS x a) (fun s h => h) (fun v v' t h => ⟨h.1, h.2.1, .inl h.2.2⟩) s hs

theorem mor_innerCall (hS : OtherScale cfg env goal fatol cbs fm φ ψ real) (x : V) (it : ℕ) :
    Mor φ ψ (Live (O := O) cfg real l) (Returned cfg φ real l) (innerCall cfg env ops x it)
      (innerCall (cfg.onScale goal fatol cbs) (env.answering fm) ops x it) := by
  unfold innerCall
  refine .bind (Q := fun _ _ => Live cfg real l) (.modify fun s hs => ⟨rfl, hs.best, hs.track, rfl, hs.stopped⟩) fun _ _ => ?_
  have h : Mor φ ψ (Live (O := O) cfg real l) (Returned cfg φ real l) (routineCall cfg env ops x it >>= fun f => Pure.pure f)
      (routineCall (cfg.onScale goal fatol cbs) (env.answering fm) ops x it >>= fun f => Pure.pure f) :=
    .bind (mor_routineCall hS x it) fun a b => .pure fun s hs => hs
  rw [hS.reEval, show (cfg.onScale goal fatol cbs).reEval = none from hS.reEval]
  exact h

/-- the values a search has seen; with the flag `true` all of them were measured -/
def Val (real : F → Prop) (top : F) (l : Bool) (v : F) : Prop := real v ∨ (l = false ∧ v = top)

/-- Two searches take the same steps if the answers are on different scales. -/
inductive SRel (φ : F → F) (real : F → Prop) (top : F) (Q : Bool → α → β → Prop) : Bool → Strat K V F α → Strat K V F β → Prop
  | ret (l a b) (h : Q l a b) : SRel φ real top Q l (.ret a) (.ret b)
  | eval (l x it k k') (h : ∀ l' v, (l' = true → l = true) → Val real top l' v → SRel φ real top Q l' (k v) (k' (φ v))) :
      SRel φ real top Q l (.op (.eval x it) k) (.op (.eval x it) k')
  | readConv (l k k') (h : ∀ b, SRel φ real top Q l (k b) (k' b)) : SRel φ real top Q l (.op .readConv k) (.op .readConv k')
  | setConv (l b k k') (h : SRel φ real top Q l (k ()) (k' ())) : SRel φ real top Q l (.op (.setConv b) k) (.op (.setConv b) k')
  | now (l k k') (h : ∀ t, SRel φ real top Q l (k t) (k' t)) : SRel φ real top Q l (.op .now k) (.op .now k')
  | reason (l k k') (h : ∀ t, SRel φ real top Q l (k t) (k' t)) : SRel φ real top Q l (.op .reason k) (.op .reason k')
  | fail (l e k k') : SRel φ real top Q l (.op (.fail e) k) (.op (.fail e) k')
  | finishNM (l size fs fs' calls k0 k0' k k') (hfs : l = true → (∀ v ∈ fs, real v) ∧ fs' = fs.map φ)
      (h1 : k0 true = .op (.checkNM size fs calls) k) (h2 : k0 false = .op .userStop fun _ => .op (.checkNM size fs calls) k)
      (h1' : k0' true = .op (.checkNM size fs' calls) k') (h2' : k0' false = .op .userStop fun _ => .op (.checkNM size fs' calls) k')
      (h : SRel φ real top Q l (k ()) (k' ())) : SRel φ real top Q l (.op .callback k0) (.op .callback k0')
  | finishCMA (l fs fs' calls k0 k0' k k') (hfs : l = true → (∀ v ∈ fs, real v) ∧ fs' = fs.map φ)
      (h1 : k0 true = .op (.checkCMA fs calls) k) (h2 : k0 false = .op .userStop fun _ => .op (.checkCMA fs calls) k)
      (h1' : k0' true = .op (.checkCMA fs' calls) k') (h2' : k0' false = .op .userStop fun _ => .op (.checkCMA fs' calls) k')
      (h : SRel φ real top Q l (k ()) (k' ())) : SRel φ real top Q l (.op .callback k0) (.op .callback k0')

variable {top : F} {Q : Bool → α → β → Prop} {R : Bool → γ → δ → Prop}

theorem SRel.bind {st : Strat K V F α} {st' : Strat K V F β} (h : SRel φ real top Q l st st') {f : α → Strat K V F γ}
    {f' : β → Strat K V F δ} (hf : ∀ l' a b, (l' = true → l = true) → Q l' a b → SRel φ real top R l' (f a) (f' b)) :
    SRel φ real top R l (Strat.bind st f) (Strat.bind st' f') := by
  induction h with
  | ret l a b h => exact hf l a b id h
  | eval l x it k k' h ih =>
    exact .eval _ _ _ _ _ fun l' v hl hv => ih l' v hl hv fun l'' a b h => hf l'' a b fun h' => hl (h h')
  | readConv l k k' h ih => exact .readConv _ _ _ fun b => ih b hf
  | setConv l b k k' h ih => exact .setConv _ _ _ _ (ih hf)
  | now l k k' h ih => exact .now _ _ _ fun b => ih b hf
  | reason l k k' h ih => exact .reason _ _ _ fun b => ih b hf
  | fail l e k k' => exact .fail _ _ _ _
  | finishNM l size fs fs' calls k0 k0' k k' hfs h1 h2 h1' h2' h ih =>
    refine .finishNM l size fs fs' calls _ _ (fun r => Strat.bind (k r) f) (fun r => Strat.bind (k' r) f') hfs ?_ ?_ ?_ ?_ (ih hf)
    · show Strat.bind (k0 true) f = _; rw [h1]; rfl
    · show Strat.bind (k0 false) f = _; rw [h2]; rfl
    · show Strat.bind (k0' true) f' = _; rw [h1']; rfl
    · show Strat.bind (k0' false) f' = _; rw [h2']; rfl
  | finishCMA l fs fs' calls k0 k0' k k' hfs h1 h2 h1' h2' h ih =>
    refine .finishCMA l fs fs' calls _ _ (fun r => Strat.bind (k r) f) (fun r => Strat.bind (k' r) f') hfs ?_ ?_ ?_ ?_ (ih hf)
    · show Strat.bind (k0 true) f = _; rw [h1]; rfl
    · show Strat.bind (k0 false) f = _; rw [h2]; rfl
    · show Strat.bind (k0' true) f' = _; rw [h1']; rfl
    · show Strat.bind (k0' false) f' = _; rw [h2']; rfl

theorem scale_nmCheck (hS : OtherScale cfg env goal fatol cbs fm φ ψ real) {sc : Sc F} {size : Py K} {fs fs' : List F} {calls : ℕ} {now : ℚ}
    (h : sc.isConverged = true ∨ ((∀ v ∈ fs, real v) ∧ fs' = fs.map φ)) :
    nmCheck env.sqrt (cfg.onScale goal fatol cbs).sc { sc with track := sc.track.map φ } size fs' calls now =
      (nmCheck env.sqrt cfg.sc sc size fs calls now).map (fun sc => { sc with track := sc.track.map φ }) ∧
    ∀ sc', nmCheck env.sqrt cfg.sc sc size fs calls now = .ok sc' → sc'.track = sc.track := by
  unfold nmCheck
  obtain ⟨ic, rs, st, tr⟩ := sc
  rcases ic with _ | _
  swap
  · simp only [if_true]
    exact ⟨rfl, fun sc' h => by cases h; rfl⟩
  rcases h with h | ⟨hr, rfl⟩
  · cases h
  have e1 : checkFuncEval (cfg.onScale goal fatol cbs).sc calls = checkFuncEval cfg.sc calls := rfl
  have e2 : checkSimplex (cfg.onScale goal fatol cbs).sc size = checkSimplex cfg.sc size := rfl
  have e3 : checkFSize env.sqrt (cfg.onScale goal fatol cbs).sc (fs.map φ) = checkFSize env.sqrt cfg.sc fs := by
    unfold checkFSize
    simp only [show (cfg.onScale goal fatol cbs).sc.fatol = fatol from rfl, hS.fsize fs hr]
  have e4 : ∀ (sc : Sc F), checkTimeOut (cfg.onScale goal fatol cbs).sc sc now = checkTimeOut cfg.sc { sc with track := tr } now :=
    fun _ => rfl
  simp only [Bool.false_eq_true, if_false, e1, e2, e3, e4]
  generalize checkFuncEval cfg.sc calls = r1
  generalize checkFSize env.sqrt cfg.sc fs = r3
  rcases r1 with ⟨_ | _, m1⟩
  swap
  · exact ⟨rfl, fun sc' h => by cases h; rfl⟩
  rcases checkSimplex cfg.sc size with e | ⟨_ | _, m2⟩
  · exact ⟨rfl, fun sc' h => by cases h⟩
  swap
  · exact ⟨rfl, fun sc' h => by cases h; rfl⟩
  rcases r3 with ⟨_ | _, m3⟩
  swap
  · exact ⟨rfl, fun sc' h => by cases h; rfl⟩
  simp only [Bool.false_eq_true, if_false]
  generalize checkTimeOut cfg.sc _ now = r4
  rcases r4 with ⟨_ | _, m4⟩
  · exact ⟨rfl, fun sc' h => by cases h; rfl⟩
  · exact ⟨rfl, fun sc' h => by cases h; rfl⟩

theorem scale_cmaCheck (hS : OtherScale cfg env goal fatol cbs fm φ ψ real) {sc : Sc F} {fs fs' : List F} {calls : ℕ} {now : ℚ}
    (h : sc.isConverged = true ∨ ((∀ v ∈ fs, real v) ∧ fs' = fs.map φ)) :
    cmaCheck env.sqrt (cfg.onScale goal fatol cbs).sc { sc with track := sc.track.map φ } fs' calls now =
      { cmaCheck env.sqrt cfg.sc sc fs calls now with track := (cmaCheck env.sqrt cfg.sc sc fs calls now).track.map φ } ∧
    (cmaCheck env.sqrt cfg.sc sc fs calls now).track = sc.track := by
  unfold cmaCheck
  obtain ⟨ic, rs, st, tr⟩ := sc
  rcases ic with _ | _
  swap
  · exact ⟨rfl, rfl⟩
  rcases h with h | ⟨hr, rfl⟩
  · cases h
  have e1 : checkFuncEval (cfg.onScale goal fatol cbs).sc calls = checkFuncEval cfg.sc calls := rfl
  have e3 : checkFSize env.sqrt (cfg.onScale goal fatol cbs).sc (fs.map φ) = checkFSize env.sqrt cfg.sc fs := by
    unfold checkFSize
    simp only [show (cfg.onScale goal fatol cbs).sc.fatol = fatol from rfl, hS.fsize fs hr]
  simp only [Bool.false_eq_true, if_false, e1, e3]
  generalize checkFuncEval cfg.sc calls = r1
  generalize checkFSize env.sqrt cfg.sc fs = r3
  rcases r1 with ⟨_ | _, m1⟩
  swap
  · exact ⟨rfl, rfl⟩
  rcases r3 with ⟨_ | _, m3⟩
  · exact ⟨rfl, rfl⟩
  · exact ⟨rfl, rfl⟩

theorem mor_withSc {f f' : Sc F → Sc F} (h : ∀ sc : Sc F, (∀ v ∈ sc.track, real v) →
      f' { sc with track := sc.track.map φ } = { f sc with track := (f sc).track.map φ } ∧ ∀ v ∈ (f sc).track, real v) :
    Mor φ ψ (Live (V := V) (C := C) (O := O) cfg real l) (fun _ _ => Live cfg real l) (withSc f) (withSc f') := by
  refine .modify fun s hs => ?_
  obtain ⟨h1, h2⟩ := h s.sc hs.track
  refine ⟨?_, ⟨hs.best, h2, hs.step, hs.stopped⟩⟩
  show ({ (s.rescale φ ψ) with sc := f' { s.sc with track := s.sc.track.map φ } } : AlgState V C O F) = _
  rw [h1]; rfl

/-- a step of the stopping-criteria object, after a callback that did or did not stop the search -/
theorem mor_callback {st st' : Strat K V F Unit} {k0 : Bool → Strat K V F α} {k0' : Bool → Strat K V F β}
    {T : α → β → AlgState V C O F → Prop}
    (hgo : l = true → Mor φ ψ (Live cfg real l) T ((k0 true).interp (algHandler cfg env ops))
      ((k0' true).interp (algHandler (cfg.onScale goal fatol cbs) (env.answering fm) ops)))
    (hstop : Mor φ ψ (Live cfg real l) T ((k0 false).interp (algHandler cfg env ops))
      ((k0' false).interp (algHandler (cfg.onScale goal fatol cbs) (env.answering fm) ops))) :
    Mor φ ψ (Live cfg real l) T ((Strat.op .callback k0).interp (algHandler cfg env ops))
      ((Strat.op .callback k0').interp (algHandler (cfg.onScale goal fatol cbs) (env.answering fm) ops)) := by
  rw [Strat.interp_op, Strat.interp_op]
  refine .bind (Q := fun a b t => a = b ∧ Live cfg real l t ∧ (a = true → l = true)) ?_ fun a b => ?_
  · refine .bind mor_poll fun _ _ => ?_
    intro s hs
    refine ⟨_, rfl, rfl, hs, fun h => ?_⟩
    rcases l with _ | _
    · have := hs.stopped rfl
      rw [this] at h; cases h
    · rfl
  · intro s hs
    obtain ⟨rfl, hs, hl⟩ := hs
    rcases a with _ | _
    · exact hstop s hs
    · exact hgo (hl rfl) s hs

theorem interp_mor (hS : OtherScale cfg env goal fatol cbs fm φ ψ real) {st : Strat K V F α} {st' : Strat K V F β}
    (h : SRel φ real cfg.fomMax Q l st st') :
    Mor φ ψ (Live cfg real l) (fun a b t => ∃ l', Q l' a b ∧ Live cfg real l' t) (st.interp (algHandler cfg env ops))
      (st'.interp (algHandler (cfg.onScale goal fatol cbs) (env.answering fm) ops)) := by
  induction h with
  | ret l a b h => exact .pure fun s hs => ⟨l, h, hs⟩
  | eval l x it k k' h ih =>
    rw [Strat.interp_op, Strat.interp_op]
    refine .bind (Q := Returned cfg φ real l) ?_ fun v v' => ?_
    · show Mor φ ψ _ _ (if cfg.kind = .grape then innerGrape cfg env ops x else innerCall cfg env ops x it)
        (if (cfg.onScale goal fatol cbs).kind = .grape then _ else _)
      rw [if_neg hS.kind, if_neg (show (cfg.onScale goal fatol cbs).kind ≠ .grape from hS.kind)]
      exact mor_innerCall hS x it
    · intro s hs
      obtain ⟨rfl, hs, hv⟩ := hs
      rcases hv with hv | ⟨rfl, hr⟩
      · exact ih l v id (.inl hv) s hs
      · exact ih false _ (fun h => by cases h) (.inr ⟨rfl, rfl⟩) s ⟨hs.best, hs.track, hs.step, fun _ => hr⟩
  | readConv l k k' h ih =>
    rw [Strat.interp_op, Strat.interp_op]
    refine .bind (Q := fun a b t => a = b ∧ Live cfg real l t) ?_ fun a b => ?_
    · exact .bind mor_poll fun _ _ => fun s hs => ⟨_, rfl, rfl, hs⟩
    · intro s hs
      obtain ⟨rfl, hs⟩ := hs
      exact ih a s hs
  | setConv l b k k' h ih =>
    rw [Strat.interp_op, Strat.interp_op]
    exact .bind (Q := fun _ _ => Live cfg real l) (mor_withSc (f := fun sc => { sc with isConverged := b })
      (f' := fun sc => { sc with isConverged := b }) fun sc hs => ⟨rfl, hs⟩) fun _ _ => ih
  | now l k k' h ih =>
    rw [Strat.interp_op, Strat.interp_op]
    refine .bind (mor_readClock _ fun s hs => ⟨hs.best, hs.track, hs.step, hs.stopped⟩) fun a b => ?_
    intro s hs
    obtain ⟨rfl, hs⟩ := hs
    exact ih a s hs
  | reason l k k' h ih =>
    rw [Strat.interp_op, Strat.interp_op]
    refine .bind (Q := fun a b t => a = b ∧ Live cfg real l t) (fun s hs => ⟨_, rfl, rfl, hs⟩) fun a b => ?_
    intro s hs
    obtain ⟨rfl, hs⟩ := hs
    exact ih a s hs
  | fail l e k k' => exact fun s hs => rfl
  | finishNM l size fs fs' calls k0 k0' k k' hfs h1 h2 h1' h2' h ih =>
    have hcheck : ∀ conv : Bool, (conv = true ∨ ((∀ v ∈ fs, real v) ∧ fs' = fs.map φ)) →
        Mor φ ψ (fun s => Live cfg real l s ∧ (conv = true → s.sc.isConverged = true))
          (fun a b t => ∃ l', Q l' a b ∧ Live cfg real l' t)
          ((Strat.op (.checkNM size fs calls) k).interp (algHandler cfg env ops))
          ((Strat.op (.checkNM size fs' calls) k').interp (algHandler (cfg.onScale goal fatol cbs) (env.answering fm) ops)) := by
      intro conv hconv
      rw [Strat.interp_op, Strat.interp_op]
      refine .bind (Q := fun _ _ => Live cfg real l) ?_ fun _ _ => ih
      refine .bind (mor_readClock _ fun s hs => ⟨⟨hs.1.best, hs.1.track, hs.1.step, hs.1.stopped⟩, hs.2⟩) fun a b => ?_
      intro s hs
      obtain ⟨rfl, hs, hc⟩ := hs
      rw [Prog.get_bind, Prog.get_bind]
      obtain ⟨e1, e2⟩ := scale_nmCheck hS (sc := s.sc) (size := size) (calls := calls) (now := a)
        (hconv.imp_left hc)
      rw [show nmCheck (env.answering fm).sqrt (cfg.onScale goal fatol cbs).sc (s.rescale φ ψ).sc size fs' calls a = _ from e1]
      rcases h : nmCheck env.sqrt cfg.sc s.sc size fs calls a with e | sc
      · exact rfl
      · refine ⟨(), rfl, ⟨hs.best, ?_, hs.step, hs.stopped⟩⟩
        show ∀ v ∈ sc.track, real v
        rw [e2 _ h]; exact hs.track
    refine mor_callback (st := .ret ()) (st' := .ret ()) (fun hl => ?_) ?_
    · rw [h1, h1']
      exact (hcheck false (.inr (hfs hl))).imp (fun s hs => ⟨hs, fun h => by cases h⟩) fun _ _ _ h => h
    · rw [h2, h2', Strat.interp_op, Strat.interp_op]
      refine .bind (Q := fun _ _ s => Live cfg real l s ∧ (true = true → s.sc.isConverged = true)) ?_ fun _ _ => hcheck true (.inl rfl)
      exact .modify fun s hs => ⟨rfl, ⟨hs.best, hs.track, hs.step, hs.stopped⟩, fun _ => rfl⟩
  | finishCMA l fs fs' calls k0 k0' k k' hfs h1 h2 h1' h2' h ih =>
    have hcheck : ∀ conv : Bool, (conv = true ∨ ((∀ v ∈ fs, real v) ∧ fs' = fs.map φ)) →
        Mor φ ψ (fun s => Live cfg real l s ∧ (conv = true → s.sc.isConverged = true))
          (fun a b t => ∃ l', Q l' a b ∧ Live cfg real l' t)
          ((Strat.op (.checkCMA fs calls) k).interp (algHandler cfg env ops))
          ((Strat.op (.checkCMA fs' calls) k').interp (algHandler (cfg.onScale goal fatol cbs) (env.answering fm) ops)) := by
      intro conv hconv
      rw [Strat.interp_op, Strat.interp_op]
      refine .bind (Q := fun _ _ => Live cfg real l) ?_ fun _ _ => ih
      refine .bind (mor_readClock _ fun s hs => ⟨⟨hs.1.best, hs.1.track, hs.1.step, hs.1.stopped⟩, hs.2⟩) fun a b => ?_
      intro s hs
      obtain ⟨rfl, hs, hc⟩ := hs
      obtain ⟨e1, e2⟩ := scale_cmaCheck hS (sc := s.sc) (calls := calls) (now := a) (hconv.imp_left hc)
      refine ⟨(), ?_, ⟨hs.best, ?_, hs.step, hs.stopped⟩⟩
      · exact congrArg (fun sc => ((Except.ok () : Py Unit), ({ (s.rescale φ ψ) with sc := sc } : AlgState V C O F))) e1
      · show ∀ v ∈ (cmaCheck env.sqrt cfg.sc s.sc fs calls a).track, real v
        rw [e2]; exact hs.track
    refine mor_callback (st := .ret ()) (st' := .ret ()) (fun hl => ?_) ?_
    · rw [h1, h1']
      exact (hcheck false (.inr (hfs hl))).imp (fun s hs => ⟨hs, fun h => by cases h⟩) fun _ _ _ h => h
    · rw [h2, h2', Strat.interp_op, Strat.interp_op]
      refine .bind (Q := fun _ _ s => Live cfg real l s ∧ (true = true → s.sc.isConverged = true)) ?_ fun _ _ => hcheck true (.inl rfl)
      exact .modify fun s hs => ⟨rfl, ⟨hs.best, hs.track, hs.step, hs.stopped⟩, fun _ => rfl⟩

/-- Two search methods take the same steps on both scales and end for the same reason. -/
def DsmRel (φ : F → F) (real : F → Prop) (top : F) (dsm dsm' : Dsm K V F) : Prop :=
  ∀ i x sim sg, SRel φ real top (fun _ r r' => r.reason = r'.reason) true (dsm i x sim sg) (dsm' i x sim sg)

theorem mor_dsmBuild (hS : OtherScale cfg env goal fatol cbs fm φ ψ real) {dsm dsm' : Dsm K V F} (hd : DsmRel φ real cfg.fomMax dsm dsm') :
    Mor φ ψ (Live cfg real true) (fun _ _ => Live cfg real true) (dsmBuild cfg env ops dsm)
      (dsmBuild (cfg.onScale goal fatol cbs) (env.answering fm) ops dsm') := by
  unfold dsmBuild
  refine .get_bind fun s0 => ?_
  refine .bind (.lift _) fun x x' => ?_
  intro s hs
  obtain ⟨rfl, hs, rfl⟩ := hs
  refine Mor.bind (Mor.lift (P := Live cfg real true) (ops.sigma s0.ctl)) (fun sg sg' => ?_) s0 hs
  intro s hs
  obtain ⟨rfl, hs⟩ := hs
  refine Mor.bind (Mor.lift (P := Live cfg real true) (ops.simplex s0.superIt x sg)) (fun sim sim' => ?_) s hs
  intro s hs
  obtain ⟨rfl, hs⟩ := hs
  have hmod : Mor φ ψ (Live (V := V) (C := C) (O := O) cfg real true) (fun _ _ => Live cfg real true)
      (Prog.modify (fun s => { s with bestXX := some x })) (Prog.modify (fun s => { s with bestXX := some x })) :=
    .modify fun s hs => ⟨rfl, ⟨hs.best, hs.track, hs.step, hs.stopped⟩⟩
  refine Mor.bind hmod (fun _ _ => ?_) s hs
  refine .bind (interp_mor hS (hd _ x sim sg)) fun r r' => ?_
  intro s hs
  obtain ⟨l', hrr, hs⟩ := hs
  refine ⟨(), ?_, ⟨hs.best, hs.track, hs.step, fun h => by cases h⟩⟩
  rw [Prog.modify_apply, ← hrr]
  rfl

theorem mor_driftStep (hS : OtherScale cfg env goal fatol cbs fm φ ψ real) (k : ℕ) :
    Mor φ ψ (Live (O := O) cfg real true) (fun _ _ => Live cfg real true) (driftStep cfg env ops k)
      (driftStep (cfg.onScale goal fatol cbs) (env.answering fm) ops k) := by
  unfold driftStep
  rw [show (cfg.onScale goal fatol cbs).driftAfterSI = cfg.driftAfterSI from rfl]
  rcases hS.drift with h | ⟨h1, h2⟩
  · rw [h]; simp only [Bool.false_eq_true, false_and, if_false]
    exact .pure fun s hs => hs
  by_cases hc : cfg.driftAfterSI = true ∧ k ≥ 2
  swap
  · rw [if_neg hc, if_neg hc]; exact .pure fun s hs => hs
  rw [if_pos hc, if_pos hc]
  unfold updateFoM
  refine .get_bind fun s0 => ?_
  refine .bind (.lift _) fun x x' => ?_
  intro s hs
  obtain ⟨rfl, hs, rfl⟩ := hs
  have hmod : Mor φ ψ (Live (V := V) (C := C) (O := O) cfg real true) (fun _ _ => Live cfg real true)
      (Prog.modify (fun s => { s with isRecord := true, stepNumber := 0 })) (Prog.modify (fun s => { s with isRecord := true, stepNumber := 0 })) :=
    .modify fun s hs => ⟨rfl, ⟨hs.best, hs.track, rfl, hs.stopped⟩⟩
  refine Mor.bind hmod (fun _ _ => ?_) s0 hs
  rw [show (cfg.onScale goal fatol cbs).driftAverage = cfg.driftAverage from rfl, h1]
  simp only [Nat.one_ne_zero, if_false]
  have hsum : Mor φ ψ (Live (O := O) cfg real true)
      (fun v v' t => Live cfg real true t ∧ ∃ f, v = 0 + f ∧ v' = 0 + φ f ∧ (real f ∨ f = cfg.fomMax))
      (sumRoutine cfg env ops x 1 0) (sumRoutine (cfg.onScale goal fatol cbs) (env.answering fm) ops x 1 0) :=
    .bind (mor_routineCall hS x 0) fun v v' => .pure fun s hs => ⟨hs.2.1, v, rfl, by rw [hs.1], hs.2.2.imp_right And.left⟩
  refine .bind hsum fun v v' => .modify fun s hs => ?_
  obtain ⟨hs, f, rfl, rfl, hf⟩ := hs
  rw [h2, h2]
  exact ⟨rfl, hf, hs.track, hs.step, hs.stopped⟩

theorem mor_superIteration (hS : OtherScale cfg env goal fatol cbs fm φ ψ real) {dsm dsm' : Dsm K V F} (hd : DsmRel φ real cfg.fomMax dsm dsm')
    (k : ℕ) : Mor φ ψ (Live cfg real true) (fun _ _ => Live cfg real true) (superIteration cfg env ops dsm k)
      (superIteration (cfg.onScale goal fatol cbs) (env.answering fm) ops dsm' k) := by
  unfold superIteration
  refine .bind (mor_readClock _ fun s hs => ⟨hs.best, hs.track, hs.step, hs.stopped⟩) fun a b => ?_
  intro s hs
  obtain ⟨rfl, hs⟩ := hs
  refine Mor.bind (mor_withSc (real := real) fun sc hs => ⟨rfl, by simp⟩) (fun _ _ => ?_) s hs
  refine .bind (Q := fun _ _ => Live cfg real true) (.modify fun s hs => ⟨rfl, ⟨hs.best, hs.track, hs.step, hs.stopped⟩⟩) fun _ _ => ?_
  refine .bind (mor_driftStep hS k) fun _ _ => .get_bind fun s0 => ?_
  refine .bind (.lift _) fun o o' => ?_
  intro s hs
  obtain ⟨rfl, hs, rfl⟩ := hs
  have hmod : Mor φ ψ (Live (V := V) (C := C) (O := O) cfg real true) (fun _ _ => Live cfg real true)
      (Prog.modify (fun s => { s with ctl := o })) (Prog.modify (fun s => { s with ctl := o })) :=
    .modify fun s hs => ⟨rfl, ⟨hs.best, hs.track, hs.step, hs.stopped⟩⟩
  refine Mor.bind hmod (fun _ _ => ?_) s0 hs
  refine .bind (mor_dsmBuild hS hd) fun _ _ => ?_
  intro s hs
  unfold updateBasePulses
  show Both φ ψ _ _ (match s.bestXX with | none => _ | some x => _)
  rcases hx : s.bestXX with _ | x
  · exact rfl
  · dsimp only
    rw [show (s.rescale φ ψ).ctl = s.ctl from rfl]
    rcases ops.updateBase s.ctl x with e | o
    · exact rfl
    · exact ⟨(), by simp only [AlgState.rescale, hx], ⟨hs.best, hs.track, hs.step, hs.stopped⟩⟩

theorem mor_dcrabLoop (hS : OtherScale cfg env goal fatol cbs fm φ ψ real) {dsm dsm' : Dsm K V F} (hd : DsmRel φ real cfg.fomMax dsm dsm')
    (n k : ℕ) : Mor φ ψ (Live cfg real true) (fun _ _ => Live cfg real true) (dcrabLoop cfg env ops dsm n k)
      (dcrabLoop (cfg.onScale goal fatol cbs) (env.answering fm) ops dsm' n k) := by
  induction n generalizing k with
  | zero => exact .pure fun s hs => hs
  | succ n ih =>
    unfold dcrabLoop
    refine .bind mor_poll fun _ _ => ?_
    intro s hs
    rw [Prog.get_bind, Prog.get_bind]
    show Both φ ψ _ _ ((if s.running = false then _ else _ : Prog _ _) _)
    by_cases hr : s.running = false
    · rw [if_pos hr, if_pos hr]
      exact ⟨_, rfl, hs⟩
    · rw [if_neg hr, if_neg hr]
      exact Mor.bind (mor_superIteration hS hd k) (fun _ _ => ih (k + 1)) s hs

/-- The whole run. -/
theorem execute_rescale (hS : OtherScale cfg env goal fatol cbs fm φ ψ real) {dsm dsm' : Dsm K V F} (hd : DsmRel φ real cfg.fomMax dsm dsm')
    (o : O) : execute (cfg.onScale goal fatol cbs) (env.answering fm) ops dsm' o =
      ((execute cfg env ops dsm o).1, (execute cfg env ops dsm o).2.rescale φ ψ) ∧
      ((execute cfg env ops dsm o).1 = .ok () → real (execute cfg env ops dsm o).2.bestFoM ∨
        (execute cfg env ops dsm o).2.bestFoM = cfg.fomMax) := by
  have hi : Live (V := V) (C := C) cfg real true (initState cfg env o) := ⟨.inr rfl, fun v hv => absurd hv (List.not_mem_nil), rfl, fun h => by cases h⟩
  have e : initState (cfg.onScale goal fatol cbs) (env.answering fm) o = (initState cfg env o).rescale φ ψ := by
    unfold initState AlgState.rescale
    simp only [List.map_nil, hS.top]
    rfl
  have hm : Mor φ ψ (Live cfg real true) (fun _ _ => Live cfg real true) (run cfg env ops dsm)
      (run (cfg.onScale goal fatol cbs) (env.answering fm) ops dsm') := by
    unfold run
    rw [show (cfg.onScale goal fatol cbs).kind = cfg.kind from rfl]
    rcases hk : cfg.kind with _ | _ | _
    · exact mor_dcrabLoop hS hd _ _
    · exact mor_dsmBuild hS hd
    · exact absurd hk hS.kind
  have h := hm _ hi
  unfold execute
  rw [e]
  rcases h1 : run cfg env ops dsm (initState cfg env o) with ⟨e | a, t⟩
  · rw [h1] at h
    have h : _ = _ := h
    rw [h]
    exact ⟨rfl, fun h => by cases h⟩
  · rw [h1] at h
    obtain ⟨b, h, hl⟩ := h
    rw [h]
    exact ⟨rfl, fun _ => hl.best⟩

end
end QuOCS

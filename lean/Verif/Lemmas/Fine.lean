/-
Programs that raise only for certain reasons, which may depend on the state in which they raise.
-/
import Verif.Lemmas.Hoare
import Verif.Lemmas.Strat
import Verif.Spec.Failure

set_option linter.unusedSectionVars false
set_option linter.unusedVariables false

namespace QuOCS

/-- From a state in `P`, `m` ends in a state in `Q`, or raises an exception allowed by `E` in the state it leaves. -/
def Fine {S α : Type} (P Q : S → Prop) (E : PyErr → S → Prop) (m : Prog S α) : Prop :=
  ∀ s, P s → (∀ a, (m s).1 = .ok a → Q (m s).2) ∧ ∀ e, (m s).1 = .error e → E e (m s).2

namespace Fine
section
variable {S α β : Type} {P Q R P' Q' : S → Prop} {E : PyErr → S → Prop}

theorem pure (a : α) : Fine P P E (Pure.pure a : Prog S α) :=
  fun _ h => ⟨fun _ _ => h, fun e he => by cases he⟩
theorem get : Fine P P E (Prog.get : Prog S S) := fun _ h => ⟨fun _ _ => h, fun e he => by cases he⟩
theorem modify {f : S → S} (hf : ∀ s, P s → Q (f s)) : Fine P Q E (Prog.modify f) :=
  fun s h => ⟨fun _ _ => hf s h, fun e he => by cases he⟩

theorem bind {m : Prog S α} {f : α → Prog S β} (hm : Fine P Q E m) (hf : ∀ a, Fine Q R E (f a)) :
    Fine P R E (m >>= f) := by
  intro s h
  rw [Prog.bind_apply]
  obtain ⟨h1, h2⟩ := hm s h
  rcases hs : m s with ⟨e | a, s'⟩
  · rw [hs] at h2
    exact ⟨fun _ he => (by cases he), fun e' he => by cases he; exact h2 _ rfl⟩
  · rw [hs] at h1
    exact hf a s' (h1 a rfl)

theorem get_bind {f : S → Prog S β} (hf : ∀ s, P s → (∀ a, (f s s).1 = .ok a → Q (f s s).2) ∧
    ∀ e, (f s s).1 = .error e → E e (f s s).2) :
    Fine P Q E (Prog.get >>= f) := fun s h => by rw [Prog.get_bind]; exact hf s h

theorem ite {c : Prop} [Decidable c] {a b : Prog S α} (ha : c → Fine P Q E a) (hb : ¬ c → Fine P Q E b) :
    Fine P Q E (if c then a else b) := by
  by_cases h : c
  · rw [if_pos h]; exact ha h
  · rw [if_neg h]; exact hb h

theorem weaken {m : Prog S α} (hm : Fine P Q E m) (hP : ∀ s, P' s → P s) (hQ : ∀ s, Q s → Q' s) : Fine P' Q' E m :=
  fun s h => ⟨fun a ha => hQ _ ((hm s (hP s h)).1 a ha), (hm s (hP s h)).2⟩

/-- a computation that succeeds -/
theorem lift_ok {x : Py α} {f : α → Prog S β} {a : α} (hx : x = .ok a) (hf : Fine P Q E (f a)) :
    Fine P Q E (Prog.lift x >>= f) := by
  intro s h
  rw [Prog.bind_apply, Prog.lift_apply, hx]
  exact hf s h
end
end Fine

section
variable {K V C O F : Type} [LE K] [DecidableLE K]
variable [Add F] [Sub F] [Mul F] [Div F] [Neg F] [Zero F] [One F] [NatCast F] [LE F] [LT F] [DecidableLE F]
  [DecidableLT F]
variable {cfg : AlgCfg K F} {env : Env V C F} {ops : CtlOps O V C}

/-- A controls object whose methods never raise on states in `I`. -/
structure Faultless (ops : CtlOps O V C) (I : O → Prop) (S : List V → Prop) : Prop where
  get : ∀ o x, I o → ∃ o' c, ops.getControls o x = .ok (o', c) ∧ I o'
  mean : ∀ o, I o → ∃ x, ops.mean o = .ok x
  sigma : ∀ o, I o → ∃ x, ops.sigma o = .ok x
  update : ∀ o x, I o → ∃ o', ops.updateBase o x = .ok o' ∧ I o'
  select : ∀ k o, I o → ∃ o', ops.selectBasis k o = .ok o' ∧ I o'
  simplex : ∀ k x y, ∃ sim, ops.simplex k x y = .ok sim ∧ S sim

/-- number of entries of the tables of the re-evaluation -/
def tableSize (cfg : AlgCfg K F) : ℕ := match cfg.reEval with | some l => l.length + 1 | none => 0

/-- The invariant of a run: the controls object is in order, the tables have their size, a measurement was made only
after a vector was noted; `bx` and `xs` tell whether a best and a current vector exist. -/
structure Sound (cfg : AlgCfg K F) (I : O → Prop) (bx xs : Bool) (s : AlgState V C O F) : Prop where
  ctl : I s.ctl
  fom : s.fomTest.length = tableSize cfg
  sig : s.sigmaTest.length = tableSize cfg
  noted : s.xx = none → s.log = []
  best : bx = true → s.bestXX.isSome
  cur : xs = true → s.xx.isSome

variable {I : O → Prop} {bx xs : Bool} {D : Prop}

theorem Sound.frame {s s' : AlgState V C O F} (h : Sound cfg I bx xs s) (h1 : s'.ctl = s.ctl) (h2 : s'.fomTest = s.fomTest)
    (h3 : s'.sigmaTest = s.sigmaTest) (h4 : s'.xx = s.xx) (h5 : s'.log = s.log) (h6 : s'.bestXX = s.bestXX) :
    Sound cfg I bx xs s' := by
  refine ⟨h1 ▸ h.ctl, h2 ▸ h.fom, h3 ▸ h.sig, ?_, ?_, ?_⟩
  · rw [h4, h5]; exact h.noted
  · rw [h6]; exact h.best
  · rw [h4]; exact h.cur

theorem Sound.drop {s : AlgState V C O F} (h : Sound cfg I bx true s) : Sound cfg I bx xs s :=
  ⟨h.ctl, h.fom, h.sig, h.noted, h.best, fun _ => h.cur rfl⟩

theorem Sound.dropBest {s : AlgState V C O F} (h : Sound cfg I bx xs s) : Sound cfg I false xs s :=
  ⟨h.ctl, h.fom, h.sig, h.noted, (fun h => by cases h), h.cur⟩

theorem Sound.dropCur {s : AlgState V C O F} (h : Sound cfg I bx xs s) : Sound cfg I bx false s :=
  ⟨h.ctl, h.fom, h.sig, h.noted, h.best, (fun h => by cases h)⟩

/-- a state update outside of what the invariant looks at -/
theorem Sound.modify {E : PyErr → AlgState V C O F → Prop} {f : AlgState V C O F → AlgState V C O F}
    (h1 : ∀ s, (f s).ctl = s.ctl) (h2 : ∀ s, (f s).fomTest = s.fomTest)
    (h3 : ∀ s, (f s).sigmaTest = s.sigmaTest) (h4 : ∀ s, (f s).xx = s.xx) (h5 : ∀ s, (f s).log = s.log)
    (h6 : ∀ s, (f s).bestXX = s.bestXX) : Fine (Sound cfg I bx xs) (Sound cfg I bx xs) E (Prog.modify f) :=
  Fine.modify fun s h => h.frame (h1 s) (h2 s) (h3 s) (h4 s) (h5 s) (h6 s)

variable {E : PyErr → AlgState V C O F → Prop}

theorem Sound.withSc (f : Sc F → Sc F) :
    Fine (Sound cfg I bx xs) (Sound cfg I bx xs) E (QuOCS.withSc f : Prog (AlgState V C O F) Unit) :=
  Sound.modify (fun _ => rfl) (fun _ => rfl) (fun _ => rfl) (fun _ => rfl) (fun _ => rfl) (fun _ => rfl)

theorem Sound.readClock :
    Fine (Sound cfg I bx xs) (Sound cfg I bx xs) E (QuOCS.readClock env : Prog (AlgState V C O F) ℚ) :=
  fun s h => ⟨fun _ _ => h.frame rfl rfl rfl rfl rfl rfl, fun e he => by cases he⟩

theorem Sound.stopWith (r : String) :
    Fine (Sound cfg I bx xs) (Sound cfg I bx xs) E (QuOCS.stopWith cfg r : Prog (AlgState V C O F) Unit) :=
  Sound.modify (fun _ => rfl) (fun _ => rfl) (fun _ => rfl) (fun _ => rfl) (fun _ => rfl) (fun _ => rfl)

theorem Sound.poll (hk : cfg.kind ≠ .grape) :
    Fine (Sound cfg I bx xs) (Sound cfg I bx xs) E (QuOCS.poll cfg env : Prog (AlgState V C O F) Unit) := by
  intro s h
  have h' : Sound cfg I bx xs { s with polls := s.polls + 1 } := h.frame rfl rfl rfl rfl rfl rfl
  unfold QuOCS.poll
  rcases env.async s.polls with _ | _ | _
  · exact ⟨fun _ _ => h', fun e he => by cases he⟩
  · exact ⟨fun _ _ => h.frame rfl rfl rfl rfl rfl rfl, fun e he => by cases he⟩
  · dsimp only
    rw [if_pos (by simp [AlgCfg.hasDsm, hk])]
    exact Sound.stopWith _ _ h'

theorem Sound.dumpControls (b : Bool) (f : F) :
    Fine (Sound cfg I bx xs) (Sound cfg I bx xs) E (QuOCS.dumpControls b f : Prog (AlgState V C O F) Unit) :=
  Sound.modify (fun _ => rfl) (fun _ => rfl) (fun _ => rfl) (fun _ => rfl) (fun _ => rfl) (fun _ => rfl)

theorem Sound.stopChecks :
    Fine (Sound cfg I bx xs) (Sound cfg I bx xs) E (QuOCS.stopChecks cfg env : Prog (AlgState V C O F) Unit) := by
  refine .bind (Q := Sound cfg I bx xs) (fun s h => ?_) fun _ => .bind (Q := Sound cfg I bx xs) (fun s h => ?_) fun _ => ?_
  · unfold budgetCheck
    split
    · exact Sound.stopWith _ s h
    · exact ⟨fun _ _ => h, fun e he => by cases he⟩
  · unfold goalCheck
    split
    · split
      · exact Sound.stopWith _ s h
      · exact ⟨fun _ _ => h, fun e he => by cases he⟩
    · exact ⟨fun _ _ => h, fun e he => by cases he⟩
  · refine .ite (fun _ => .bind Sound.readClock fun t => fun s h => ?_) fun _ => .pure _
    unfold timeCheckAt
    split
    · exact Sound.stopWith _ s h
    · exact ⟨fun _ _ => h, fun e he => by cases he⟩

/-- The reasons for which a run may fail: the user's function failed in the last call, or the run was stopped before
anything was measured (only if `D`). -/
def FailsFor (env : Env V C F) (D : Prop) (e : PyErr) (s : AlgState V C O F) : Prop :=
  UserFailed env e s.log ∨ (D ∧ e = .attributeError ∧ s.log = [])

theorem Sound.measure (x : V) (c : C) :
    Fine (Sound cfg I bx true) (Sound cfg I bx true) (FailsFor env D)
      (QuOCS.measure cfg env x c : Prog (AlgState V C O F) F) := by
  refine .bind (Q := Sound cfg I bx true) (fun s h => ?_) fun _ => .bind (Q := Sound cfg I bx true) (fun s h => ?_) fun f =>
    .bind (Q := Sound cfg I bx true) (fun s h => ?_) fun _ =>
    .bind (Q := Sound cfg I bx true) (Sound.modify (fun s => ?_) (fun s => ?_) (fun s => ?_) (fun s => ?_) (fun s => ?_)
      (fun s => ?_)) fun _ => .bind .get fun s => .pure _
  · unfold getData
    dsimp only
    have hn : ∀ s' : AlgState V C O F, s'.ctl = s.ctl → s'.fomTest = s.fomTest → s'.sigmaTest = s.sigmaTest → s'.xx = s.xx →
        s'.bestXX = s.bestXX → Sound cfg I bx true s' := by
      intro s' h1 h2 h3 h4 h6
      refine ⟨h1 ▸ h.ctl, h2 ▸ h.fom, h3 ▸ h.sig, ?_, ?_, ?_⟩
      · intro h5
        have := h.cur rfl
        rw [← h4, h5] at this; cases this
      · rw [h6]; exact h.best
      · rw [h4]; exact h.cur
    rcases ha : env.getFoM s.log c with e | a
    · refine ⟨fun _ he => (by cases he), fun e' he => ?_⟩
      cases he
      exact .inl ⟨_, _, rfl, ha.symm, .inl rfl⟩
    · dsimp only
      rcases hf : a.fom with _ | f
      · refine ⟨fun _ he => (by cases he), fun e' he => ?_⟩
        cases he
        exact .inl ⟨_, _, rfl, ha.symm, .inr ⟨rfl, a, rfl, hf⟩⟩
      · exact ⟨fun _ _ => hn _ rfl rfl rfl rfl rfl, fun e' he => by cases he⟩
  · refine ⟨fun _ _ => ⟨?_, ?_, ?_, ?_, ?_, ?_⟩, fun e' he => by cases he⟩
    · have : (response cfg s).2.ctl = s.ctl := by unfold response; dsimp only; (repeat' split) <;> rfl
      rw [this]; exact h.ctl
    · have : (response cfg s).2.fomTest = s.fomTest := by unfold response; dsimp only; (repeat' split) <;> rfl
      rw [this]; exact h.fom
    · have : (response cfg s).2.sigmaTest = s.sigmaTest := by unfold response; dsimp only; (repeat' split) <;> rfl
      rw [this]; exact h.sig
    · have e1 : (response cfg s).2.xx = s.xx := by unfold response; dsimp only; (repeat' split) <;> rfl
      have e2 : (response cfg s).2.log = s.log := by unfold response; dsimp only; (repeat' split) <;> rfl
      rw [e1, e2]; exact h.noted
    · have : (response cfg s).2.bestXX = s.bestXX ∨ (response cfg s).2.bestXX = s.xx := by
        unfold response; dsimp only; (repeat' split) <;> simp
      intro hb
      rcases this with e | e
      · rw [e]; exact h.best hb
      · rw [e]; exact h.cur rfl
    · have e1 : (response cfg s).2.xx = s.xx := by unfold response; dsimp only; (repeat' split) <;> rfl
      rw [e1]; exact h.cur
  · unfold sendResponse
    split
    · exact ⟨fun _ _ => h.frame rfl rfl rfl rfl rfl rfl, fun e' he => by cases he⟩
    · exact ⟨fun _ _ => h.frame rfl rfl rfl rfl rfl rfl, fun e' he => by cases he⟩
  all_goals (split <;> rfl)

variable {S : List V → Prop}

theorem Sound.routineCall (hk : cfg.kind ≠ .grape) (hF : Faultless ops I S) (x : V) (it : ℕ) :
    Fine (Sound cfg I bx xs) (Sound cfg I bx xs) (FailsFor env D) (QuOCS.routineCall cfg env ops x it) := by
  refine .bind (Sound.poll hk) fun _ => .bind Sound.stopChecks fun _ => .bind (Sound.poll hk) fun _ => .bind .get fun s =>
    .ite (fun _ => .pure _) fun _ => ?_
  refine .bind (Q := Sound cfg I bx true) (.modify fun s h => ⟨h.ctl, h.fom, h.sig, (fun h => by cases h), h.best, fun _ => rfl⟩)
    fun _ => ?_
  refine Fine.weaken (P := Sound cfg I bx true) (Q := Sound cfg I bx true) ?_ (fun _ h => h) (fun _ h => h.drop)
  refine .bind (Q := Sound cfg I bx true) (fun s h => ?_) fun c => .bind (Sound.poll hk) fun _ => .bind .get fun s =>
    .ite (fun _ => .pure _) fun _ => Sound.measure x c
  obtain ⟨o', c, h1, h2⟩ := hF.get s.ctl x h.ctl
  unfold sendControls
  rw [h1]
  exact ⟨fun _ _ => ⟨h2, h.fom, h.sig, h.noted, h.best, h.cur⟩, fun e he => by cases he⟩

theorem Sound.storeTest {i : ℕ} (hi : i < tableSize cfg) (f : F) :
    Fine (Sound cfg I bx xs) (Sound cfg I bx xs) E (QuOCS.storeTest i f : Prog (AlgState V C O F) Unit) := by
  intro s h
  have h1 : i < s.fomTest.length := h.fom.symm ▸ hi
  have h2 : i < s.sigmaTest.length := h.sig.symm ▸ hi
  unfold QuOCS.storeTest setIdx
  rw [if_pos h1]
  dsimp only
  rw [if_pos h2]
  exact ⟨fun _ _ => ⟨h.ctl, by simpa using h.fom, by simpa using h.sig, h.noted, h.best, h.cur⟩, fun e he => by cases he⟩

theorem Sound.reEvalLoop (hk : cfg.kind ≠ .grape) (hF : Faultless ops I S) (hD : D) (x : V) (it : ℕ) (last : F)
    (ps : List F) (i : ℕ) (hi : i + ps.length < tableSize cfg) :
    Fine (Sound cfg I bx xs) (Sound cfg I bx xs) (FailsFor env D) (QuOCS.reEvalLoop cfg env ops x it last i ps) := by
  induction ps generalizing i with
  | nil =>
    intro s h
    unfold QuOCS.reEvalLoop reEvalFinish
    dsimp only
    split
    · split
      · rename_i hx
        exact ⟨fun _ he => (by cases he), fun e' he => by cases he; exact .inr ⟨hD, rfl, h.noted hx⟩⟩
      · rename_i x' hx
        refine (Fine.bind (Sound.dumpControls _ _) fun _ => Fine.pure (E := FailsFor env D) _) _ ?_
        exact ⟨h.ctl, h.fom, h.sig, h.noted, fun _ => rfl, h.cur⟩
    · exact ⟨fun _ _ => h, fun e' he => by cases he⟩
  | cons p ps ih =>
    simp only [List.length_cons] at hi
    refine .bind .get fun s => .ite (fun _ => .pure _) fun _ => ?_
    exact .bind (Sound.routineCall hk hF x it) fun f => .bind (Sound.storeTest (by omega) f) fun _ => ih _ (by omega)

theorem Sound.innerCall (hk : cfg.kind ≠ .grape) (hF : Faultless ops I S) (hne : cfg.reEval ≠ some [])
    (hD : cfg.reEval ≠ none → D) (x : V) (it : ℕ) :
    Fine (Sound cfg I bx xs) (Sound cfg I bx xs) (FailsFor env D) (QuOCS.innerCall cfg env ops x it) := by
  unfold QuOCS.innerCall
  refine .bind (Q := Sound cfg I bx xs)
    (Sound.modify (fun _ => rfl) (fun _ => rfl) (fun _ => rfl) (fun _ => rfl) (fun _ => rfl) (fun _ => rfl)) fun _ =>
    .bind (Sound.routineCall hk hF x it) fun f => ?_
  rcases hr : cfg.reEval with _ | steps
  · exact .pure _
  · have hsz : tableSize cfg = steps.length + 1 := by unfold tableSize; rw [hr]
    have hsn : steps ≠ [] := by rintro rfl; exact hne hr
    have hsl := List.length_pos_of_ne_nil hsn
    refine .bind .get fun s => .bind (Q := Sound cfg I bx xs) (.modify fun s h =>
      ⟨h.ctl, by simpa using h.fom, by simpa using h.sig, h.noted, h.best, h.cur⟩) fun _ =>
      .bind (Sound.storeTest (by omega) f) fun _ => ?_
    have hl : (if s.iter = 1 then [cfg.half] else steps) ≠ [] ∧
        (if s.iter = 1 then [cfg.half] else steps).length ≤ steps.length := by
      split
      · exact ⟨by simp, by simp only [List.length_singleton]; omega⟩
      · exact ⟨hsn, le_rfl⟩
    generalize (if s.iter = 1 then [cfg.half] else steps) = st at hl ⊢
    rcases hg : st.getLast? with _ | last
    · exact absurd (List.getLast?_eq_none_iff.1 hg) hl.1
    · exact Sound.reEvalLoop hk hF (hD (by rw [hr]; simp)) x it last _ 0 (by omega)

theorem Sound.innerDrift (hD : D) (v : F) :
    Fine (Sound cfg I bx xs) (Sound cfg I bx xs) (FailsFor env D) (QuOCS.innerDrift v : Prog (AlgState V C O F) F) := by
  intro s h
  unfold QuOCS.innerDrift
  dsimp only
  split
  · rename_i hx
    exact ⟨fun _ he => (by cases he), fun e' he => by cases he; exact .inr ⟨hD, rfl, h.noted hx⟩⟩
  · refine (Fine.bind (Sound.dumpControls _ _) fun _ => Fine.pure (E := FailsFor env D) _) _ ?_
    exact ⟨h.ctl, h.fom, h.sig, h.noted, fun _ => rfl, h.cur⟩

/-- What a call of a search method must satisfy: no exception of its own, drift announcements only if `D`. -/
def Op.Clean (D : Prop) : Op K V F → Prop
  | .checkNM size _ _ => ∃ x, size = .ok x
  | .drift _ _ _ => D
  | .fail e => e = .outOfFuel
  | _ => True

theorem Sound.handler (hk : cfg.kind ≠ .grape) (hF : Faultless ops I S) (hne : cfg.reEval ≠ some [])
    (hD : cfg.reEval ≠ none → D) (o : Op K V F) (ho : o.Clean D) (hf : o ≠ .fail .outOfFuel) :
    Fine (Sound cfg I bx xs) (Sound cfg I bx xs) (FailsFor env D) (algHandler cfg env ops o) := by
  cases o with
  | eval x it => exact .ite (fun h => absurd h hk) fun _ => Sound.innerCall hk hF hne hD x it
  | drift x it v => exact Sound.innerDrift ho v
  | readConv => exact .bind (Sound.poll hk) fun _ => .bind .get fun s => .pure _
  | setConv b => exact Sound.withSc _
  | callback => exact .bind (Sound.poll hk) fun _ => .bind .get fun s => .pure _
  | userStop => exact Sound.withSc _
  | checkNM size fsim calls =>
    obtain ⟨z, rfl⟩ := ho
    refine .bind Sound.readClock fun t => .get_bind fun s h => ?_
    rw [Prog.bind_apply, Prog.lift_apply]
    rcases hc : nmCheck env.sqrt cfg.sc s.sc (.ok z) fsim calls t with e | sc
    · cases nmCheck_err hc
    · exact Sound.withSc _ s h
  | checkCMA fsim calls => exact .bind Sound.readClock fun t => Sound.withSc _
  | now => exact Sound.readClock
  | reason => exact .bind .get fun s => .pure _
  | fail e => cases (show e = _ from ho); exact absurd rfl hf

/-- A search method whose calls are clean, whatever the answers. -/
def Strat.Clean (D : Prop) {α : Type} : Strat K V F α → Prop
  | .ret _ => True
  | .op o k => o.Clean D ∧ ∀ r, (k r).Clean D

namespace Strat
variable {α β : Type}

theorem Clean.bind {m : Strat K V F α} {f : α → Strat K V F β} (hm : m.Clean D) (hf : ∀ a, (f a).Clean D) :
    (m >>= f).Clean D := by
  induction m with
  | ret a => exact hf a
  | op o k ih => exact ⟨hm.1, fun r => ih r (hm.2 r)⟩

theorem Clean.call {o : Op K V F} (ho : o.Clean D) : (Strat.call o).Clean D := ⟨ho, fun _ => trivial⟩
theorem Clean.pure (a : α) : (Pure.pure a : Strat K V F α).Clean D := trivial
theorem Clean.fuel : (Strat.fail .outOfFuel : Strat K V F α).Clean D := ⟨rfl, fun r => nomatch r⟩
theorem Clean.ite {c : Prop} [Decidable c] {a b : Strat K V F α} (ha : c → a.Clean D) (hb : ¬ c → b.Clean D) :
    (if c then a else b).Clean D := by
  by_cases h : c
  · rw [if_pos h]; exact ha h
  · rw [if_neg h]; exact hb h

end Strat

/-- A clean search method that is not cut off. -/
theorem Sound.interp (hk : cfg.kind ≠ .grape) (hF : Faultless ops I S) (hne : cfg.reEval ≠ some [])
    (hD : cfg.reEval ≠ none → D) {α : Type} (m : Strat K V F α) (hm : m.Clean D)
    (hcut : ∀ evs o k s s1, Plays m evs (.op o k) → Handled (algHandler cfg env ops) s evs s1 → o ≠ .fail .outOfFuel) :
    Fine (Sound cfg I bx xs) (Sound cfg I bx xs) (FailsFor env D) (m.interp (algHandler cfg env ops)) := by
  suffices ∀ s, (∀ evs o k s1, Plays m evs (.op o k) → Handled (algHandler cfg env ops) s evs s1 → o ≠ .fail .outOfFuel) →
      Sound cfg I bx xs s → (∀ a, (m.interp (algHandler cfg env ops) s).1 = .ok a →
        Sound cfg I bx xs (m.interp (algHandler cfg env ops) s).2) ∧
      ∀ e, (m.interp (algHandler cfg env ops) s).1 = .error e → FailsFor env D e (m.interp (algHandler cfg env ops) s).2 from
    fun s h => this s (fun evs o k s1 => hcut evs o k s s1) h
  clear hcut
  induction m with
  | ret a => exact fun s _ h => Fine.pure (E := FailsFor env D) a s h
  | op o k ih =>
    intro s hcut h
    have h1 := Sound.handler (bx := bx) (xs := xs) (env := env) hk hF hne hD o hm.1 (hcut [] o k s (.nil _) rfl) s h
    rw [Strat.interp_op, Prog.bind_apply]
    rcases hs : algHandler cfg env ops o s with ⟨e | a, s'⟩
    · rw [hs] at h1
      exact ⟨fun _ he => (by cases he), fun e' he => by cases he; exact h1.2 _ rfl⟩
    · rw [hs] at h1
      refine ih a (hm.2 a) s' (fun evs o' k' s1 hp hh => ?_) (h1.1 a rfl)
      exact hcut (⟨o, a⟩ :: evs) o' k' s1 (.cons _ _ _ _ _ hp) ⟨s', hs, hh⟩

theorem Sound.sumRoutine (hk : cfg.kind ≠ .grape) (hF : Faultless ops I S) (x : V) (n : ℕ) (acc : F) :
    Fine (Sound cfg I bx xs) (Sound cfg I bx xs) (FailsFor env D) (QuOCS.sumRoutine cfg env ops x n acc) := by
  induction n generalizing acc with
  | zero => exact .pure _
  | succ n ih => exact .bind (Sound.routineCall hk hF x 0) fun f => ih _

theorem Sound.driftStep (hk : cfg.kind ≠ .grape) (hF : Faultless ops I S) (ha : cfg.driftAfterSI = true → cfg.driftAverage ≠ 0)
    (k : ℕ) :
    Fine (Sound cfg I bx xs) (Sound cfg I bx xs) (FailsFor env D) (QuOCS.driftStep cfg env ops k) := by
  unfold QuOCS.driftStep
  refine .ite (fun hc => ?_) fun _ => .pure _
  refine .get_bind fun s h => ?_
  obtain ⟨x0, hx⟩ := hF.mean s.ctl h.ctl
  refine Fine.lift_ok (P := Sound cfg I bx xs) hx ?_ s h
  refine .bind (Q := Sound cfg I bx xs)
    (Sound.modify (fun _ => rfl) (fun _ => rfl) (fun _ => rfl) (fun _ => rfl) (fun _ => rfl) (fun _ => rfl)) fun _ =>
    .bind (Sound.sumRoutine hk hF x0 _ _) fun f => ?_
  rw [if_neg (ha hc.1)]
  exact Sound.modify (fun _ => rfl) (fun _ => rfl) (fun _ => rfl) (fun _ => rfl) (fun _ => rfl) (fun _ => rfl)

theorem Sound.dsmBuild (hF : Faultless ops I S) (dsm : Dsm K V F)
    (hd : ∀ i x sim sg, S sim → Fine (Sound cfg I true xs) (Sound cfg I true xs) (FailsFor env D)
      ((dsm i x sim sg).interp (algHandler cfg env ops))) :
    Fine (Sound cfg I bx xs) (Sound cfg I true xs) (FailsFor env D) (QuOCS.dsmBuild cfg env ops dsm) := by
  refine .get_bind fun s h => ?_
  obtain ⟨x0, h1⟩ := hF.mean s.ctl h.ctl
  obtain ⟨sg, h2⟩ := hF.sigma s.ctl h.ctl
  obtain ⟨sim, h3, h4⟩ := hF.simplex s.superIt x0 sg
  refine Fine.lift_ok (P := Sound cfg I bx xs) h1 (Fine.lift_ok h2 (Fine.lift_ok h3 ?_)) s h
  refine .bind (Q := Sound cfg I true xs) (.modify fun s h => ⟨h.ctl, h.fom, h.sig, h.noted, fun _ => rfl, h.cur⟩) fun _ =>
    .bind (hd _ x0 sim sg h4) fun r => ?_
  exact Sound.modify (fun _ => rfl) (fun _ => rfl) (fun _ => rfl) (fun _ => rfl) (fun _ => rfl) (fun _ => rfl)

theorem Sound.updateBasePulses (hF : Faultless ops I S) :
    Fine (Sound cfg I true xs) (Sound cfg I true xs) E (QuOCS.updateBasePulses ops : Prog (AlgState V C O F) Unit) := by
  intro s h
  obtain ⟨x, hx⟩ := Option.isSome_iff_exists.1 (h.best rfl)
  obtain ⟨o, h1, h2⟩ := hF.update s.ctl x h.ctl
  unfold QuOCS.updateBasePulses
  simp only [hx, h1]
  exact ⟨fun _ _ => ⟨h2, h.fom, h.sig, h.noted, fun _ => by simp, h.cur⟩, fun e he => by cases he⟩

/-- A run with a controls object that never raises fails only for the allowed reasons. -/
theorem execute_fails (hk : cfg.kind ≠ .grape) (hF : Faultless ops I S)
    (ha : cfg.driftAfterSI = true → cfg.driftAverage ≠ 0) (dsm : Dsm K V F)
    (hd : ∀ i x sim sg, S sim → Fine (Sound cfg I true false) (Sound cfg I true false) (FailsFor env D)
      ((dsm i x sim sg).interp (algHandler cfg env ops))) {o : O} (ho : I o) :
    (∀ a, (execute cfg env ops dsm o).1 = .ok a → I (execute cfg env ops dsm o).2.ctl) ∧
    ∀ e, (execute cfg env ops dsm o).1 = .error e → FailsFor env D e (execute cfg env ops dsm o).2 := by
  have hloop : ∀ n k, Fine (Sound cfg I false false) (Sound cfg I false false) (FailsFor env D)
      (dcrabLoop cfg env ops dsm n k) := by
    intro n
    induction n with
    | zero => exact fun k => .pure _
    | succ n ih =>
      refine fun k => .bind (Sound.poll hk) fun _ => .bind .get fun s => .ite (fun _ => .pure _) fun _ => .bind ?_ fun _ => ih _
      refine .bind Sound.readClock fun t => .bind (Sound.withSc _) fun _ => .bind (Q := Sound cfg I false false)
        (Sound.modify (fun _ => rfl) (fun _ => rfl) (fun _ => rfl) (fun _ => rfl) (fun _ => rfl) (fun _ => rfl)) fun _ =>
        .bind (Sound.driftStep hk hF ha k) fun _ => .get_bind fun s h => ?_
      obtain ⟨o', h1, h2⟩ := hF.select k s.ctl h.ctl
      rw [Prog.bind_apply, Prog.lift_apply, h1]
      refine Fine.bind (P := Sound cfg I false false) (Q := Sound cfg I true false)
        (R := Sound cfg I false false) (Sound.dsmBuild hF dsm hd) (fun _ => ?_) { s with ctl := o' }
        ⟨h2, h.fom, h.sig, h.noted, h.best, h.cur⟩
      exact Fine.weaken (Sound.updateBasePulses hF) (fun _ h => h) fun _ h => h.dropBest
  have hrun : Fine (Sound cfg I false false) (Sound cfg I false false) (FailsFor env D) (run cfg env ops dsm) := by
    unfold run
    rcases hkk : cfg.kind
    · exact hloop _ _
    · exact Fine.weaken (Sound.dsmBuild hF dsm hd) (fun _ h => h) fun _ h => h.dropBest
    · exact absurd hkk hk
  have h0 : Sound cfg I false false (initState cfg env o) := by
    refine ⟨ho, ?_, ?_, fun _ => rfl, (fun h => by cases h), (fun h => by cases h)⟩ <;>
      (unfold initState tableSize; dsimp only; cases cfg.reEval <;> simp)
  exact ⟨fun a h => ((hrun _ h0).1 a h).ctl, fun e h => (hrun _ h0).2 e h⟩

end
end QuOCS

/-
Lemmas for C95: calls record the answers of the user's function; a new controls object with earlier results as guess.
-/
import Verif.Spec.Continue
import Verif.Props.SuperIterationStart
import Verif.Props.Best

set_option linter.unusedSectionVars false
set_option linter.unusedVariables false

namespace QuOCS

section
variable {K V C O F : Type} [LE K] [DecidableLE K]
variable [Add F] [Sub F] [Mul F] [Div F] [Neg F] [Zero F] [One F] [NatCast F] [LE F] [LT F] [DecidableLE F]
  [DecidableLT F]
variable {cfg : AlgCfg K F} {env : Env V C F} {ops : CtlOps O V C} {d : Bool}

theorem Answered.snoc {log : List (Call V C F)} (h : Answered env log) {c : Call V C F} (hc : c.ans = env.getFoM log c.ctl) :
    Answered env (log ++ [c]) := by
  intro before c' after he
  rcases List.eq_nil_or_concat after with rfl | ⟨a, x, rfl⟩
  · rw [show before ++ [c'] = before ++ [c'] from rfl] at he
    obtain ⟨rfl, h2⟩ := List.append_inj' he rfl
    cases h2
    exact hc
  · rw [List.concat_eq_append, ← List.cons_append, ← List.append_assoc] at he
    obtain ⟨h1, _⟩ := List.append_inj' he rfl
    exact h before c' a h1

theorem Answered.routine {s : AlgState V C O F} (h : Answered env s.log) (x : V) (it : ℕ) :
    Answered env (routineCall cfg env ops x it s).2.log := by
  have hs := routineCall_spec (cfg := cfg) (env := env) (ops := ops) x it s
  generalize (routineCall cfg env ops x it s).1 = r, (routineCall cfg env ops x it s).2 = s' at hs ⊢
  cases hs with
  | stopped s1 q hr => rw [q.log]; exact h
  | sigint s1 r e q hk => show Answered env s1.log; rw [q.log]; exact h
  | noControls s1 e q hr hi hg => show Answered env s1.log; rw [q.log]; exact h
  | window s1 o c s2 q hr hi hg q2 hr2 ha => rw [q2.log.trans q.log]; exact h
  | windowSigint s1 o c s2 r e q hr hi hg q2 hk => show Answered env s2.log; rw [q2.log.trans q.log]; exact h
  | measured s1 o c s2 q hr hi hg' ht hg q2 hr2 =>
    have hlog : s2.log = s.log := q2.log.trans q.log
    rcases ha : env.getFoM s2.log c with e | a
    · rw [measure_raised x c s2 e ha]
      exact (hlog ▸ h : Answered env s2.log).snoc ha.symm
    · rcases hf : a.fom with _ | f
      · rw [measure_noValue x c s2 a ha hf]
        exact (hlog ▸ h : Answered env s2.log).snoc ha.symm
      · obtain ⟨fl, il, sc', hm⟩ := measure_answered (cfg := cfg) x c s2 a f ha hf
        rw [hm]
        exact (hlog ▸ h : Answered env s2.log).snoc ha.symm

theorem Answered.act {b : Bool} {s s' : AlgState V C O F} (h : Answered env s.log) (a : Act cfg env ops d b s s') :
    Answered env s'.log := by
  cases a with
  | quiet q => rw [q.log]; exact h
  | fresh x it s s0 r s' h0 h1 h2 hr =>
    have := Answered.routine (cfg := cfg) (ops := ops) (s := s0) (env := env) (by rw [h0]; exact h) x it
    rw [hr] at this
    exact this
  | again x it s hh => exact h.routine x it
  | _ => exact h

/-- Every call in the log of a run has the answer of the user's function. -/
theorem execute_answered (dsm : Dsm K V F) (o : O) : Answered env (execute cfg env ops dsm o).2.log :=
  (execute_inv (cfg := cfg) (env := env) (ops := ops) (d := true) (fun s => Answered env s.log) (fun s => Answered env s.log)
    dsm o (.inl rfl) (by intro b c a h; simp [initState] at h) (fun s s' a h => h.act a) (fun s s' a h => h.act a)
    (fun s h => h)).1

end

section
variable {K : Type} [Field K] [LinearOrder K] [IsStrictOrderedRing K]
variable {M : MathFns K} {pd : List (PulseDict K)} {td : List (TimeDict K)} {rd : List (ParamDict K)}

/-- A new pulse object at zero coefficients delivers a guess that is within the limits. -/
theorem fresh_pulse_within {d : PulseDict K} {p q : Pulse K} {i : ℤ} {u g : List K} {T : K} (hp : mkPulse M i d = .ok p)
    (hsh : d.shapingOptions = none) (hz : ZeroUpdate M d) (hsc : UnitScaling d) (hg : d.guess = .array g)
    (hgl : g.length = d.binsNumber) (hb : 1 ≤ d.binsNumber)
    (hin : ∀ y ∈ g, min d.lowerLimit d.upperLimit ≤ y ∧ y ≤ max d.lowerLimit d.upperLimit)
    (hgrid : q.timeGrid.length = d.binsNumber)
    (h : p.getPulse M (zeros d.declared) T = .ok (q, u)) : u = g := by
  have hr : PulseReach M d p := .create hp
  obtain ⟨hlo, hup, hsk, hshape, hbins, hscal, hgu, _, hbas⟩ := hr.fields
  have hbase : p.basePulse = zeros d.binsNumber := by
    unfold mkPulse at hp
    dsimp only at hp
    split at hp
    · cases hp
    · cases hp; rfl
  unfold Pulse.getPulse at h
  obtain ⟨u', hv, h⟩ := py_bind_ok.1 h
  rw [py_pure_ok] at h
  obtain ⟨rfl, rfl⟩ := Prod.mk.inj h
  unfold Pulse.build at hv
  have hshape' : (p.setInputs (zeros d.declared) T).shaping =
      [.addInitialGuess, .addBasePulse, .addNewUpdatePulse, .scalePulse, .limitPulse] := by
    show p.shaping = _
    rw [hshape, hsh]; rfl
  rw [hshape'] at hv
  simp only [List.foldlM_cons, List.foldlM_nil, bind_pure] at hv
  obtain ⟨u1, hu1, hv1⟩ := py_bind_ok.1 hv
  obtain ⟨u2, hu2, hv2⟩ := py_bind_ok.1 hv1
  obtain ⟨u3, hu3, hv3⟩ := py_bind_ok.1 hv2
  obtain ⟨u4, hu4, hv4⟩ := py_bind_ok.1 hv3
  clear hv hv1 hv2 hv3
  have hzb : (zeros (p.setInputs (zeros d.declared) T).binsNumber : List K) = zeros d.binsNumber := by
    show zeros p.binsNumber = _
    rw [hbins]
  have hlim : (p.setInputs (zeros d.declared) T).limited g = .ok g := by
    have hlim' : p.limited g = .ok g := by
      rcases hs : d.shrink
      · unfold Pulse.limited
        rw [hsk.trans hs, hlo, hup]
        simp only [Bool.false_eq_true, if_false, Except.ok.injEq]
        conv_rhs => rw [← List.map_id g]
        exact List.map_congr_left fun y hy => cutSample_id (hin y hy).1 (hin y hy).2
      · obtain ⟨v, hv⟩ := C15_shrink_total (p := p) g (by intro h; rw [h] at hgl; simp at hgl; omega)
        rw [hv, (C15_shrink_preserves_shape hr hs hv).2.2 hin]
    exact hlim'
  have e1 : u1 = g := by
    simp only [Pulse.applyStep, Pulse.addInitialGuess, Pulse.initialGuess] at hu1
    rw [show (p.setInputs (zeros d.declared) T).guess = d.guess from hgu, hzb, hg] at hu1
    simp only [hlim, bind, Except.bind] at hu1
    rw [bop_zeros (.inl hgl)] at hu1
    cases hu1; rfl
  subst e1
  have e2 : u2 = u1 := by
    simp only [Pulse.applyStep] at hu2
    rw [show (p.setInputs (zeros d.declared) T).basePulse = _ from hbase, bop_zeros (.inl hgl)] at hu2
    cases hu2; rfl
  subst e2
  have e3 : u3 = u2 := by
    obtain ⟨q, hq⟩ := hz p hr T
    have hshaped : (p.setInputs (zeros d.declared) T).shaped M = .ok (zeros d.binsNumber) := by
      unfold Pulse.getBarePulse at hq
      obtain ⟨w, h1, hq⟩ := py_bind_ok.1 hq
      rw [py_pure_ok] at hq
      cases hq
      exact h1
    simp only [Pulse.applyStep, hshaped, bind, Except.bind] at hu3
    rw [bop_zeros (.inl hgl)] at hu3
    cases hu3; rfl
  subst e3
  have e4 : u4 = u3 := by
    simp only [Pulse.applyStep, Pulse.scale] at hu4
    rw [show (p.setInputs (zeros d.declared) T).scaling = d.scaling from hscal] at hu4
    have key : bop (· * ·) (List.replicate d.binsNumber 1) u3 = .ok u4 := by
      rcases hsc with h | ⟨f, h, hf⟩
      · rw [h] at hu4
        exact hu4
      · rw [h] at hu4
        simp only [hf] at hu4
        rw [show ((p.setInputs (zeros d.declared) T).timeGrid).length = d.binsNumber from hgrid] at hu4
        exact hu4
    rw [bop_eq (by simp [hgl])] at key
    cases key
    rw [← hgl]
    clear * -
    induction u3 with
    | nil => rfl
    | cons a l ih => simp [List.replicate_succ, ih]
  subst e4
  simp only [Pulse.applyStep, hlim, Except.ok.injEq] at hv4
  exact hv4.symm

theorem pulsesFrom_get {out : ControlsOut K} {i : ℕ} {d : PulseDict K} {u : List K} (hd : pd[i]? = some d)
    (hu : out.pulses[i]? = some u) : (pulsesFrom pd out)[i]? = some (d.startingFrom u) := by
  simp [pulsesFrom, List.getElem?_zipWith, hd, hu]

theorem paramsFrom_get {out : ControlsOut K} {i : ℕ} {d : ParamDict K} {v : K} (hd : rd[i]? = some d)
    (hu : out.parameters[i]? = some v) : (paramsFrom rd out)[i]? = some (d.startingFrom v) := by
  simp [paramsFrom, List.getElem?_zipWith, hd, hu]

/-- Each entry of the new list of pulses. -/
theorem pulsesFrom_mem {out : ControlsOut K} {d' : PulseDict K} (h : d' ∈ pulsesFrom pd out) :
    ∃ d ∈ pd, ∃ u ∈ out.pulses, d' = d.startingFrom u ∧ ∃ i : ℕ, pd[i]? = some d ∧ out.pulses[i]? = some u := by
  obtain ⟨i, hi⟩ := List.getElem?_of_mem h
  unfold pulsesFrom at hi
  rw [List.getElem?_zipWith] at hi
  rcases h1 : pd[i]? with _ | d
  · simp [h1] at hi
  · rcases h2 : out.pulses[i]? with _ | u
    · simp [h1, h2] at hi
    · simp only [h1, h2, Option.some.injEq] at hi
      exact ⟨d, List.mem_of_getElem? h1, u, List.mem_of_getElem? h2, hi.symm, i, h1, h2⟩

end
end QuOCS

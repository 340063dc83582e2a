/-
C95 for whole optimizations: a second dictionary that starts from the best controls of a first optimization.
-/
import Verif.Props.Program
import Verif.Props.FirstProgram
import Verif.Spec.ProgramContinue

set_option linter.unusedSectionVars false
set_option linter.unusedVariables false

namespace QuOCS

section
variable {K F : Type} [Field K] [LinearOrder K] [IsStrictOrderedRing K] [FloorRing K]
variable [Add F] [Sub F] [Mul F] [Div F] [Neg F] [Zero F] [One F] [NatCast F] [LE F] [LT F] [DecidableLE F]
  [DecidableLT F]
variable {M : MathFns K} {td : List (TimeDict K)} {out : ControlsOut K}

/-- The lists contain already the samples and values of the earlier controls. -/
theorem first_call_of_same {pd pd1 : List (PulseDict K)} {rd rd1 : List (ParamDict K)} (hpd : pd1 = pulsesFrom pd out)
    (hrd : rd1 = paramsFrom rd out) (hc : Continuable pd td rd) (ha : Admissible pd td rd out)
    {sqrt : K → K} {rnd : ℕ → ℕ → List K} {draws : ℕ → Vec K (searchDim pd1 rd1)}
    {cfg : AlgCfg K F} {env : Env (Vec K (searchDim pd1 rd1)) (ControlsOut K) F}
    (hr : ∀ k, EnoughRandom pd1 (rnd k)) (hk : cfg.kind = .dcrab)
    {dsm : Dsm K (Vec K (searchDim pd1 rd1)) F}
    (hd : (∃ c fuel, dsm = nelderMead c fuel) ∨ ∃ lib p fuel, dsm = cmaes lib p fuel) {o : Controls K}
    (ho : mkControls M pd1 td rd1 = .ok o)
    {first : Call (Vec K (searchDim pd1 rd1)) (ControlsOut K) F} {rest}
    (h : (execute cfg env (systemOps .dcrab M sqrt rnd draws) dsm o).2.log = first :: rest) : first.ctl = out := by
  subst hpd hrd
  exact C95_first_call_is_earlier_controls_partial hc ha hr hk hd ho h

end

/-- a time is determined by its entry -/
theorem time_unique {p : PDict} {x y : TimeDict ℚ} (h1 : UsesTime p x) (h2 : UsesTime p y) : x = y := by
  rcases x with ⟨a1, a2, a3, a4, a5, a6⟩
  rcases y with ⟨b1, b2, b3, b4, b5, b6⟩
  have e1 := h1.name.symm.trans h2.name
  have e2 := IsNumber.unique h1.value h2.value
  have e3 := h1.optimized.trans h2.optimized.symm
  have e4 := IsNumber.unique h1.lower h2.lower
  have e5 := IsNumber.unique h1.upper h2.upper
  have e6 := IsNumber.unique h1.variation h2.variation
  simp only at e1 e2 e3 e4 e5 e6
  have e1 : a1 = b1 := by simpa using e1
  have e3 : a3 = b3 := by cases a3 <;> cases b3 <;> simp_all
  subst e1 e2 e3 e4 e5 e6
  rfl

theorem times_unique {l : List PDict} {a b : List (TimeDict ℚ)} (h1 : List.Forall₂ UsesTime l a) (h2 : List.Forall₂ UsesTime l b) :
    a = b := by
  induction h1 generalizing b with
  | nil => cases h2; rfl
  | cons h _ ih => cases h2 with | cons h' h2 => rw [time_unique h h', ih h2]

/-- an array in the dictionary is used -/
theorem array_used {lib : PyLib} {A : Type} {dflt : A → Prop} {arr : List ℚ → A} {ev : String → Py A}
    {file : PVal → PVal → PVal → Py A} {g : Option PVal} {a : A} (h : UsesFn lib dflt arr ev file g a) {s : PDict} {v : PVal} {u : List ℚ}
    (hg : g = some (.dict s)) (ht : entry s ["function_type"] = some (.str "list_function")) (hl : entry s ["list_function"] = some v)
    (hq : IsArray lib v u) : a = arr u := by
  rcases h with ⟨h, _⟩ | ⟨s', t, h, ht', h1⟩
  · rcases h with h | h <;> rw [h] at hg <;> cases hg
  · rw [hg] at h
    injection h with h; injection h with h; subst h
    rw [ht] at ht'
    injection ht' with ht'; subst ht'
    rcases h1 with ⟨h1, _⟩ | ⟨_, v'', qs', hl', hq', rfl⟩ | ⟨h1, _⟩ | ⟨h1, _⟩
    · simp at h1
    · rw [hl] at hl'
      injection hl' with hl'; subst hl'
      rw [array_unique hq hq']
    · simp at h1
    · simp at h1

section
variable {w w' : Surroundings} {d d' : PDict} {r r' : Outcome}

theorem shaping_none {lib : PyLib} {p : PDict} {x : PulseDict ℚ} (h : UsesPulse lib p x) (hn : NoEntry (entry p ["shaping_options"])) :
    x.shapingOptions = none := by
  rcases h.shaping with ⟨_, h⟩ | ⟨names, h, _⟩
  · exact h
  · rw [h] at hn
    rcases hn with hn | hn <;> cases hn

/-- the search method is one of the library -/
theorem Parts.starts {s : SearchSettings} {cfg : AlgCfg ℚ ℚ} {dsm : Dsm ℚ (Vec ℚ s.vars) ℚ} {o : Controls ℚ}
    (h : Parts w d r s cfg dsm o) : (∃ c fuel, dsm = nelderMead c fuel) ∨ ∃ lib p fuel, dsm = cmaes lib p fuel := by
  have hd := h.hdsm
  unfold SearchSettings.dsm at hd
  split at hd
  · cases hd; exact .inl ⟨_, _, rfl⟩
  · rw [Option.map_eq_some_iff] at hd
    obtain ⟨p, _, hd⟩ := hd
    exact .inr ⟨_, _, _, hd.symm⟩
  · cases hd

/-- **C95, partial.** Two dCRAB optimizations with plain controls; the dictionary of the second starts from the best controls of the
first. Whatever happened in the first (stops, exceptions, re-evaluation, drift compensation), the first call of the second is made
with exactly these controls: all samples, time grids and parameters. The surroundings (user's function, random numbers, clock), the
settings of the algorithm and the bases of the second optimization may be different.
Missing: a scaling function in the second dictionary (the samples are then scaled once more), shaping options, optimized times, pulses with
a single bin, bases written by the user. -/
theorem C95_continued_optimization_partial (h : optimize w d = some (.ok r)) (hk : IsDcrab d) (hp : PlainControls w.lib d)
    (hr : w.Draws d) {best : ControlsOut ℚ} (hb : r.best = .ok best)
    (h' : optimize w' d' = some (.ok r')) (hk' : IsDcrab d') (hp' : PlainControls w'.lib d') (hr' : w'.Draws d')
    (hc : ContinuesFrom w'.lib d best d') {c : Seen} {rest : List Seen} (hf : r'.calls = c :: rest) : c.1 = best := by
  obtain ⟨s, cfg, dsm, o, h⟩ := optimize_parts h
  obtain ⟨s', cfg', dsm', o', h'⟩ := optimize_parts h'
  obtain ⟨hu, hfix⟩ := usable_controls h.usesControls hp
  obtain ⟨hu', hfix'⟩ := usable_controls h'.usesControls hp'
  have hR := fun k => enough_random h.usesControls hp hr k
  have hR' := fun k => enough_random h'.usesControls hp' hr' k
  have hK := h.dcrab hk
  have hK' := h'.dcrab hk'
  have hA : Admissible s.controls.pulses s.controls.times s.controls.params best := by
    have hb' := h.best
    unfold theRun at hb'
    rw [hK, hb] at hb'
    exact system_best_admissible hu hR h.hcontrols hb'.symm
  have hT : s'.controls.times = s.controls.times := by
    have h1 := h'.usesControls.times
    rw [hc.times] at h1
    exact times_unique h1 h.usesControls.times
  have lP := h.usesControls.pulses.length_eq
  have lP' := h'.usesControls.pulses.length_eq
  have lQ := h.usesControls.params.length_eq
  have lQ' := h'.usesControls.params.length_eq
  -- what is known about the pulse `i` of both lists
  have hpulse : ∀ (i : ℕ) (x' : PulseDict ℚ) (u : List ℚ), s'.controls.pulses[i]? = some x' → best.pulses[i]? = some u → ∃ p p' x, s.controls.pulses[i]? = some x ∧
      p ∈ itemsAt d "pulses" ∧ UsesPulse w.lib p x ∧ UsesPulse w'.lib p' x' ∧ ContinuedPulse w'.lib p u p' := by
    intro i x' u hx' hu
    obtain ⟨p', hp'i, hU'⟩ := forall2_back h'.usesControls.pulses hx'
    have hi : i < (itemsAt d "pulses").length := by
      rw [← hc.pulseNumber]; exact (List.getElem?_eq_some_iff.1 hp'i).1
    have hpi := List.getElem?_eq_getElem hi
    obtain ⟨x, hx, hU⟩ := forall2_at h.usesControls.pulses hpi
    exact ⟨_, p', x, hx, List.getElem_mem hi, hU, hU', hc.pulses i _ p' u hpi hp'i hu⟩
  have hparam : ∀ (j : ℕ) (x' : ParamDict ℚ) (v : ℚ), s'.controls.params[j]? = some x' → best.parameters[j]? = some v → ∃ p p' x, s.controls.params[j]? = some x ∧
      UsesParam p x ∧ UsesParam p' x' ∧ ContinuedParam p v p' := by
    intro j x' v hx' hv
    obtain ⟨p', hp'j, hU'⟩ := forall2_back h'.usesControls.params hx'
    have hj : j < (itemsAt d "parameters").length := by
      rw [← hc.paramNumber]; exact (List.getElem?_eq_some_iff.1 hp'j).1
    have hpj := List.getElem?_eq_getElem hj
    obtain ⟨x, hx, hU⟩ := forall2_at h.usesControls.params hpj
    exact ⟨_, p', x, hx, hU, hU', hc.params j _ p' v hpj hp'j hv⟩
  have nP : best.pulses.length = s'.controls.pulses.length := by rw [hA.number.1, ← lP, ← lP', hc.pulseNumber]
  have nG : best.timegrids.length = s'.controls.pulses.length := by rw [hA.number.2.1, ← lP, ← lP', hc.pulseNumber]
  have nQ : best.parameters.length = s'.controls.params.length := by rw [hA.number.2.2, ← lQ, ← lQ', hc.paramNumber]
  have hpulse' : ∀ x' ∈ s'.controls.pulses, ∃ p p' u x, p ∈ itemsAt d "pulses" ∧ UsesPulse w.lib p x ∧ UsesPulse w'.lib p' x' ∧
      ContinuedPulse w'.lib p u p' := by
    intro x' hx'
    obtain ⟨i, hi⟩ := List.mem_iff_getElem?.1 hx'
    have hl : i < best.pulses.length := by rw [nP]; exact (List.getElem?_eq_some_iff.1 hi).1
    obtain ⟨p, p', x, _, h2, h3, h4, h5⟩ := hpulse i x' _ hi (List.getElem?_eq_getElem hl)
    exact ⟨p, p', _, x, h2, h3, h4, h5⟩
  have hA' : Admissible s'.controls.pulses s'.controls.times s'.controls.params best := by
    refine ⟨⟨nP, nG, nQ⟩, fun i x' u t hx' hu' ht => ?_, fun j x' v hx' hv _ => ?_⟩
    · obtain ⟨p, p', x, hx, hpm, hU, hU', hC⟩ := hpulse i x' u hx' hu'
      have hP := hA.pulses i x u t hx hu' ht
      obtain ⟨b, _, hb1, hb2⟩ := hC.bins
      have e1 : x'.binsNumber = x.binsNumber := (count_unique hU'.bins hb2).trans (count_unique hU.bins hb1).symm
      have e2 : x'.lowerLimit = x.lowerLimit := IsNumber.unique hU'.lower (hC.lower ▸ hU.lower)
      have e3 : x'.upperLimit = x.upperLimit := IsNumber.unique hU'.upper (hC.upper ▸ hU.upper)
      have e4 : x'.timeName = x.timeName := by
        have := hU'.time.symm.trans (hC.time.trans hU.time)
        simpa using this
      refine ⟨fun _ => ?_, fun h2 _ => ?_, ?_⟩
      · rw [e2, e3]
        exact hP.limits (.inl (shaping_none hU hC.shaping.1))
      · rw [e1] at h2 ⊢
        refine hP.samples h2 fun f hf => ?_
        obtain ⟨b, _, _, _, g, hg⟩ := (hp.pulses p hpm).bins
        rcases (samples_used hU.scaling hg).1 with e | ⟨qs, e, _⟩ <;> rw [e] at hf <;> cases hf
      · rw [hT, e1, e4]
        exact hP.grid
    · obtain ⟨p, p', x, hx, hU, hU', hC⟩ := hparam j x' v hx' hv
      have e2 : x'.lower = x.lower := IsNumber.unique hU'.lower (hC.lower ▸ hU.lower)
      have e3 : x'.upper = x.upper := IsNumber.unique hU'.upper (hC.upper ▸ hU.upper)
      rw [e2, e3]
      exact hA.parameters j x v hx hv (hC.ordered _ _ hU.lower hU.upper)
  have hC' : Continuable s'.controls.pulses s'.controls.times s'.controls.params := by
    refine ⟨hu', fun x' hx' => ?_, fun x' hx' => ?_, fun x' hx' => ?_, fun x' hx' => ?_, hfix', fun x' hx' => ?_⟩
    · obtain ⟨p, p', u, x, _, hU, hU', hC⟩ := hpulse' x' hx'
      exact shaping_none hU' hC.shaping.2
    · obtain ⟨p, p', u, x, _, hU, hU', hC⟩ := hpulse' x' hx'
      obtain ⟨f, hf, hf1⟩ := noEntry_guess hU'.scaling hC.scaling
      exact .inr ⟨f, hf, fun t => by rw [hf1, List.map_const']⟩
    · obtain ⟨p, p', u, x, _, hU, hU', hC⟩ := hpulse' x' hx'
      obtain ⟨b, h2, hb1, hb2⟩ := hC.bins
      rw [count_unique hU'.bins hb2]
      exact h2
    · obtain ⟨p, p', u, x, _, hU, hU', hC⟩ := hpulse' x' hx'
      exact library_basis hU'
    · obtain ⟨j, hj⟩ := List.mem_iff_getElem?.1 hx'
      have hl : j < best.parameters.length := by rw [nQ]; exact (List.getElem?_eq_some_iff.1 hj).1
      obtain ⟨p, p', x, hx, hU, hU', hC⟩ := hparam j x' _ hj (List.getElem?_eq_getElem hl)
      have e2 : x'.lower = x.lower := IsNumber.unique hU'.lower (hC.lower ▸ hU.lower)
      have e3 : x'.upper = x.upper := IsNumber.unique hU'.upper (hC.upper ▸ hU.upper)
      rw [e2, e3]
      exact hC.ordered _ _ hU.lower hU.upper
  have hpd : s'.controls.pulses = pulsesFrom s'.controls.pulses best := by
    unfold pulsesFrom
    refine List.ext_getElem? fun i => ?_
    rw [List.getElem?_zipWith]
    rcases hx : s'.controls.pulses[i]? with _ | x'
    · rfl
    · have hl : i < best.pulses.length := by rw [nP]; exact (List.getElem?_eq_some_iff.1 hx).1
      rw [List.getElem?_eq_getElem hl]
      obtain ⟨p, p', x, _, _, hU, hU', hC⟩ := hpulse i x' _ hx (List.getElem?_eq_getElem hl)
      obtain ⟨g, v, h1, h2, h3, h4⟩ := hC.guess
      have := array_used hU'.guess h1 h2 h3 h4
      show some x' = some ({ x' with guess := .array best.pulses[i] } : PulseDict ℚ)
      rw [← this]
  have hrd : s'.controls.params = paramsFrom s'.controls.params best := by
    unfold paramsFrom
    refine List.ext_getElem? fun j => ?_
    rw [List.getElem?_zipWith]
    rcases hx : s'.controls.params[j]? with _ | x'
    · rfl
    · have hl : j < best.parameters.length := by rw [nQ]; exact (List.getElem?_eq_some_iff.1 hx).1
      rw [List.getElem?_eq_getElem hl]
      obtain ⟨p, p', x, _, hU, hU', hC⟩ := hparam j x' _ hx (List.getElem?_eq_getElem hl)
      have := IsNumber.unique hU'.value hC.value
      show some x' = some ({ x' with initialValue := best.parameters[j] } : ParamDict ℚ)
      rw [← this]
  have hcalls := h'.calls
  unfold theRun at hcalls
  rw [hK', hf] at hcalls
  obtain ⟨first, rest', hlog, hfirst, _⟩ := List.map_eq_cons_iff.1 hcalls.symm
  rw [← hfirst]
  exact first_call_of_same hpd hrd hC' hA' hR' hK' h'.starts h'.hcontrols hlog

/-- **C95, partial.** Continuing never loses what was reached: if in addition the user's function has no memory, both dictionaries ask for
the same direction and for single measurements, the base pulses of the first are not overwritten, the first optimization was completed, and
the second made at least one call (however it ended), then the figure of merit of the second is not worse than that of the first.
Missing: as above. -/
theorem C95_optimization_never_worse_partial (h : optimize w d = some (.ok r)) (hk : IsDcrab d) (hp : PlainControls w.lib d)
    (hst : StandardDictionary d) (hs : SingleMeasurements d) (hr : w.Draws d) (he : r.ended = .ok ())
    {best : ControlsOut ℚ} (hb : r.best = .ok best)
    (h' : optimize w' d' = some (.ok r')) (hk' : IsDcrab d') (hp' : PlainControls w'.lib d') (hs' : SingleMeasurements d') (hr' : w'.Draws d')
    (hc : ContinuesFrom w'.lib d best d') (hdir : Maximizes d' ↔ Maximizes d) {user : ControlsOut ℚ → Py (Answer ℚ)}
    (hm : ∀ l c, w.user l c = user c) (hm' : ∀ l c, w'.user l c = user c) (hcall : r'.calls ≠ []) : ¬ BetterFor d r.fom r'.fom := by
  have hbet : ∀ x y, BetterFor d x y ↔ BetterFor d' x y := fun x y => by unfold BetterFor; rw [hdir]
  rw [hbet]
  rcases C96_best_controls h hk hp hst hs hr he with e | ⟨c, hcm, hv, hbc⟩
  · obtain ⟨s', cfg', dsm', o', P⟩ := optimize_parts h'
    obtain ⟨h1, h2, h3⟩ := P.single hs'
    obtain ⟨_, q, _⟩ := C04_best_is_optimum_partial cfg' (w'.env s'.vars) (systemOps cfg'.kind w'.lib.M w'.sqrt w'.rnd w'.draws)
      (.inr h1) (fun h => h) dsm' ((P.library h3.le).noDrift h2) o'
    rw [P.better] at q
    have e1 := P.fom
    unfold theRun at e1
    rw [← e1, P.kind.2] at q
    have : dirMul cfg'.maximize (10 ^ 10 : ℚ) = r.fom := by
      have hmx := P.maximize
      rcases e with ⟨e1, e2⟩ | ⟨e1, e2⟩
      · rw [hmx.2 (hdir.2 e1), e2]; norm_num [dirMul]
      · have : cfg'.maximize = false := by
          rw [← Bool.not_eq_true, hmx, hdir]; exact e1
        rw [this, e2]; norm_num [dirMul]
    rw [this] at q
    exact q
  · rcases hl : r'.calls with _ | ⟨f, rest⟩
    · exact absurd hl hcall
    · have hfirst := C95_continued_optimization_partial h hk hp hr hb h' hk' hp' hr' hc hl
      rw [hb] at hbc
      have hbc : best = c.1 := Except.ok.inj hbc
      obtain ⟨l1, l2, hl'⟩ := List.append_of_mem hcm
      have a1 := C96_calls h l1 l2 c hl'
      have a2 := C96_calls h' [] rest f hl
      rw [hm, ← hbc] at a1
      rw [hm', hfirst] at a2
      have : f.value = some r.fom := by
        rw [← hv]
        unfold Seen.value
        rw [a1, a2]
      exact (C96_best h' hs').1 f (by rw [hl]; exact List.mem_cons_self) _ this

end

/-! ### A concrete optimization and its continuation -/

/-- the optimization `exProgram` with an initial guess -/
def exSecond (u : List ℚ) : PDict :=
  exSettings ([("max_eval_total", .num 3)] ++ exAlg)
    [exPulse (exBasis "Sinc" []) [("bins_number", .num 3), ("lower_limit", .num (-1)),
      ("initial_guess", .dict (mkDict [("function_type", .str "list_function"), ("list_function", .list (numList u))]))]] [] [exTime]

/-- the best controls -/
def bestOf (r : Option (Py Outcome)) : Option (List (List ℚ) × List (List ℚ) × List ℚ) :=
  match r with
  | some (.ok r) => match r.best with
    | .ok b => some (b.pulses, b.timegrids, b.parameters)
    | _ => none
  | _ => none

/-- at most three calls -/
def exFirst : PDict :=
  exSettings ([("max_eval_total", .num 3)] ++ exAlg)
    [exPulse (exBasis "Sinc" []) [("bins_number", .num 3), ("lower_limit", .num (-1))]] [] [exTime]

/-- The first optimization ends with the value 300/49, the second starts there and reaches 12. -/
theorem exSecond_continues : shownOf (optimize (exAround 0) exFirst) = some (3, true, [some 0, some (75 / 49), some (300 / 49)], 300 / 49, true) ∧
    bestOf (optimize (exAround 0) exFirst) = some ([[10 / 7, 10 / 7, 10 / 7]], [[0, 3 / 2, 3]], []) ∧
    firstOf (optimize (exAround 0) (exSecond [10 / 7, 10 / 7, 10 / 7])) = some ([[0, 3 / 2, 3]], [[10 / 7, 10 / 7, 10 / 7]], []) ∧
    shownOf (optimize (exAround 0) (exSecond [10 / 7, 10 / 7, 10 / 7])) = some (3, true, [some (300 / 49), some 12, some 12], 12, true) := by
  refine ⟨?_, ?_, ?_, ?_⟩ <;> decide +kernel

/-- The hypotheses of the theorems above are met by these optimizations. -/
theorem exSecond_meets : IsDcrab exFirst ∧ PlainControls exLib exFirst ∧ StandardDictionary exFirst ∧ SingleMeasurements exFirst ∧
    (exAround 0).Draws exFirst ∧ IsDcrab (exSecond [10 / 7, 10 / 7, 10 / 7]) ∧ PlainControls exLib (exSecond [10 / 7, 10 / 7, 10 / 7]) ∧
    SingleMeasurements (exSecond [10 / 7, 10 / 7, 10 / 7]) ∧ (exAround 0).Draws (exSecond [10 / 7, 10 / 7, 10 / 7]) ∧
    ContinuesFrom exLib exFirst ⟨[[10 / 7, 10 / 7, 10 / 7]], [[0, 3 / 2, 3]], []⟩ (exSecond [10 / 7, 10 / 7, 10 / 7]) ∧
    (Maximizes (exSecond [10 / 7, 10 / 7, 10 / 7]) ↔ Maximizes exFirst) ∧
    ∀ l c, (exAround 0).user l c = .ok ⟨some ((c.pulses.map fun u => (u.map (· ^ 2)).sum).sum), none, none⟩ := by
  obtain ⟨h1, h2, _⟩ := exProgram_plain
  generalize hu : ([10 / 7, 10 / 7, 10 / 7] : List ℚ) = u
  have hul : u.length = 3 := by rw [← hu]; rfl
  obtain ⟨p, hp, hp'⟩ : ∃ p, itemsAt (exSecond u) "pulses" = [p] ∧ p = mkDict [("pulse_name", .str "p"), ("upper_limit", .num 2),
      ("time_name", .str "t"), ("basis", exBasis "Sinc" []), ("bins_number", .num 3), ("lower_limit", .num (-1)),
      ("initial_guess", .dict (mkDict [("function_type", .str "list_function"), ("list_function", .list (numList u))]))] := ⟨_, rfl, rfl⟩
  obtain ⟨q, hq, hq'⟩ : ∃ p, itemsAt exFirst "pulses" = [p] ∧ p = mkDict [("pulse_name", .str "p"), ("upper_limit", .num 2),
      ("time_name", .str "t"), ("basis", exBasis "Sinc" []), ("bins_number", .num 3), ("lower_limit", .num (-1))] := ⟨_, rfl, rfl⟩
  have ht : itemsAt (exSecond u) "times" = [mkDict [("time_name", .str "t"), ("initial_value", .num 3)]] := rfl
  have hl : ∀ t ∈ itemsAt (exSecond u) "times", IsFalse (setting t ["is_optimization"] (.bool false)) := h1.times
  refine ⟨⟨.inl rfl, rfl⟩, ⟨h1.something, fun x hx => ?_, h1.times⟩, ⟨h2.pulses, h2.limits⟩, ⟨rfl, rfl⟩, (exAround_usable 0).2.1, ⟨.inl rfl, rfl⟩,
    ⟨.inl (by rw [hp]; simp), fun x h => ?_, hl⟩, ⟨rfl, rfl⟩, fun k i x n hx hn => ?_, ⟨rfl, rfl, rfl, ?_, ?_⟩, Iff.rfl, fun l c => ?_⟩
  · obtain ⟨a, b, c⟩ := h1.pulses x hx
    exact ⟨a, b, c⟩
  · rw [hp, List.mem_singleton] at h
    subst h
    have hg : GuessSamples exLib x 3 (fun _ => u) := by
      subst hp'
      exact .inr ⟨_, rfl, .inl ⟨rfl, _, _, rfl, ⟨_, .inl rfl, numList_items _⟩, hul, rfl⟩⟩
    refine ⟨⟨3, by norm_num, by subst hp'; rfl, ⟨_, hg⟩, ⟨_, .inl ⟨by subst hp'; exact .inl rfl, rfl⟩⟩⟩, ⟨1, le_refl _, by subst hp'; rfl⟩, ?_⟩
    rw [ht]
    exact ⟨_, List.mem_singleton.2 rfl, by subst hp'; rfl⟩
  · rcases i with _ | i
    · rw [hp] at hx
      obtain rfl : p = x := Option.some.inj hx
      subst hp'
      have : ((1 : ℕ) : ℚ) = n := PVal_num_inj (a := ((1 : ℕ) : ℚ)) hn
      have : 1 = n := Nat.cast_injective this
      subst this
      exact le_refl _
    · rw [hp] at hx; cases hx
  · intro i x x' v hx hx' hv
    rw [hq] at hx
    rw [hp] at hx'
    rcases i with _ | i
    · obtain rfl : q = x := Option.some.inj hx
      obtain rfl : p = x' := Option.some.inj hx'
      obtain rfl : u = v := Option.some.inj hv
      subst hp' hq'
      exact ⟨⟨3, by norm_num, rfl, rfl⟩, rfl, rfl, rfl, ⟨.inl rfl, .inl rfl⟩, .inl rfl, _, _, rfl, rfl, rfl, _, .inl rfl, numList_items _⟩
    · cases hx
  · intro j x x' v hx
    have : (none : Option PDict) = some x := hx
    cases this
  · show Except.ok _ = _
    simp

end QuOCS

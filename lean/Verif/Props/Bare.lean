/-
C113: the best pulses without guess and scaling.
-/
import Verif.Model.Bare
import Verif.Spec.Bare
import Verif.Props.ZeroUpdate
import Verif.Props.SuperIterationStart
import Verif.Props.ProgramGrape

set_option linter.unusedSectionVars false
set_option linter.unusedVariables false

namespace QuOCS

section
variable {K : Type} [Field K] [LinearOrder K] [IsStrictOrderedRing K]
variable {M : MathFns K} {pd : List (PulseDict K)} {td : List (TimeDict K)} {rd : List (ParamDict K)} {c : Controls K}

theorem bare_zero (hu : Usable pd td rd) (hz : ∀ d ∈ pd, ZeroUpdate M d) (h : Ready M pd td rd c) :
    bestBareControls M c = .ok (pd.map fun d => zeros d.binsNumber) := by
  have hi := CInv.of_reach h.reach
  have hm := C21_start_point h.reach
  have hp : ∀ d p, p ∈ c.pulses → d ∈ pd → PulseReach M d p → ∃ q, (do
      let v ← gather (zeros (pd.map (·.declared)).sum ++ c.params.map (·.value)) p.ctrlList
      let t ← dictGet c.times p.timeName
      p.getBarePulse M v t.getTime : Py (Pulse K × List K)) = .ok (q, zeros d.binsNumber) := by
    intro d p hp hd hr
    obtain ⟨t, ht⟩ := pulse_time hu h h.names hp
    obtain ⟨q, hq⟩ := hz d hd p hr t.getTime
    have hn : p.nParams = d.declared := hr.w_length.2.1
    rw [← hn] at hq
    exact ⟨q, by simp only [gather_mean_pulse hi _ p hp, ht, bind, Except.bind]; exact hq⟩
  obtain ⟨bs, hb⟩ := mapM_exists (l := c.pulses) (f := fun p => (do
      let v ← gather (zeros (pd.map (·.declared)).sum ++ c.params.map (·.value)) p.ctrlList
      let t ← dictGet c.times p.timeName
      p.getBarePulse M v t.getTime : Py (Pulse K × List K))) (fun p hpm => by
    obtain ⟨d, hd, hr⟩ := forall2_right_mem hi.reach hpm
    obtain ⟨q, hq⟩ := hp d p hpm hd hr
    exact ⟨_, hq⟩)
  have hall := mapM_ok.1 hb
  have e : bs.map (·.2) = pd.map fun d => zeros d.binsNumber := by
    have hmem : ∀ p ∈ c.pulses, p ∈ c.pulses := fun _ h => h
    have hdm : ∀ d ∈ pd, d ∈ pd := fun _ h => h
    revert hall hp
    generalize (zeros (pd.map (·.declared)).sum ++ c.params.map (·.value) : List K) = m
    have hreach := hi.reach
    revert hreach hmem hdm
    generalize c.times = ts
    suffices H : ∀ (ps : List (Pulse K)) (ds : List (PulseDict K)) (bs : List (Pulse K × List K)),
        List.Forall₂ (PulseReach M) ds ps → List.Forall₂ (fun p b => (do
          let v ← gather m p.ctrlList
          let t ← dictGet ts p.timeName
          p.getBarePulse M v t.getTime : Py (Pulse K × List K)) = .ok b) ps bs →
        (∀ d p, p ∈ ps → d ∈ ds → PulseReach M d p → ∃ q, (do
          let v ← gather m p.ctrlList
          let t ← dictGet ts p.timeName
          p.getBarePulse M v t.getTime : Py (Pulse K × List K)) = .ok (q, zeros d.binsNumber)) →
        bs.map (·.2) = ds.map fun d => zeros d.binsNumber from
      fun _ _ hreach hp hall => H _ _ _ hreach hall hp
    intro ps ds bs h1 h2 h3
    induction h1 generalizing bs with
    | nil => cases h2; rfl
    | @cons d p ds ps hr _ ih =>
      cases h2 with
      | @cons _ b _ bs hb hbs =>
        obtain ⟨q, hq⟩ := h3 d p (by simp) (by simp) hr
        rw [hb] at hq
        cases hq
        simp only [List.map_cons]
        rw [ih _ hbs fun d' p' hp' hd' => h3 d' p' (by simp [hp']) (by simp [hd'])]
  unfold bestBareControls Controls.getBare
  rw [hm]
  simp only [bind, Except.bind] at hb ⊢
  rw [hb]
  exact congrArg Except.ok e

/-- The delivered pulse is built from the bare pulse: guess, base pulse and bare pulse are added, scaled and limited. -/
theorem pulse_from_bare {d : PulseDict K} {p q q' : Pulse K} {x u b sc g : List K} {T : K} (hr : PulseReach M d p)
    (hbase : p.basePulse.length = p.binsNumber) (hsh : d.shapingOptions = none) (hs : d.shrink = false)
    (hsc : d.scaling = .array sc ∨ ∃ f, d.scaling = .callable f ∧ f q.timeGrid = sc)
    (hg : d.guess = .array g ∨ ∃ f, d.guess = .callable f ∧ f q.timeGrid = g)
    (hscl : sc.length = d.binsNumber) (hgl : g.length = d.binsNumber) (hbl : b.length = d.binsNumber)
    (h : p.getPulse M x T = .ok (q, u)) (hb : p.getBarePulse M x T = .ok (q', b)) :
    u = List.zipWith (fun s y => cutSample (min d.lowerLimit d.upperLimit) (max d.lowerLimit d.upperLimit) (s * y)) sc
      (List.zipWith (· + ·) (List.zipWith (· + ·)
        (g.map (cutSample (min d.lowerLimit d.upperLimit) (max d.lowerLimit d.upperLimit))) p.basePulse) b) := by
  obtain ⟨hlo, hup, hsk, hshape, hbins, hscal, hgu, _, hbas⟩ := hr.fields
  unfold Pulse.getPulse at h
  obtain ⟨u', hv, h⟩ := py_bind_ok.1 h
  rw [py_pure_ok] at h
  obtain ⟨rfl, rfl⟩ := Prod.mk.inj h
  have hshaped : (p.setInputs x T).shaped M = .ok b := by
    unfold Pulse.getBarePulse at hb
    obtain ⟨w, h1, hb⟩ := py_bind_ok.1 hb
    rw [py_pure_ok] at hb
    cases hb
    exact h1
  unfold Pulse.build at hv
  have hshape' : (p.setInputs x T).shaping = [.addInitialGuess, .addBasePulse, .addNewUpdatePulse, .scalePulse, .limitPulse] := by
    show p.shaping = _
    rw [hshape, hsh]; rfl
  rw [hshape'] at hv
  simp only [List.foldlM_cons, List.foldlM_nil, bind_pure] at hv
  obtain ⟨u1, hu1, hv⟩ := py_bind_ok.1 hv
  obtain ⟨u2, hu2, hv⟩ := py_bind_ok.1 hv
  obtain ⟨u3, hu3, hv⟩ := py_bind_ok.1 hv
  obtain ⟨u4, hu4, hv⟩ := py_bind_ok.1 hv
  have hzb : (zeros (p.setInputs x T).binsNumber : List K) = zeros d.binsNumber := by
    show zeros p.binsNumber = _
    rw [hbins]
  have hlim : ∀ l, (p.setInputs x T).limited l =
      .ok (l.map (cutSample (min d.lowerLimit d.upperLimit) (max d.lowerLimit d.upperLimit))) := by
    intro l
    unfold Pulse.limited
    rw [show (p.setInputs x T).shrink = false from hsk.trans hs,
      show (p.setInputs x T).lower = _ from hlo, show (p.setInputs x T).upper = _ from hup]
    rfl
  have e1 : u1 = g.map (cutSample (min d.lowerLimit d.upperLimit) (max d.lowerLimit d.upperLimit)) := by
    simp only [Pulse.applyStep, Pulse.addInitialGuess, Pulse.initialGuess] at hu1
    rw [show (p.setInputs x T).guess = d.guess from hgu, hzb] at hu1
    have : bop (· + ·) (g.map (cutSample (min d.lowerLimit d.upperLimit) (max d.lowerLimit d.upperLimit))) (zeros d.binsNumber)
        = .ok u1 := by
      rcases hg with h | ⟨f, h, hf⟩
      · rw [h] at hu1
        simpa only [hlim, bind, Except.bind] using hu1
      · rw [h] at hu1
        simpa only [hlim, bind, Except.bind, hf] using hu1
    rw [bop_zeros (.inl (by simp [hgl]))] at this
    cases this; rfl
  subst e1
  have e2 : u2 = List.zipWith (· + ·) (g.map (cutSample (min d.lowerLimit d.upperLimit) (max d.lowerLimit d.upperLimit))) p.basePulse := by
    simp only [Pulse.applyStep] at hu2
    rw [show (p.setInputs x T).basePulse = p.basePulse from rfl, bop_eq (by simp [hgl, hbase, hbins])] at hu2
    cases hu2; rfl
  subst e2
  have e3 := hu3
  simp only [Pulse.applyStep, hshaped, bind, Except.bind] at e3
  rw [bop_eq (by simp [hgl, hbase, hbins, hbl])] at e3
  cases e3
  have e4 : u4 = List.zipWith (· * ·) sc (List.zipWith (· + ·) (List.zipWith (· + ·)
      (g.map (cutSample (min d.lowerLimit d.upperLimit) (max d.lowerLimit d.upperLimit))) p.basePulse) b) := by
    simp only [Pulse.applyStep, Pulse.scale] at hu4
    rw [show (p.setInputs x T).scaling = d.scaling from hscal] at hu4
    have hl : sc.length = (List.zipWith (· + ·) (List.zipWith (· + ·)
      (g.map (cutSample (min d.lowerLimit d.upperLimit) (max d.lowerLimit d.upperLimit))) p.basePulse) b).length := by
      simp [hscl, hgl, hbase, hbins, hbl]
    rcases hsc with h | ⟨f, h, hf⟩
    · rw [h] at hu4
      simp only at hu4
      rw [bop_eq hl] at hu4
      cases hu4; rfl
    · rw [h] at hu4
      simp only [hf] at hu4
      rw [bop_eq hl] at hu4
      cases hu4; rfl
  subst e4
  simp only [Pulse.applyStep, hlim, Except.ok.injEq] at hv
  rw [← hv]
  simp [List.map_zipWith]

/-- **C113, partial.** Until the first super-iteration ends (base pulses zero), with fixed times: the pulses that `get_bare_controls_lists` returns for
a search vector, with guess, scaling and limits added, are the pulses delivered to the user's function for this vector.
Missing: this says nothing about `get_best_bare_controls`, for which the property is false (`C113_bare_controls_always_zero`). -/
theorem C113_bare_controls_partial (hu : Usable pd td rd) (hT : FixedTimes td) (h : Ready M pd td rd c)
    (hbase : ∀ p ∈ c.pulses, p.basePulse = zeros p.binsNumber) {x : List K} (hx : x.length = searchDim pd rd)
    {c1 c2 : Controls K} {out : ControlsOut K} {bare : List (List K)}
    (h1 : c.getControls M x = .ok (c1, out)) (h2 : c.getBare M x = .ok (c2, bare)) :
    bare.length = pd.length ∧ ∀ (i : ℕ) (d : PulseDict K) (grid : List K), pd[i]? = some d → d.shapingOptions = none → d.shrink = false →
      out.timegrids[i]? = some grid →
      ∃ b pulse, bare[i]? = some b ∧ b.length = d.binsNumber ∧ out.pulses[i]? = some pulse ∧ FromBare d grid b pulse := by
  have hi := CInv.of_reach h.reach
  have hfix := hi.fixed hT
  obtain ⟨ts, t1, t2, t3, t4, t5, t6, t7⟩ := getControls_parts h1
  rw [setTimes_fixed hfix] at t1
  cases t1
  unfold Controls.getBare at h2
  obtain ⟨bs, hb, h2⟩ := py_bind_ok.1 h2
  rw [py_pure_ok] at h2
  obtain ⟨-, rfl⟩ := Prod.mk.inj h2
  have hall := mapM_ok.1 hb
  refine ⟨by rw [List.length_map, ← hall.length_eq, ← hi.reach.length_eq], fun i d grid hd hsh hs hgrid => ?_⟩
  obtain ⟨p, hp, hr⟩ := forall2_at hi.reach hd
  obtain ⟨⟨q, u⟩, hq, v, t, hv, ht, hget⟩ := forall2_at t3 hp
  obtain ⟨⟨q', b⟩, hq', hbare⟩ := forall2_at hall hp
  obtain ⟨hq1, hq2⟩ := List.getElem?_zip_eq_some.1 hq
  simp only [hv, ht, bind, Except.bind] at hbare
  have hpm := List.mem_of_getElem? hp
  have hvl : v.length = p.nParams := by
    obtain ⟨k1, k2⟩ := hi.pulse_slots hpm
    obtain ⟨v', k3, k4⟩ := gather_exists (a := x) (idx := p.ctrlList) (by rw [hx]; exact k1)
    rw [hv] at k3; cases k3
    exact k4.trans k2
  obtain ⟨b', k1, k2⟩ := shaped_exists hr (hu.pulses d (List.mem_of_getElem? hd)) hvl t.getTime
  rw [bare_of_shaped k1] at hbare
  obtain ⟨rfl, rfl⟩ := Prod.mk.inj (Except.ok.inj hbare)
  refine ⟨b', u, by rw [List.getElem?_map, hq']; rfl, k2, hq2, fun sc g hsc hg hscl hgl => ?_⟩
  have hgr : q.timeGrid = grid := by
    rw [t5, List.getElem?_map, hq1] at hgrid
    simpa using hgrid
  subst hgr
  have hbl : p.basePulse.length = p.binsNumber := by rw [hbase p hpm]; simp [zeros]
  have := pulse_from_bare hr hbl hsh hs hsc hg hscl hgl k2 hget (bare_of_shaped k1)
  have hbins : p.binsNumber = d.binsNumber := hr.fields.2.2.2.2.1
  rw [hbase p hpm, hbins] at this
  have hz := bop_zeros (a := g.map (cutSample (min d.lowerLimit d.upperLimit) (max d.lowerLimit d.upperLimit))) (n := d.binsNumber)
    (.inl (by simp [hgl]))
  rw [bop_eq (by simp [hgl, zeros])] at hz
  rw [Except.ok.inj hz] at this
  rw [this, List.zipWith_map_left]
  rfl

end

section
variable {K F : Type} [Field K] [LinearOrder K] [IsStrictOrderedRing K]
variable [Add F] [Sub F] [Mul F] [Div F] [Neg F] [Zero F] [One F] [NatCast F] [LE F] [LT F] [DecidableLE F]
  [DecidableLT F]
variable {M : MathFns K} {pd : List (PulseDict K)} {td : List (TimeDict K)} {rd : List (ParamDict K)}
variable {sqrt : K → K} {rnd : ℕ → ℕ → List K} {draws : ℕ → Vec K (searchDim pd rd)}
variable {cfg : AlgCfg K F} {env : Env (Vec K (searchDim pd rd)) (ControlsOut K) F}

/-- **C113 is violated** by every dCRAB run, with any search method, any answers of the user's function, stop requests and random numbers:
whatever was found, `get_best_bare_controls` returns pulses that are zero in all bins. (It computes the update at the start point of the next
super-iteration and does not add the base pulse, where the best update has been stored.) All bases of the library, fixed or optimized times. -/
theorem C113_bare_controls_always_zero (hu : Usable pd td rd) (hc : ∀ d ∈ pd, ∀ n m f, d.basis ≠ .custom n m f)
    (hr : ∀ k, EnoughRandom pd (rnd k)) (dsm : Dsm K (Vec K (searchDim pd rd)) F) {o : Controls K} (ho : mkControls M pd td rd = .ok o) :
    bestBareControls M (execute cfg env (systemOps .dcrab M sqrt rnd draws) dsm o).2.ctl = .ok (pd.map fun d => List.replicate d.binsNumber 0) := by
  obtain ⟨o', h1, h2⟩ := mkControls_exists (M := M) hu
  obtain rfl : o' = o := by rw [ho] at h1; cases h1; rfl
  exact bare_zero hu (fun d hd => zeroUpdate_usable (hu.pulses d hd) (hc d hd))
    (execute_built (cfg := cfg) (env := env) (system_kept (M := M) (sqrt := sqrt) (draws := draws) hu hr) dsm h2).ctl

end

/-- **C113 is violated** by every GRAPE run in the same way. -/
theorem C113_bare_controls_always_zero_grape {F : Type} [Add F] [Sub F] [Mul F] [Div F] [Neg F] [Zero F] [One F] [NatCast F] [LE F] [LT F]
    [DecidableLE F] [DecidableLT F] {M : MathFns ℚ} {pd : List (PulseDict ℚ)} {td : List (TimeDict ℚ)} {rd : List (ParamDict ℚ)}
    {cfg : AlgCfg ℚ F} {env : Env (Vec ℚ (searchDim pd rd)) (ControlsOut ℚ) F} (hu : Usable pd td rd)
    (hc : ∀ d ∈ pd, ∀ n m f, d.basis ≠ .custom n m f) (u : Vec ℚ (searchDim pd rd)) (dsm : Dsm ℚ (Vec ℚ (searchDim pd rd)) F) {o : Controls ℚ}
    (ho : mkControls M pd td rd = .ok o) :
    bestBareControls M (execute cfg env (grapeOps M u) dsm o).2.ctl = .ok (pd.map fun d => List.replicate d.binsNumber 0) := by
  obtain ⟨o', h1, h2⟩ := mkControls_exists (M := M) hu
  obtain rfl : o' = o := by rw [ho] at h1; cases h1; rfl
  have hF := grape_faultless (M := M) hu u
  have hk : KeptByOps (grapeOps M u) (Ready M pd td rd) := by
    refine ⟨fun o x o' c h hg => ?_, fun o k o' h hg => ?_, fun o x o' h hg => ?_⟩
    · obtain ⟨a, b, h1, h2⟩ := hF.get o x h
      rw [hg] at h1; cases h1; exact h2
    · obtain ⟨a, h1, h2⟩ := hF.select k o h
      rw [hg] at h1; cases h1; exact h2
    · obtain ⟨a, h1, h2⟩ := hF.update o x h
      rw [hg] at h1; cases h1; exact h2
  exact bare_zero hu (fun d hd => zeroUpdate_usable (hu.pulses d hd) (hc d hd)) (execute_built (cfg := cfg) (env := env) hk dsm h2).ctl

/-! ### Concrete cases -/

/-- a dCRAB run with `m` super-iterations: the best pulses, the bare best pulses -/
def exSBare (m : ℕ) : Py (Py (List (List ℚ)) × Py (List (List ℚ))) := do
  let o ← mkControls exFns exSPd exTd []
  let r := execute { exSCfg with maxSI := m } exSEnv exSOps (nelderMead (exNm exArgsort1) 5) o
  pure ((bestControls exSOps r.2).map (·.pulses), bestBareControls exFns r.2.ctl)

set_option synthInstance.maxSize 1000 in
/-- **C113 is violated** in a concrete run with two super-iterations: the bare best pulse is zero, but the best pulse is not the guess times the
scaling `1/2` (which is `[0, 5/2, 4]`, the guess being cut at 8). -/
theorem C113_bare_is_not_best : exSBare 2 = .ok (.ok [[15 / 7, 65 / 14, 43 / 7]], .ok [[0, 0, 0]]) ∧
    ¬ FromBare (exSPd.head (by simp [exSPd])) [0, 1, 2] [0, 0, 0] [15 / 7, 65 / 14, 43 / 7] := by
  constructor
  · decide +kernel
  · intro h
    have := h [1 / 2, 1 / 2, 1 / 2] [0, 5, 10] (.inr ⟨_, rfl, by decide +kernel⟩) (.inr ⟨_, rfl, by decide +kernel⟩) rfl rfl
    revert this
    decide +kernel

/-- The hypotheses of the theorems about all runs are met. -/
example : Usable exSPd exTd [] ∧ (∀ d ∈ exSPd, ∀ n m f, d.basis ≠ .custom n m f) ∧
    (∀ k : ℕ, EnoughRandom exSPd ((fun k _ => [1 / (k + 2)] : ℕ → ℕ → List ℚ) k)) := by
  refine ⟨exSPd_usable, fun d hd n m f h => ?_, fun k i d hd => ?_⟩
  · obtain rfl : d = _ := by simpa [exSPd] using hd
    cases h
  · rcases i with _ | i
    · cases hd; exact le_refl 1
    · simp [exSPd] at hd

/-- What the partial theorem says in a case: the bare pulse at a search vector, and the delivered pulse. -/
example : (do
    let o ← mkControls exFns exSPd exTd []
    let o ← o.selectBasis fun _ => [1 / 3]
    let b ← o.getBare exFns [1]
    let c ← o.getControls exFns [1]
    pure (b.2, c.2.pulses, c.2.timegrids)) = (.ok ([[1, 1, 1]], [[1 / 2, 3, 9 / 2]], [[0, 1, 2]]) : Py _) := by
  decide +kernel

end QuOCS

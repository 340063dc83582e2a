/-
C95: a new run can be started from the results of an earlier one.
-/
import Verif.Lemmas.Continue
import Verif.Lemmas.NoDrift
import Verif.Lemmas.ZeroUpdate

set_option linter.unusedSectionVars false
set_option linter.unusedVariables false

namespace QuOCS

section
variable {K : Type} [Field K] [LinearOrder K] [IsStrictOrderedRing K]
variable {M : MathFns K} {pd : List (PulseDict K)} {td : List (TimeDict K)} {rd : List (ParamDict K)}
variable {out : ControlsOut K}

theorem Continuable.usable_from (h : Continuable pd td rd) (ha : Admissible pd td rd out) :
    Usable (pulsesFrom pd out) td (paramsFrom rd out) := by
  refine ⟨?_, fun d' hd' => ?_, h.usable.times⟩
  · rcases h.usable.nonempty with h1 | h1
    · refine .inl fun h2 => h1 ?_
      have := congrArg List.length h2
      simp only [pulsesFrom, List.length_zipWith, ha.number.1, min_self, List.length_nil] at this
      exact List.length_eq_zero_iff.1 this
    · refine .inr fun h2 => h1 ?_
      have := congrArg List.length h2
      simp only [paramsFrom, List.length_zipWith, ha.number.2.2, min_self, List.length_nil] at this
      exact List.length_eq_zero_iff.1 this
  · obtain ⟨d, hd, u, hu, rfl, i, h1, h2⟩ := pulsesFrom_mem hd'
    have hU := h.usable.pulses d hd
    refine ⟨hU.bins, hU.coefficients, hU.basis, ?_, hU.scaling, hU.time⟩
    have hi : i < out.timegrids.length := by
      rw [ha.number.2.1]; exact (List.getElem?_eq_some_iff.1 h1).1
    have := (ha.pulses i d u _ h1 h2 (List.getElem?_eq_getElem hi)).samples (h.bins d hd) ?_
    · exact .inl this
    · intro f hf
      rcases h.scaling d hd with h3 | ⟨g, h3, _⟩ <;> rw [h3] at hf <;> cases hf

theorem Continuable.grid_eq (h : Continuable pd td rd) (ha : Admissible pd td rd out) {w : ControlsOut K}
    (hw : Admissible (pulsesFrom pd out) td (paramsFrom rd out) w) : w.timegrids = out.timegrids := by
  have hl : (pulsesFrom pd out).length = pd.length := by simp [pulsesFrom, ha.number.1]
  refine List.ext_getElem? fun i => ?_
  by_cases hi : i < pd.length
  · have i1 : i < w.timegrids.length := by rw [hw.number.2.1, hl]; exact hi
    have i2 : i < out.timegrids.length := by rw [ha.number.2.1]; exact hi
    have i3 : i < out.pulses.length := by rw [ha.number.1]; exact hi
    have i4 : i < w.pulses.length := by rw [hw.number.1, hl]; exact hi
    rw [List.getElem?_eq_getElem i1, List.getElem?_eq_getElem i2, Option.some.injEq]
    have hd := List.getElem?_eq_getElem hi
    have a1 := ha.pulses i _ _ _ hd (List.getElem?_eq_getElem i3) (List.getElem?_eq_getElem i2)
    have a2 := hw.pulses i _ _ _ (pulsesFrom_get hd (List.getElem?_eq_getElem i3)) (List.getElem?_eq_getElem i4)
      (List.getElem?_eq_getElem i1)
    obtain ⟨b1, t1, T1, c1, e1, f1⟩ := a1.grid
    obtain ⟨b2, t2, T2, c2, e2, f2⟩ := a2.grid
    have ht : t2 = t1 := by
      have : lastNamed td (pd[i]).timeName = some t2 := c2
      rw [c1] at this
      cases this; rfl
    subst ht
    have hfix : t2.isOptimization = false := by
      unfold lastNamed at c1
      exact h.times t2 (by simpa using List.mem_of_find?_eq_some c1)
    have hT : T2 = T1 := (e2.1 hfix).trans (e1.1 hfix).symm
    subst hT
    refine List.ext_getElem? fun k => ?_
    by_cases hk : k < (pd[i]).binsNumber
    · rw [f1 k hk]; exact f2 k hk
    · rw [List.getElem?_eq_none (by rw [b2]; show (pd[i]).binsNumber ≤ k; omega), List.getElem?_eq_none (by rw [b1]; omega)]
  · rw [List.getElem?_eq_none (by rw [hw.number.2.1, hl]; omega), List.getElem?_eq_none (by rw [ha.number.2.1]; omega)]

/-- A new controls object with earlier results as guess shows these results at its mean. -/
theorem Continuable.shows (h : Continuable pd td rd) (ha : Admissible pd td rd out) {o : Controls K}
    (ho : mkControls M (pulsesFrom pd out) td (paramsFrom rd out) = .ok o) {l : List K} (hl : o.mean = .ok l)
    {o' : Controls K} {w : ControlsOut K} (hg : o.getControls M l = .ok (o', w)) : w = out := by
  have hreach : ControlsReach M (pulsesFrom pd out) td (paramsFrom rd out) o := .create ho
  have hw : Admissible (pulsesFrom pd out) td (paramsFrom rd out) w := delivered_admissible hreach hg
  have hgr := h.grid_eq ha hw
  have hpl : (pulsesFrom pd out).length = pd.length := by simp [pulsesFrom, ha.number.1]
  have hrl : (paramsFrom rd out).length = rd.length := by simp [paramsFrom, ha.number.2.2]
  have hpar : w.parameters = out.parameters := by
    refine List.ext_getElem? fun i => ?_
    by_cases hi : i < rd.length
    · have i2 : i < out.parameters.length := by rw [ha.number.2.2]; exact hi
      have hd := List.getElem?_eq_getElem hi
      have hv := List.getElem?_eq_getElem i2
      obtain ⟨b1, b2⟩ := ha.parameters i _ _ hd hv (h.limits _ (List.getElem_mem hi))
      rw [hv]
      exact (fresh_controls ho hl hg).1 i _ (paramsFrom_get hd hv) b1 b2
    · rw [List.getElem?_eq_none (by rw [hw.number.2.2, hrl]; omega), List.getElem?_eq_none (by rw [ha.number.2.2]; omega)]
  have hpul : w.pulses = out.pulses := by
    have I := CInv.of_reach hreach
    rw [C21_start_point hreach] at hl
    cases hl
    have ho' := ho
    unfold mkControls at ho'
    obtain ⟨⟨ps, mi⟩, h1, ho'⟩ := py_bind_ok.1 ho'
    obtain ⟨ts, h2, ho'⟩ := py_bind_ok.1 ho'
    rw [py_pure_ok] at ho'
    subst ho'
    have hp := mkPulses_each h1
    obtain ⟨ts', t1, t2, t3, t4, t5, t6, t7⟩ := getControls_parts hg
    refine List.ext_getElem? fun i => ?_
    by_cases hi : i < pd.length
    · have i2 : i < out.pulses.length := by rw [ha.number.1]; exact hi
      have i3 : i < out.timegrids.length := by rw [ha.number.2.1]; exact hi
      have hd := List.getElem?_eq_getElem hi
      have hu := List.getElem?_eq_getElem i2
      have hmem := List.getElem_mem hi
      have hgi := List.getElem?_eq_getElem i3
      have hA := ha.pulses i _ _ _ hd hu hgi
      have hlen := hA.samples (h.bins _ hmem) (by
        intro f hf
        rcases h.scaling _ hmem with h3 | ⟨g, h3, _⟩ <;> rw [h3] at hf <;> cases hf)
      rw [hu]
      generalize pd[i] = d at *
      generalize out.pulses[i] = u at *
      generalize out.timegrids[i] = gr at *
      obtain ⟨p, hpi, k, hmk⟩ := forall2_at hp (pulsesFrom_get hd hu)
      obtain ⟨⟨q, v⟩, hqi, x, t, hx, ht, hget⟩ := forall2_at t3 hpi
      rw [gather_mean_pulse I _ p (List.mem_of_getElem? hpi)] at hx
      cases hx
      have hn : p.nParams = (d.startingFrom u).declared :=
        (PulseReach.create hmk : PulseReach M (d.startingFrom u) p).w_length.2.1
      rw [hn] at hget
      obtain ⟨hq1, hq2⟩ := List.getElem?_zip_eq_some.1 hqi
      have hgrid : q.timeGrid = gr := by
        rw [← hgr, t5, List.getElem?_map, hq1] at hgi
        simpa using hgi
      rw [hq2]
      refine congrArg some (fresh_pulse_within hmk (h.shaping d hmem) (zeroUpdate_usable
        ((h.usable_from ha).pulses _ (List.mem_of_getElem? (pulsesFrom_get hd hu))) (h.bases d hmem)) (h.scaling d hmem) rfl hlen
        (le_trans (by norm_num) (h.bins d hmem)) (hA.limits (.inl (h.shaping d hmem))) ?_ hget)
      rw [hgrid]; exact hA.grid.1
    · rw [List.getElem?_eq_none (by rw [hw.number.1, hpl]; omega), List.getElem?_eq_none (by rw [ha.number.1]; omega)]
  rcases w with ⟨a, b, c⟩
  rcases out with ⟨a', b', c'⟩
  simp only at hpul hgr hpar
  rw [hpul, hgr, hpar]

end

section
variable {K F : Type} [Field K] [LinearOrder K] [IsStrictOrderedRing K]
variable [Add F] [Sub F] [Mul F] [Div F] [Neg F] [Zero F] [One F] [NatCast F] [LE F] [LT F] [DecidableLE F]
  [DecidableLT F]
variable {M : MathFns K} {pd : List (PulseDict K)} {td : List (TimeDict K)} {rd : List (ParamDict K)}
variable {out : ControlsOut K}

/-- **C95, partial.** `out` is any set of controls that belongs to the user's lists (by C82 everything delivered in a run does,
see also `C95_continued_run_partial`). If the user puts its pulses as initial guesses and its parameters as initial values into
the same lists, then the first call of a new dCRAB run uses exactly these controls: all samples, time grids and parameters. This
holds for every search method of the library, all random numbers, all settings of the new run, and pulses that are cut or shrunk.
Missing: a scaling other than one (the samples are then scaled once more, see below), other shaping options, optimized times,
bases written by the user. -/
theorem C95_first_call_is_earlier_controls_partial [FloorRing K] (hc : Continuable pd td rd) (ha : Admissible pd td rd out)
    {sqrt : K → K} {rnd : ℕ → ℕ → List K} {draws : ℕ → Vec K (searchDim (pulsesFrom pd out) (paramsFrom rd out))}
    {cfg : AlgCfg K F} {env : Env (Vec K (searchDim (pulsesFrom pd out) (paramsFrom rd out))) (ControlsOut K) F}
    (hr : ∀ k, EnoughRandom (pulsesFrom pd out) (rnd k)) (hk : cfg.kind = .dcrab)
    {dsm : Dsm K (Vec K (searchDim (pulsesFrom pd out) (paramsFrom rd out))) F}
    (hd : (∃ c fuel, dsm = nelderMead c fuel) ∨ ∃ lib p fuel, dsm = cmaes lib p fuel) {o : Controls K}
    (ho : mkControls M (pulsesFrom pd out) td (paramsFrom rd out) = .ok o)
    {first : Call (Vec K (searchDim (pulsesFrom pd out) (paramsFrom rd out))) (ControlsOut K) F} {rest}
    (h : (execute cfg env (systemOps .dcrab M sqrt rnd draws) dsm o).2.log = first :: rest) : first.ctl = out := by
  have hu := hc.usable_from ha
  have hsh : ∀ d ∈ pulsesFrom pd out, d.shapingOptions = none := by
    intro d' hd'
    obtain ⟨d, h1, u, _, rfl, _⟩ := pulsesFrom_mem hd'
    exact hc.shaping d h1
  have hz : ∀ d ∈ pulsesFrom pd out, ZeroUpdate M d := by
    intro d' hd'
    obtain ⟨d, h1, u, _, rfl, _⟩ := pulsesFrom_mem hd'
    exact zeroUpdate_usable (hu.pulses _ hd') (hc.bases d h1)
  obtain ⟨o', h1, h2⟩ := mkControls_exists (M := M) hu
  obtain rfl : o' = o := by rw [ho] at h1; cases h1; rfl
  obtain ⟨best, hb⟩ := system_best (F := F) (V := Unit) (sqrt := sqrt) (draws := draws) hu hr
    (s := initState cfg env o') h2
  have hfirst := execute_first (cfg := cfg) (env := env) hk (system_restartable hz hc.times hu hr) (library_starts hd) o' h2
    best hb h
  obtain ⟨x, hx, hs⟩ := showsMean_of_best hb
  have hx : (do vecOfList _ (← o'.mean)) = .ok x := hx
  obtain ⟨l, hl, hv⟩ := py_bind_ok.1 hx
  rw [system_shows, vecOfList_ofFn hv] at hs
  have hs : (o'.getControls M l).map Prod.snd = .ok best := hs
  rcases hg : o'.getControls M l with e | ⟨o2, w⟩
  · rw [hg] at hs; cases hs
  · rw [hg] at hs
    have hs : w = best := by simpa [Except.map] using hs
    subst hs
    rw [hfirst]
    exact hc.shows ha ho hl hg

/-- What `get_best_controls` returns belongs to the user's lists. -/
theorem system_best_admissible (hu : Usable pd td rd) {sqrt : K → K} {rnd : ℕ → ℕ → List K} {draws : ℕ → Vec K (searchDim pd rd)}
    (hr : ∀ k, EnoughRandom pd (rnd k)) {cfg : AlgCfg K F} {env : Env (Vec K (searchDim pd rd)) (ControlsOut K) F}
    {dsm : Dsm K (Vec K (searchDim pd rd)) F} {o : Controls K} (ho : mkControls M pd td rd = .ok o) {best : ControlsOut K}
    (hb : bestControls (systemOps .dcrab M sqrt rnd draws) (execute cfg env (systemOps .dcrab M sqrt rnd draws) dsm o).2 =
      .ok best) : Admissible pd td rd best := by
  obtain ⟨o', h1, h2⟩ := mkControls_exists (M := M) hu
  obtain rfl : o' = o := by rw [ho] at h1; cases h1; rfl
  have hI := (execute_built (cfg := cfg) (env := env) (system_kept (M := M) (sqrt := sqrt) (draws := draws) hu hr) dsm h2).ctl
  obtain ⟨x, hx, hs⟩ := showsMean_of_best hb
  rw [system_shows] at hs
  have hs : ((execute cfg env (systemOps .dcrab M sqrt rnd draws) dsm o').2.ctl.getControls M (List.ofFn x)).map Prod.snd =
    .ok best := hs
  rcases hg : (execute cfg env (systemOps .dcrab M sqrt rnd draws) dsm o').2.ctl.getControls M (List.ofFn x) with e | ⟨o2, w⟩
  · rw [hg] at hs; cases hs
  · rw [hg] at hs
    have hs : w = best := by simpa [Except.map] using hs
    subst hs
    exact delivered_admissible hI.reach hg

variable {sqrt sqrt' : K → K} {rnd rnd' : ℕ → ℕ → List K} {draws : ℕ → Vec K (searchDim pd rd)}
variable {cfg cfg' : AlgCfg K F} {env : Env (Vec K (searchDim pd rd)) (ControlsOut K) F}

/-- **C95, partial.** Whatever happened in an earlier dCRAB run (its settings, its search method, stops, exceptions), the first
call of a run that is started from its best controls uses exactly these controls.
Missing: as above. -/
theorem C95_continued_run_partial [FloorRing K] (hc : Continuable pd td rd) (hr : ∀ k, EnoughRandom pd (rnd k))
    {dsm : Dsm K (Vec K (searchDim pd rd)) F} {o : Controls K} (ho : mkControls M pd td rd = .ok o) {best : ControlsOut K}
    (hb : bestControls (systemOps .dcrab M sqrt rnd draws) (execute cfg env (systemOps .dcrab M sqrt rnd draws) dsm o).2 =
      .ok best)
    {draws' : ℕ → Vec K (searchDim (pulsesFrom pd best) (paramsFrom rd best))}
    {env' : Env (Vec K (searchDim (pulsesFrom pd best) (paramsFrom rd best))) (ControlsOut K) F}
    (hr' : ∀ k, EnoughRandom (pulsesFrom pd best) (rnd' k)) (hk' : cfg'.kind = .dcrab)
    {dsm' : Dsm K (Vec K (searchDim (pulsesFrom pd best) (paramsFrom rd best))) F}
    (hd' : (∃ c fuel, dsm' = nelderMead c fuel) ∨ ∃ lib p fuel, dsm' = cmaes lib p fuel) {o' : Controls K}
    (ho' : mkControls M (pulsesFrom pd best) td (paramsFrom rd best) = .ok o')
    {first : Call (Vec K (searchDim (pulsesFrom pd best) (paramsFrom rd best))) (ControlsOut K) F} {rest}
    (h : (execute cfg' env' (systemOps .dcrab M sqrt' rnd' draws') dsm' o').2.log = first :: rest) : first.ctl = best :=
  C95_first_call_is_earlier_controls_partial hc (system_best_admissible hc.usable hr ho hb) hr' hk' hd' ho' h

/-- The controls object with vectors of fixed length lets results be reproduced. -/
theorem system_reproducible (hS : StandardControls M pd td rd) (hu : Usable pd td rd) (hr : ∀ k, EnoughRandom pd (rnd k)) :
    Reproducible (systemOps .dcrab M sqrt rnd draws) (Ready M pd td rd) := by
  have R := reproducible_standard (rnd := rnd) (simplex := fun _ _ _ => .ok []) hS
  have hk := system_kept (M := M) (sqrt := sqrt) (draws := draws) hu hr
  have hmean : ∀ {c : Controls K} (h : Ready M pd td rd c) {w : ControlsOut K},
      ShowsMean (controlsOps M rnd (fun _ _ _ => .ok [])) c w → ShowsMean (systemOps .dcrab M sqrt rnd draws) c w := by
    rintro c h w ⟨l, hl, hw⟩
    obtain ⟨l2, h4, h5⟩ := h.mean
    rw [show c.mean = .ok l from hl] at h4
    cases h4
    obtain ⟨v, h6⟩ := vecOfList_exists h5
    refine ⟨v, ?_, ?_⟩
    · show (do vecOfList _ (← c.mean)) = _
      rw [show c.mean = .ok l from hl]; exact h6
    · rw [system_shows, vecOfList_ofFn h6]; exact hw
  have hmean' : ∀ {c : Controls K} {w : ControlsOut K}, ShowsMean (systemOps .dcrab M sqrt rnd draws) c w →
      ShowsMean (controlsOps M rnd (fun _ _ _ => .ok [])) c w := by
    rintro c w ⟨x, hx, hw⟩
    have hx : (do vecOfList _ (← c.mean)) = .ok x := hx
    obtain ⟨l, hl, hv⟩ := py_bind_ok.1 hx
    rw [system_shows, vecOfList_ofFn hv] at hw
    exact ⟨l, hl, hw⟩
  refine ⟨fun c x c' w h hg => ⟨hk.get _ _ _ _ h hg, fun y w' hy => ?_⟩, fun c x c' h hg => ⟨hk.base _ _ _ h hg, fun w hw => ?_⟩,
    fun k c c' h hg => ⟨hk.select _ _ _ h hg, fun w hw => ?_⟩⟩
  · rw [system_shows] at hy ⊢
    have hg : getControlsFor .dcrab M c (List.ofFn x) = .ok (c', w) := hg
    unfold getControlsFor at hg
    obtain ⟨r, h1, hg⟩ := py_bind_ok.1 hg
    rw [if_neg (by simp)] at hg
    cases hg
    exact (R.build c (List.ofFn x) c' w h.reach h1).2 _ _ hy
  · rw [system_shows] at hw
    exact hmean (hk.base _ _ _ h hg) ((R.base c (List.ofFn x) c' h.reach hg).2 w hw)
  · exact hmean (hk.select _ _ _ h hg) ((R.basis k c c' h.reach hg).2 w (hmean' hw))

variable [FloatOrder F]

/-- **C95, partial.** Continuing never loses what was reached. The user's function has no memory (its answer depends on the controls
only); two dCRAB runs without re-evaluation and drift compensation optimize it in the same direction. The first run was completed,
the second starts from the best controls of the first and makes at least one call (however it ends). Then the best figure of merit
of the second run is not worse than that of the first.
Missing: as above; base pulses that are overwritten. -/
theorem C95_continuing_never_worse_partial [FloorRing K] (hc : Continuable pd td rd) (hacc : ∀ d ∈ pd, d.overwrite = false)
    (hr : ∀ k, EnoughRandom pd (rnd k))
    (hk : cfg.kind = .dcrab) (hre : cfg.reEval = none) {dsm : Dsm K (Vec K (searchDim pd rd)) F} (hdr : NoDriftRun cfg dsm)
    {o : Controls K} (ho : mkControls M pd td rd = .ok o) {user : ControlsOut K → Py (Answer F)} (hm : Memoryless env user)
    (hok : (execute cfg env (systemOps .dcrab M sqrt rnd draws) dsm o).1 = .ok ()) {best : ControlsOut K}
    (hb : bestControls (systemOps .dcrab M sqrt rnd draws) (execute cfg env (systemOps .dcrab M sqrt rnd draws) dsm o).2 =
      .ok best)
    {draws' : ℕ → Vec K (searchDim (pulsesFrom pd best) (paramsFrom rd best))}
    {env' : Env (Vec K (searchDim (pulsesFrom pd best) (paramsFrom rd best))) (ControlsOut K) F}
    (hr' : ∀ k, EnoughRandom (pulsesFrom pd best) (rnd' k)) (hk' : cfg'.kind = .dcrab) (hre' : cfg'.reEval = none)
    (hmax : cfg'.maximize = cfg.maximize) (hmark : cfg'.fomMax = cfg.fomMax) (hnan : ¬ FloatOrder.IsNaN cfg.fomMax)
    {dsm' : Dsm K (Vec K (searchDim (pulsesFrom pd best) (paramsFrom rd best))) F}
    (hd' : (∃ c fuel, dsm' = nelderMead c fuel) ∨ ∃ lib p fuel, dsm' = cmaes lib p fuel) (hdr' : NoDriftRun cfg' dsm')
    (hm' : Memoryless env' user) {o' : Controls K}
    (ho' : mkControls M (pulsesFrom pd best) td (paramsFrom rd best) = .ok o')
    (hcalls : (execute cfg' env' (systemOps .dcrab M sqrt' rnd' draws') dsm' o').2.log ≠ []) :
    ¬ Better cfg.maximize (finalFoM cfg (execute cfg env (systemOps .dcrab M sqrt rnd draws) dsm o).2)
      (finalFoM cfg' (execute cfg' env' (systemOps .dcrab M sqrt' rnd' draws') dsm' o').2) := by
  have hS : StandardControls M pd td rd := ⟨fun d h => .inl (hc.shaping d h), hacc, fun d h => zeroUpdate_usable (hc.usable.pulses d h) (hc.bases d h), hc.times, hc.limits⟩
  obtain ⟨o1, h1, h2⟩ := mkControls_exists (M := M) hc.usable
  obtain rfl : o1 = o := by rw [ho] at h1; cases h1; rfl
  have hbt := BetweenSI.execute (env := env) (system_reproducible (sqrt := sqrt) (draws := draws) hS hc.usable hr).repro (.inr hre)
    (by rw [hk]; simp) dsm hdr o1 h2 () hok
  obtain ⟨q1, q2, q3⟩ := C04_best_is_optimum_partial cfg' env' (systemOps .dcrab M sqrt' rnd' draws') (.inr hre')
    (by rw [hmark]; exact hnan) dsm' hdr' o'
  rw [hmax] at q1 q2
  rcases hlog : (execute cfg' env' (systemOps .dcrab M sqrt' rnd' draws') dsm' o').2.log with _ | ⟨first, rest⟩
  · exact absurd hlog hcalls
  · have hfirst := C95_continued_run_partial hc hr ho hb hr' hk' hd' ho' hlog
    rcases hbt.best with h3 | ⟨c, hcm, f, hf, h3, ⟨x, hx, hs⟩, _⟩
    · have : finalFoM cfg (execute cfg env (systemOps .dcrab M sqrt rnd draws) dsm o1).2 = dirMul cfg.maximize cfg.fomMax := by
        unfold finalFoM; rw [h3]
      rw [this, ← hmark]
      exact q2
    · have e1 : finalFoM cfg (execute cfg env (systemOps .dcrab M sqrt rnd draws) dsm o1).2 = f := by
        unfold finalFoM; rw [h3, dirMul_dirMul]
      have e2 : c.ctl = best := by
        obtain ⟨x', hx', hs'⟩ := showsMean_of_best hb
        rw [hx] at hx'; cases hx'
        unfold Shows at hs hs'
        rw [hs] at hs'; cases hs'; rfl
      have e3 : c.ans = user best := by
        obtain ⟨l1, l2, hl⟩ := List.append_of_mem hcm
        rw [execute_answered dsm o1 l1 c l2 hl, hm, e2]
      have e4 : first.ans = user best := by
        rw [execute_answered dsm' o' [] first rest hlog, hm', hfirst]
      rw [e1]
      refine q1 first (by rw [hlog]; exact List.mem_cons_self) f ?_
      have : first.value = c.value := by unfold Call.value; rw [e3, e4]
      rw [this]; exact hf

end
/-! ### Concrete instance -/

/-- one pulse that is cut to its limits, guess `t ↦ 5 t`, with scaling `a`; one fixed time, one parameter -/
def exKPd (a : ℚ) : List (PulseDict ℚ) :=
  [{ exDict with basis := .sinc 1 1, shrink := false, lowerLimit := -20, upperLimit := 8
                 scaling := .callable (fun t => t.map (fun _ => a)) }]

def exKRd : List (ParamDict ℚ) := [{ name := "a", initialValue := 1, lower := 0, upper := 2, amplitudeVariation := 1/2 }]

/-- the user's function: the parameter minus the second sample -/
def exKUser (c : ControlsOut ℚ) : Py (Answer ℚ) := .ok ⟨some (c.parameters.getD 0 0 - c.pulses.flatten.getD 1 0), none, none⟩

def exKEnv (n : ℕ) : Env (Vec ℚ n) (ControlsOut ℚ) ℚ :=
  { getFoM := fun _ c => exKUser c, async := fun _ => .none, clock := fun _ => 0, sqrt := id, cdf := id }

/-- a run with one super-iteration: the end, the controls of each call, the best controls, the best figure of merit -/
def exKRun (pd : List (PulseDict ℚ)) (rd : List (ParamDict ℚ)) :
    Py (Py Unit × List (ControlsOut ℚ) × Py (ControlsOut ℚ) × ℚ) := do
  let o ← mkControls exFns pd exTd rd
  let ops : CtlOps (Controls ℚ) (Vec ℚ (searchDim pd rd)) (ControlsOut ℚ) :=
    systemOps .dcrab exFns id (fun k _ => [1 / (k + 2)]) (fun _ _ => 1 / 2)
  let cfg : AlgCfg ℚ ℚ := { exSCfg with maxSI := 1 }
  let r := execute cfg (exKEnv _) ops (cmaes exCmaLib (some 2) 5) o
  pure (r.1, r.2.log.map (fun c => c.ctl), bestControls ops r.2, finalFoM cfg r.2)

/-- a run, and a second run from its best controls -/
def exKTwo (a : ℚ) : Py ((List (List ℚ) × List ℚ × ℚ) × (List (List ℚ) × List ℚ) × ℚ) := do
  let r ← exKRun (exKPd a) exKRd
  let best ← r.2.2.1
  let r' ← exKRun (pulsesFrom (exKPd a) best) (paramsFrom exKRd best)
  match r'.2.1 with
  | first :: _ => pure ((best.pulses, best.parameters, r.2.2.2), (first.pulses, first.parameters), r'.2.2.2)
  | [] => .error .valueError

theorem exK_continuable : Continuable (exKPd 1) exTd exKRd := by
  refine ⟨⟨.inl (by simp [exKPd]), fun d hd => ?_, fun t ht h => ?_⟩, by simp [exKPd, exDict], fun d hd => ?_, fun d hd => ?_,
    fun d hd => ?_, by simp [FixedTimes, exTd], fun d hd => ?_⟩
  · obtain rfl : d = _ := by simpa [exKPd] using hd
    refine ⟨by decide, by decide, trivial, fun t ht => .inl (by simpa using ht), fun t ht => .inl (by simpa using ht), ?_⟩
    exact ⟨_, List.mem_cons_self, rfl⟩
  · obtain rfl : t = _ := by simpa [exTd] using ht
    cases h
  · obtain rfl : d = _ := by simpa [exKPd] using hd
    exact .inr ⟨_, rfl, fun t => by simp⟩
  · obtain rfl : d = _ := by simpa [exKPd] using hd
    decide
  · obtain rfl : d = _ := by simpa [exKPd] using hd
    intro n m f h; cases h
  · obtain rfl : d = _ := by simpa [exKRd] using hd
    norm_num

set_option synthInstance.maxSize 1000 in
/-- The hypotheses are met, and what the theorems say can be seen: the first run raises the second sample, the second run starts
with exactly the best controls and improves the figure of merit further, from -59/14 to -31/7. -/
example : Continuable (exKPd 1) exTd exKRd ∧ (∀ d ∈ exKPd 1, d.overwrite = false) ∧
    (∀ out : ControlsOut ℚ, ∀ k : ℕ, EnoughRandom (pulsesFrom (exKPd 1) out) ((fun k _ => [1 / (k + 2)] : ℕ → ℕ → List ℚ) k)) ∧
    (∀ n, Memoryless (exKEnv n) exKUser) ∧ exSCfg.kind = .dcrab ∧ exSCfg.reEval = none ∧
    (∀ n, NoDriftRun exSCfg (cmaes exCmaLib (some 2) 5 : Dsm ℚ (Vec ℚ n) ℚ)) ∧
    exKTwo 1 = .ok (([[5 / 7, 40 / 7, 8]], [3 / 2], -59 / 14), ([[5 / 7, 40 / 7, 8]], [3 / 2]), -31 / 7) := by
  refine ⟨exK_continuable, by simp [exKPd, exDict], fun out k i d hd => ?_, fun n log c => rfl, rfl, rfl,
    fun n => ⟨rfl, fun i x sim sg => ?_⟩, by decide +kernel⟩
  · obtain ⟨d', h1, u, _, rfl, _⟩ := pulsesFrom_mem (List.mem_of_getElem? hd)
    obtain rfl : d' = _ := by simpa [exKPd] using h1
    exact le_refl 1
  · exact cmaes_noDrift _ _ _ _ _ _ _

set_option synthInstance.maxSize 1000 in
/-- **C95 is violated with a scaling**: with the scaling 1/2 the best controls of the first run have the samples 0, 5/2, 4 and the
figure of merit -3/2. Given back as initial guess they are scaled once more: the first call of the second run uses 0, 5/4, 2, and
the second run ends with -1/4. -/
theorem C95_scaled_pulses_are_scaled_again :
    exKTwo (1 / 2) = .ok (([[0, 5 / 2, 4]], [1], -3 / 2), ([[0, 5 / 4, 2]], [1]), -1 / 4) := by decide +kernel

end QuOCS

/-
Property C115 in terms of controls and figures of merit: what drift compensation measures again.
-/
import Verif.Props.DriftRun
import Verif.Props.ProgramMean
import Verif.Spec.DriftMeasure

set_option linter.unusedSectionVars false
set_option linter.unusedVariables false

namespace QuOCS

section
variable {K V C O F : Type} [Add K] [Sub K] [Mul K] [Div K] [Neg K] [Zero K] [One K] [NatCast K] [LE K] [LT K] [DecidableLE K] [DecidableLT K]
variable [Field F] [LinearOrder F] [IsStrictOrderedRing F]
variable {cfg : AlgCfg K F} {ops : CtlOps O V C} {I : O → Prop} {M : O → V → Prop} {Q : ℕ → O → List (Call V C F) → Prop}

/-- the values of measurements, for a maximization with the sign of the user's function -/
theorem meanOfValues (number : ℕ) {comp : List (Call V C F)} {b : F} (h : AverageOf cfg number comp b) :
    MeanOfValues number (comp.map fun c => (c.ctl, c.value)) (dirMul cfg.maximize b) := by
  obtain ⟨h1, vs, h2, rfl⟩ := h
  refine ⟨by simpa using h1, vs.map (dirMul cfg.maximize), ?_, ?_⟩
  · clear h1
    induction h2 with
    | nil => rfl
    | cons hv _ ih =>
      obtain ⟨f, e1, rfl⟩ := hv
      simp only [List.map_cons, List.cons.injEq]
      exact ⟨by rw [e1, dirMul_dirMul], by simpa using ih⟩
  · rw [← List.sum_eq_foldl]
    have : (vs.map (dirMul cfg.maximize)).sum = dirMul cfg.maximize vs.sum := by
      unfold dirMul
      cases cfg.maximize
      · simp
      · clear h2
        induction vs with
        | nil => simp
        | cons v vs ih =>
          simp only [if_true, List.map_cons, List.sum_cons] at ih ⊢
          rw [ih]; ring
    rw [this]
    unfold dirMul
    cases cfg.maximize <;> simp
    ring

/-- the controls that an object shows at all vectors -/
def shownView (ops : CtlOps O V C) (o : O) : V → Py C := fun y => (ops.getControls o y).map Prod.snd

/-- the objects `a` during the measurements that start with `o` -/
def SameShown (ops : CtlOps O V C) (I : O → Prop) (M : O → V → Prop) (o a : O) : Prop :=
  I a ∧ (∀ x, ops.mean o = .ok x → M a x) ∧ ∀ y c, Shows ops o y c → Shows ops a y c

/-- What the end of a run of objects says about the end of a run of controls. -/
def EndsLike (ops : CtlOps O V C) (cfg : AlgCfg K F) (I : O → Prop) : RunEnd O F → RunEnd C F → Prop
  | .kept o b, fin => ∃ c, I o ∧ ShowsMean ops o c ∧ fin = .kept c (dirMul cfg.maximize b)
  | .failed, fin => fin = .failed
  | .inMeasurements, fin => fin = .inMeasurements

theorem DStages.reMeasures (hR : ReproMean ops I (Shows ops) (ShowsMean ops) M) {n k : ℕ} {o : O} {b bEnd : F} {log : List (Call V C F)}
    {fin : RunEnd O F} (h : DStages cfg ops I (shownView ops) (SameShown ops I M) Q n k o b log bEnd fin) (hI : I o) {cur : C}
    (hc : ShowsMean ops o cur) :
    ∃ fin', ReMeasures (Better cfg.maximize) cfg.driftAverage n k cur (dirMul cfg.maximize b) (log.map fun c => (c.ctl, c.value)) fin' ∧
      EndsLike ops cfg I fin fin' := by
  have comps : ∀ {o : O} {cur : C} {comp : List (Call V C F)}, ShowsMean ops o cur →
      (∀ c ∈ comp, CompCall ops (SameShown ops I M) o c) → ∀ c ∈ comp.map fun c => (c.ctl, c.value), c.1 = cur := by
    rintro o cur comp ⟨x, hx, hs⟩ h c hc
    obtain ⟨c, hcm, rfl⟩ := List.mem_map.1 hc
    obtain ⟨hm, a, a', ha, hg⟩ := h c hcm
    rw [hx] at hm
    cases hm
    have := ha.2.2 _ _ hs
    unfold Shows at this
    rw [hg] at this
    cases this
    rfl
  have hbs : ∀ {k : ℕ} {comp : List (Call V C F)} {b1 b : F},
      (if 2 ≤ k then AverageOf cfg cfg.driftAverage comp b1 else comp = [] ∧ b1 = b) →
      if 2 ≤ k then MeanOfValues cfg.driftAverage (comp.map fun c => (c.ctl, c.value)) (dirMul cfg.maximize b1)
      else (comp.map fun c => (c.ctl, c.value)) = [] ∧ dirMul cfg.maximize b1 = dirMul cfg.maximize b := by
    intro k comp b1 b h
    split_ifs at h ⊢ with hk
    · exact meanOfValues _ h
    · rw [h.1, h.2]; exact ⟨rfl, rfl⟩
  induction h generalizing cur with
  | stop n k o b => exact ⟨_, .stop _ _ _ _, cur, hI, hc, rfl⟩
  | ends n k o b => exact ⟨_, .nothing _ _ _ _, rfl⟩
  | broken b' hk hcm hl => exact ⟨_, .measuring hk (comps hc hcm) (by simpa using hl), rfl⟩
  | last hcm hb ha hs hm hcalls hq hk =>
    rw [List.map_append]
    exact ⟨_, .fails _ (comps hc hcm) (hbs hb), rfl⟩
  | @next n k o b comp calls rest bEnd fin a o1 o2 o3 b1 b2 x0 x hcm hb ha hs hm hcalls hq hk h2 hu hr ih =>
    have sa : ShowsMean ops a cur := by
      obtain ⟨y, hy, hs⟩ := hc
      exact hR.showMean _ _ _ ha.1 (ha.2.1 _ hy) (ha.2.2 _ _ hs)
    obtain ⟨i1, s1⟩ := hR.basis _ _ _ ha.1 hs
    have s1 := s1 _ sa
    obtain ⟨i3, s3⟩ := hR.base _ _ _ h2.1 hu
    have view : ∀ {o' : O} {y : V} {c : C}, shownView ops o' = shownView ops o1 → Shows ops o' y c → Shows ops o2 y c := by
      intro o' y c e hsy
      have e := congrFun (e.trans h2.2.symm) y
      unfold shownView at e
      unfold Shows at hsy ⊢
      rw [← e, hsy]
    obtain ⟨hall, hkept⟩ := hk
    have best : ∃ cur2, ShowsMean ops o3 cur2 ∧ (cur2 = cur ∧ dirMul cfg.maximize b2 = dirMul cfg.maximize b1 ∨
        (cur2, some (dirMul cfg.maximize b2)) ∈ (calls.map fun c => (c.ctl, c.value)) ∧
          Better cfg.maximize (dirMul cfg.maximize b2) (dirMul cfg.maximize b1)) := by
      rcases hkept with ⟨rfl, rfl⟩ | ⟨c, hcc, ⟨f, hf, e⟩, rfl, hlt⟩
      · obtain ⟨y, hy, hsy⟩ := s1
        rw [hm] at hy
        cases hy
        exact ⟨cur, s3 _ (view rfl hsy), .inl ⟨rfl, rfl⟩⟩
      · obtain ⟨o', o'', ⟨ho', hv'⟩, hg⟩ := hcalls c hcc
        refine ⟨c.ctl, s3 _ (view hv' ?_), .inr ⟨?_, ?_⟩⟩
        · unfold Shows
          rw [hg]
          rfl
        · rw [e, dirMul_dirMul]
          exact List.mem_map.2 ⟨c, hcc, by rw [hf]⟩
        · rw [← dirMul_lt, dirMul_dirMul, dirMul_dirMul]
          exact hlt
    obtain ⟨cur2, hc2, hk2⟩ := best
    obtain ⟨fin', e1, e2⟩ := ih i3 hc2
    refine ⟨fin', ?_, e2⟩
    rw [List.map_append, List.map_append]
    refine .next _ _ cur2 (comps hc hcm) (hbs hb) ?_ hk2 e1
    intro c hcc f hf hbetter
    obtain ⟨c, hcm', rfl⟩ := List.mem_map.1 hcc
    rw [← dirMul_lt, dirMul_dirMul] at hbetter
    exact hall c hcm' _ ⟨f, hf, rfl⟩ hbetter

end

section
variable {K F : Type} [Field K] [LinearOrder K] [IsStrictOrderedRing K] [FloorRing K]
variable {M : MathFns K} {pd : List (PulseDict K)} {td : List (TimeDict K)} {rd : List (ParamDict K)}
variable {sqrt : K → K} {rnd : ℕ → ℕ → List K} {draws : ℕ → Vec K (searchDim pd rd)}
variable [Field F] [LinearOrder F] [IsStrictOrderedRing F]

/-- **C115.** dCRAB with drift compensation after super-iterations and without re-evaluation, in the standard configuration and with a usable
dictionary, for both search methods of the library: before every super-iteration except the first one exactly the current best controls
are measured again, and the mean of the figures of merit is what the search has to beat; the best controls and the figure of merit
reported at the end are the last ones in this sense. `first`: the controls at the start values. -/
theorem C115_measures_best_controls (hS : StandardControls M pd td rd) (hu : Usable pd td rd) (hr : ∀ k, EnoughRandom pd (rnd k))
    {cfg : AlgCfg K F} {env : Env (Vec K (searchDim pd rd)) (ControlsOut K) F} (hk : cfg.kind = .dcrab) (hre : cfg.reEval = none)
    (hdr : cfg.driftAfterSI = true) {dsm : Dsm K (Vec K (searchDim pd rd)) F} (hd : ∀ i x sim sg, (dsm i x sim sg).NoDrift)
    {o : Controls K} (ho : mkControls M pd td rd = .ok o) :
    let run := execute cfg env (systemOps .dcrab M sqrt rnd draws) dsm o
    ∃ first fin, ShowsMean (systemOps .dcrab M sqrt rnd draws) o first ∧
      ReMeasures (Better cfg.maximize) cfg.driftAverage cfg.maxSI 1 first (dirMul cfg.maximize cfg.fomMax)
        (run.2.log.map fun c => (c.ctl, c.value)) fin ∧
      EndReported run.1 (bestControls (systemOps .dcrab M sqrt rnd draws) run.2) (finalFoM cfg run.2) fin := by
  intro run
  obtain ⟨o', h1, h2⟩ := mkControls_exists (M := M) hu
  obtain rfl : o' = o := by rw [ho] at h1; cases h1; rfl
  have hR := system_reproMean (sqrt := sqrt) (draws := draws) hS hu hr
  have hF := system_faultless (M := M) (kind := .dcrab) hu (by simp) sqrt hr draws
  have hV : KeepsView (systemOps .dcrab M sqrt rnd draws) (Ready M pd td rd) (shownView (systemOps .dcrab M sqrt rnd draws)) := by
    refine ⟨fun o x o' c h hg => ⟨(hR.build _ _ _ _ h hg).1, ?_⟩, fun k o o' h hg => (hR.basis _ _ _ h hg).1,
      fun o x o' h hg => (hR.base _ _ _ h hg).1⟩
    funext y
    obtain ⟨p, c', hp, -⟩ := hF.get o y h
    have hs : Shows (systemOps .dcrab M sqrt rnd draws) o y c' := by unfold Shows; rw [hp]; rfl
    have := (hR.build _ _ _ _ h hg).2.2 _ _ hs
    unfold Shows at hs this
    unfold shownView
    rw [hs, this]
  have hC : KeepsStart (systemOps .dcrab M sqrt rnd draws) (Ready M pd td rd) (Ready M pd td rd)
      (SameShown (systemOps .dcrab M sqrt rnd draws) (Ready M pd td rd) (fun c x => AtMean pd c (List.ofFn x))) := by
    refine ⟨fun o h => ⟨h, fun x hx => hR.atMean _ _ h hx, fun _ _ h => h⟩, fun o a h => h.1, ?_, fun o x o' h hg => (hR.base _ _ _ h hg).1⟩
    rintro o a x a' c - hm ⟨j1, j2, j3⟩ hg
    obtain ⟨b1, b2, b3⟩ := hR.build _ _ _ _ j1 hg
    refine ⟨b1, fun y hy => ?_, fun y c' h => b3 _ _ (j3 _ _ h)⟩
    rw [hm] at hy
    cases hy
    exact hR.keepMean _ _ _ _ j1 (j2 _ hm) hg
  have hQ : Searches cfg env (systemOps .dcrab M sqrt rnd draws) dsm (MadeBy cfg (systemOps .dcrab M sqrt rnd draws) dsm) := by
    have := searches_made (cfg := { cfg with driftAfterSI := false }) (env := env) (ops := systemOps .dcrab M sqrt rnd draws)
      (by show cfg.kind ≠ .grape; rw [hk]; decide) hre dsm ⟨rfl, hd⟩
    intro s
    have e : dsmBuild { cfg with driftAfterSI := false } env (systemOps .dcrab M sqrt rnd draws) dsm s =
        dsmBuild cfg env (systemOps .dcrab M sqrt rnd draws) dsm s := by
      unfold dsmBuild
      rw [handler_drift]
    rw [← e]
    exact this s
  obtain ⟨fin, hst, hend⟩ := execute_dstages (env := env) hk hV hC hre hdr dsm hd hQ h2
  obtain ⟨x, hx⟩ := hF.mean _ h2
  obtain ⟨p, first, hp, -⟩ := hF.get o' x h2
  have hfirst : ShowsMean (systemOps .dcrab M sqrt rnd draws) o' first := ⟨x, hx, by unfold Shows; rw [hp]; rfl⟩
  obtain ⟨fin', e1, e2⟩ := hst.reMeasures hR h2 hfirst
  refine ⟨first, fin', hfirst, e1, ?_⟩
  rcases fin with ⟨oe, be⟩ | _ | _
  · obtain ⟨c, hI, hc, rfl⟩ := e2
    obtain ⟨rfl, rfl⟩ := hend
    refine ⟨?_, rfl⟩
    obtain ⟨best, hbest⟩ := system_best (F := F) (V := Unit) (sqrt := sqrt) (draws := draws) hu hr hI
    obtain ⟨y, hy, hsy⟩ := showsMean_of_best hbest
    obtain ⟨x, hx, hs⟩ := hc
    rw [hx] at hy; cases hy
    unfold Shows at hs hsy
    rw [hs] at hsy; cases hsy
    exact hbest
  · obtain rfl : fin' = .failed := e2
    intro h
    have hend : isOk run.1 = false := hend
    rw [h] at hend
    cases hend
  · obtain rfl : fin' = .inMeasurements := e2
    trivial

end

section
variable {w : Surroundings} {d : PDict} {r : Outcome}

/-- **C115.** The same for a whole optimization, in terms of the entries of the dictionary: with `number` measurements and at most `m`
super-iterations. -/
theorem C115_program (h : optimize w d = some (.ok r)) (hk : IsDcrab d) (hp : PlainControls w.lib d) (hst : StandardDictionary d)
    (hs : CompensatesAfterSI d) (hr : w.Draws d) :
    ∃ (number m : ℕ) (start : ℚ) (first : ControlsOut ℚ) (fin : RunEnd (ControlsOut ℚ) ℚ),
      MeasurementsOf d number ∧ SuperIterationsOf w.lib d m ∧ (Maximizes d ∧ start = -10 ^ 10 ∨ ¬ Maximizes d ∧ start = 10 ^ 10) ∧
      ReMeasures (BetterFor d) number m 1 first start (r.calls.map fun c => (c.1, c.value)) fin ∧
      EndReported r.ended r.best r.fom fin := by
  obtain ⟨s, cfg, dsm, o, h⟩ := optimize_parts h
  have h3 := hs.minutes _ h.uses.minutes
  obtain ⟨hu, hf⟩ := usable_controls h.usesControls hp
  have hR := fun k => enough_random h.usesControls hp hr k
  have hK := h.dcrab hk
  have hS := h.standard hu hf hst
  have hre : cfg.reEval = none := by
    rcases h.uses.reEval with ⟨_, h⟩ | ⟨_, h, _⟩
    · exact h
    · rw [hs.reEval] at h; cases h
  have hdr : cfg.driftAfterSI = true := h.uses.afterSI.2 ⟨hK, .inl hs.afterSI⟩
  have hnd : ∀ i x sim sg, (dsm i x sim sg).NoDrift := by
    intro i x sim sg
    rcases h.library h3 with ⟨c, fuel, h1, rfl⟩ | ⟨lib, p, fuel, rfl⟩
    · exact nelderMead_noDrift c h1 fuel i x sim sg
    · exact cmaes_noDrift lib p fuel i x sim sg
  have hended := h.ended
  have hfom := h.fom
  have hbest := h.best
  have hcalls := h.calls
  unfold theRun at hended hfom hbest hcalls
  rw [hK] at hended hfom hbest hcalls
  have hmax := h.maximize
  have h10 := h.kind.2
  obtain ⟨first, fin, -, h1, h2⟩ := C115_measures_best_controls (sqrt := w.sqrt) (draws := w.draws) hS hu hR (env := w.env s.vars) hK hre
    hdr hnd h.hcontrols
  rw [← hended, ← hbest, ← hfom] at h2
  refine ⟨cfg.driftAverage, cfg.maxSI, dirMul cfg.maximize cfg.fomMax, first, fin, h.uses.average, h.uses.superIterations hK, ?_, ?_, h2⟩
  · rw [← hmax, h10]
    unfold dirMul
    cases cfg.maximize <;> simp
  · have e : Better (F := ℚ) cfg.maximize = BetterFor d := by
      funext x y
      unfold Better BetterFor
      rw [← hmax]
      cases cfg.maximize <;> simp
    rw [← e, hcalls, List.map_map]
    have e2 : ((fun c : Seen => (c.1, c.value)) ∘ fun k : Call (Vec ℚ s.vars) (ControlsOut ℚ) ℚ => (k.ctl, k.ans)) = fun c => (c.ctl, c.value) := by
      funext c
      simp only [Function.comp, seen_value]
    rw [e2]
    exact h1

end

/-! ### A concrete optimization -/

/-- the optimization `exProgram` with two super-iterations of at most three evaluations and with two measurements between them -/
def exDriftProgram : PDict :=
  exSettings [("algorithm_name", .str "dCRAB"), ("optimization_direction", .str "maximization"), ("max_eval_total", .num 30),
      ("super_iteration_number", .num 2),
      ("compensate_drift", .dict (mkDict [("compensate_after_SI", .bool true), ("num_average", .num 2)])),
      ("dsm_settings", .dict (mkDict [("general_settings", .dict (mkDict [("dsm_algorithm_name", .str "NelderMead")])),
        ("stopping_criteria", .dict (mkDict [("max_eval", .num 3)]))]))]
    [exPulse (exBasis "Sinc" []) [("bins_number", .num 3), ("lower_limit", .num (-1))]] [] [exTime]

/-- The fourth call has the best value of the first search, 81 / 7. Its controls are measured twice, with 80 / 7 and 79 / 7; no call of the
second search is better than the mean 159 / 14, which is reported. -/
theorem exDriftProgram_measures : shownOf (optimize (exAround (-1 / 7)) exDriftProgram) =
    some (11, true, [some 0, some (68 / 49), some (286 / 49), some (81 / 7), some (80 / 7), some (79 / 7), some (78 / 7), some 11,
      some (244 / 49), some (75 / 7), some (74 / 7)], 159 / 14, true) := by decide +kernel

/-- The hypotheses of `C115_program` are met by this dictionary and these surroundings. -/
theorem exDriftProgram_hyps : IsDcrab exDriftProgram ∧ PlainControls exLib exDriftProgram ∧ StandardDictionary exDriftProgram ∧ CompensatesAfterSI exDriftProgram ∧
    (exAround (-1 / 7)).Draws exDriftProgram := by
  obtain ⟨h1, h2, _⟩ := exProgram_plain
  refine ⟨⟨.inl rfl, rfl⟩, ⟨h1.something, fun p hp => ?_, h1.times⟩, ⟨h2.pulses, h2.limits⟩, ⟨rfl, ?_, ?_⟩, (exAround_usable (-1 / 7)).2.1⟩
  · obtain ⟨a, b, c⟩ := h1.pulses p hp
    exact ⟨a, b, c⟩
  · intro m hm
    have : (0 : ℚ) = m := PVal_num_inj hm
    rw [← this]
  · rintro (h | h | h | h | h | h) <;> cases h

end QuOCS

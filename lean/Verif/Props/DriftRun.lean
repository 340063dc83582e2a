/-
Property C115: dCRAB optimizations with drift compensation between the super-iterations.
-/
import Verif.Lemmas.DriftRun
import Verif.Props.DcrabSearch

set_option linter.unusedSectionVars false
set_option linter.unusedVariables false

namespace QuOCS

section
variable {M : MathFns ℝ} {pd : List (PulseDict ℝ)} {td : List (TimeDict ℝ)} {rd : List (ParamDict ℝ)} {T : String → ℝ}

/-- the parameters after controls were built -/
theorem Ready.get_parameters (hpd : ∀ d ∈ pd, DcrabPulse d) {c c' : Controls ℝ} (h : Ready M pd td rd c) {x : List ℝ} {o : ControlsOut ℝ}
    (hg : c.getControls M x = .ok (c', o)) : ParameterValues pd rd x (c'.params.map (·.value)) := by
  unfold Controls.getControls at hg
  obtain ⟨ts, -, hg⟩ := py_bind_ok.1 hg
  obtain ⟨ps, -, hg⟩ := py_bind_ok.1 hg
  obtain ⟨prs, h3, hg⟩ := py_bind_ok.1 hg
  rw [py_pure_ok] at hg
  cases hg
  rw [mapM_ok] at h3
  refine h.values hpd (List.forall₂_map_right_iff.2 (h3.imp fun p a hp => ?_))
  obtain ⟨v, hv, hp⟩ := py_bind_ok.1 hp
  unfold Param.getParameter at hp
  obtain ⟨q, hq, hp⟩ := py_bind_ok.1 hp
  rw [py_pure_ok] at hp
  exact ⟨v, hv, by rw [← hp]; exact hq⟩

/-- values that are within the limits are not changed again -/
theorem ParameterValues.again {x vals x0 vals' : List ℝ} (h : ParameterValues pd rd x vals) (h0 : StartsAt pd vals x0)
    (h' : ParameterValues pd rd x0 vals') : vals' = vals := by
  refine List.ext_getElem? fun i => ?_
  rcases hi : rd[i]? with _ | d
  · have hl : rd.length ≤ i := List.getElem?_eq_none_iff.1 hi
    rw [List.getElem?_eq_none_iff.2 (by rw [h'.1]; exact hl), List.getElem?_eq_none_iff.2 (by rw [h.1]; exact hl)]
  · obtain ⟨y, -, e1⟩ := h.2 i d hi
    obtain ⟨z, e2, e3⟩ := h'.2 i d hi
    rw [h0, List.getElem?_append_right (by simp), List.length_replicate, Nat.add_sub_cancel_left, e1] at e2
    cases e2
    rw [e3, e1]
    congr 1
    rcases le_total d.lower d.upper with hlu | hlu
    · rw [max_eq_right (le_min (le_max_left _ _) hlu), min_eq_left (min_le_right _ _)]
    · rw [min_eq_right (hlu.trans (le_max_left _ _)), min_eq_right (hlu.trans (le_max_left _ _))]

end

section
variable {F : Type}
variable [Add F] [Sub F] [Mul F] [Div F] [Neg F] [Zero F] [One F] [NatCast F] [LE F] [LT F] [DecidableLE F]
  [DecidableLT F] [FloatOrder F]
variable {M : MathFns ℝ} {pd : List (PulseDict ℝ)} {td : List (TimeDict ℝ)} {rd : List (ParamDict ℝ)} {T : String → ℝ}
variable {sqrt : ℝ → ℝ} {rnd : ℕ → ℕ → List ℝ} {draws : ℕ → Vec ℝ (searchDim pd rd)}
variable {cfg : AlgCfg ℝ F} {env : Env (Vec ℝ (searchDim pd rd)) (ControlsOut ℝ) F}

/-- the run for any description of the searches -/
theorem drift_run (hM : M.Standard) (hpd : ∀ d ∈ pd, DcrabPulse d) (hu : Usable pd td rd) (hT : DurationsAre td T)
    (hr : ∀ k, EnoughRandom pd (rnd k)) (hk : cfg.kind = .dcrab) (hre : cfg.reEval = none) (hdr : cfg.driftAfterSI = true)
    {dsm : Dsm ℝ (Vec ℝ (searchDim pd rd)) F} (hd : LibrarySearch dsm) {o : Controls ℝ} (ho : mkControls M pd td rd = .ok o)
    {Search : ℕ → Vec ℝ (searchDim pd rd) → Vec ℝ (searchDim pd rd) → List (Call (Vec ℝ (searchDim pd rd)) (ControlsOut ℝ) F) → Prop}
    (hS : ∀ k x0 sizes sim calls, StartSizes pd rd (List.ofFn sizes) → simplexCreation sqrt x0 sizes (draws k) = .ok sim →
      (dsm k x0 sim sizes).Made (StopLaws cfg.sc.maxEval) (dirMul cfg.maximize) calls → Search k x0 sizes calls) :
    DriftRun cfg pd rd T rnd Search cfg.maxSI 1 (pd.map fun d => List.replicate d.binsNumber 0) (rd.map (·.initialValue)) cfg.fomMax
      (execute cfg env (systemOps .dcrab M sqrt rnd draws) dsm o).2.log
      (execute cfg env (systemOps .dcrab M sqrt rnd draws) dsm o).2.bestFoM := by
  obtain ⟨o', h1, h2⟩ := mkControls_exists (M := M) hu
  obtain rfl : o' = o := by rw [ho] at h1; cases h1; rfl
  have hK := system_kept (M := M) (sqrt := sqrt) (draws := draws) hu hr
  have hF := system_faultless (M := M) (kind := .dcrab) hu (by simp) sqrt hr draws
  have hV : KeepsView (systemOps .dcrab M sqrt rnd draws) (Ready M pd td rd) dcrabView :=
    ⟨fun o x o' c h hg => ⟨hK.get o x o' c h hg, (h.shows hM hpd hu hT (system_get hg)).1⟩,
      fun k o o' h hg => hK.select o k o' h hg, fun o x o' h hg => hK.base o x o' h hg⟩
  -- the object during the measurements
  have start : ∀ {a : Controls ℝ} {x : Vec ℝ (searchDim pd rd)}, Ready M pd td rd a → (systemOps .dcrab M sqrt rnd draws).mean a = .ok x →
      StartsAt pd (a.params.map (·.value)) (List.ofFn x) ∧ NoUpdate pd (List.ofFn x) := by
    intro a x hR hm
    obtain ⟨l, hl, hv⟩ := py_bind_ok.1 (show (do vecOfList _ (← a.mean)) = .ok x from hm)
    rw [vecOfList_ofFn hv]
    exact ⟨hR.starts hpd hl, hR.mean_zero hpd hl⟩
  have hC : KeepsStart (systemOps .dcrab M sqrt rnd draws) (Ready M pd td rd)
      (fun o => Ready M pd td rd o ∧ ∃ x, ParameterValues pd rd x (o.params.map (·.value)))
      (fun o a => Ready M pd td rd a ∧ dcrabView a = dcrabView o ∧ a.params.map (·.value) = o.params.map (·.value)) := by
    refine ⟨fun o h => ⟨h, rfl, rfl⟩, fun o a h => h.1, ?_, fun o x o' h hg => ?_⟩
    · rintro o a x a' c ⟨hR, y, hP⟩ hm ⟨i1, i2, i3⟩ hg
      refine ⟨hK.get _ _ _ _ i1 hg, ((hV.get _ _ _ _ i1 hg).2).trans i2, ?_⟩
      exact hP.again (start hR hm).1 (i1.get_parameters hpd (system_get hg))
    · exact ⟨hK.base _ _ _ h hg, List.ofFn x, h.next_parameters hpd (show o.updateBase M (List.ofFn x) = .ok o' from hg)⟩
  have hnd : ∀ i x sim sg, (dsm i x sim sg).NoDrift := (hd.noDrift (cfg := { cfg with driftAfterSI := false }) rfl).2
  have hQ : Searches cfg env (systemOps .dcrab M sqrt rnd draws) dsm (MadeBy cfg (systemOps .dcrab M sqrt rnd draws) dsm) := by
    have := searches_made (cfg := { cfg with driftAfterSI := false }) (env := env) (ops := systemOps .dcrab M sqrt rnd draws)
      (by show cfg.kind ≠ .grape; rw [hk]; decide) hre dsm ⟨rfl, hnd⟩
    intro s
    have e : dsmBuild { cfg with driftAfterSI := false } env (systemOps .dcrab M sqrt rnd draws) dsm s =
        dsmBuild cfg env (systemOps .dcrab M sqrt rnd draws) dsm s := by
      unfold dsmBuild
      rw [handler_drift]
    rw [← e]
    exact this s
  obtain ⟨fin, hst, -⟩ := execute_dstages (env := env) hk hV hC hre hdr dsm hnd hQ h2
  have hbase := mkControls_start ho
  rw [← hbase.1, ← hbase.2]
  have shows : ∀ {o1 : Controls ℝ} {c : Call (Vec ℝ (searchDim pd rd)) (ControlsOut ℝ) F},
      BuiltBy (systemOps .dcrab M sqrt rnd draws) (fun o' => Ready M pd td rd o' ∧ dcrabView o' = dcrabView o1) c.vec c.ctl →
      CallShows pd T (o1.pulses.map (·.w)) (o1.pulses.map (·.basePulse)) (List.ofFn c.vec) c.ctl ∧
        ParameterValues pd rd (List.ofFn c.vec) c.ctl.parameters := by
    rintro o1 c ⟨a, b, ⟨ha, hv⟩, hg⟩
    rw [← (dcrabView_split hv).1, ← (dcrabView_split hv).2]
    exact ⟨(ha.shows hM hpd hu hT (system_get hg)).2, ha.shows_parameters hpd (system_get hg)⟩
  have comps : ∀ {o0 : Controls ℝ} {comp : List (Call (Vec ℝ (searchDim pd rd)) (ControlsOut ℝ) F)}, Ready M pd td rd o0 →
      (∀ c ∈ comp, CompCall (systemOps .dcrab M sqrt rnd draws)
        (fun o a => Ready M pd td rd a ∧ dcrabView a = dcrabView o ∧ a.params.map (·.value) = o.params.map (·.value)) o0 c) →
      ∀ c ∈ comp, ShowsStart pd rd T (o0.pulses.map (·.basePulse)) (o0.params.map (·.value)) c := by
    intro o0 comp hR h c hc
    obtain ⟨hm, a, b, ⟨i1, i2, i3⟩, hg⟩ := h c hc
    have := shows (o1 := o0) ⟨a, b, ⟨i1, i2⟩, hg⟩
    exact ⟨(start hR hm).1, (start hR hm).2, ⟨_, this.1⟩, this.2⟩
  have search : ∀ {o1 : Controls ℝ} {k : ℕ} {calls}, Ready M pd td rd o1 →
      MadeBy cfg (systemOps .dcrab M sqrt rnd draws) dsm k o1 calls → ∃ x0 sizes, (systemOps .dcrab M sqrt rnd draws).mean o1 = .ok x0 ∧
        StartsAt pd (o1.params.map (·.value)) (List.ofFn x0) ∧ StartSizes pd rd (List.ofFn sizes) ∧ Search k x0 sizes calls := by
    intro o1 k calls hR hq
    obtain ⟨x0, e1⟩ := hF.mean o1 hR
    obtain ⟨sg, e2⟩ := hF.sigma o1 hR
    obtain ⟨sim, e3, -⟩ := hF.simplex k x0 sg
    obtain ⟨l', hl', hv'⟩ := py_bind_ok.1 (show (do vecOfList _ (← o1.sigma)) = .ok sg from e2)
    have hsz : StartSizes pd rd (List.ofFn sg) := by rw [vecOfList_ofFn hv']; exact hR.sizes hM hpd hT hl'
    exact ⟨x0, sg, e1, (start hR e1).1, hsz, hS k x0 sg sim calls hsz e3 (hq _ _ _ e1 e2 e3)⟩
  generalize (execute cfg env (systemOps .dcrab M sqrt rnd draws) dsm o').2.log = log at hst
  generalize (execute cfg env (systemOps .dcrab M sqrt rnd draws) dsm o').2.bestFoM = bEnd at hst
  generalize cfg.fomMax = bStart at hst
  generalize cfg.maxSI = m at hst
  generalize 1 = k at hst
  clear ho h1 hbase
  -- the start of a search after the measurements
  have begins : ∀ {o0 a o1 : Controls ℝ} {k : ℕ} {calls} {x0 : Vec ℝ (searchDim pd rd)}, Ready M pd td rd a ∧ dcrabView a = dcrabView o0 ∧
      a.params.map (·.value) = o0.params.map (·.value) → (systemOps .dcrab M sqrt rnd draws).selectBasis k a = .ok o1 →
      (systemOps .dcrab M sqrt rnd draws).mean o1 = .ok x0 → MadeBy cfg (systemOps .dcrab M sqrt rnd draws) dsm k o1 calls →
      Ready M pd td rd o1 ∧ NewFrequencies pd (rnd k) (o1.pulses.map (·.w)) ∧ o1.pulses.map (·.basePulse) = o0.pulses.map (·.basePulse) ∧
        StartsAt pd (o0.params.map (·.value)) (List.ofFn x0) ∧ ∃ sizes, StartSizes pd rd (List.ofFn sizes) ∧ Search k x0 sizes calls := by
    rintro o0 a o1 k calls x0 ⟨i1, i2, i3⟩ hs hm hq
    obtain ⟨k1, k2⟩ := i1.drawn hpd hs
    have r1 := hV.select _ _ _ i1 hs
    obtain ⟨x0', sg, hm', a1, a2, a3⟩ := search r1 hq
    obtain rfl : x0' = x0 := by rw [hm] at hm'; cases hm'; rfl
    rw [select_params (CInv.of_reach i1.reach) hs, i3] at a1
    exact ⟨r1, k1, k2.trans (dcrabView_split i2).2, a1, sg, a2, a3⟩
  induction hst with
  | stop => exact .stop _ _ _ _ _
  | ends => exact .stop _ _ _ _ _
  | broken b' hk2 hc hl => exact .broken _ hk2 (comps h2 hc) hl
  | last hc hb ha hs hm hcalls hq hkept =>
    obtain ⟨r1, e1, e2, e3, sg, e4, e5⟩ := begins ha hs hm hq
    refine .last _ _ _ _ sg _ (comps h2 hc) hb e1 e3 e4 e5 (fun c hc => ?_) hkept
    rw [← e2]
    exact shows (hcalls c hc)
  | @next n k o0 b comp calls rest bEnd fin a o1 oo o3 b1 b2 x0 x hc hb ha hs hm hcalls hq hkept ho2 hup hrest ih =>
    obtain ⟨r1, e1, e2, e3, sg, e4, e5⟩ := begins ha hs hm hq
    obtain ⟨v1, v2⟩ := dcrabView_split ho2.2
    have hn := ho2.1.next hM hpd hu hT (show oo.updateBase M (List.ofFn x) = .ok o3 from hup)
    rw [v1, v2, e2] at hn
    refine .next _ _ _ _ sg _ _ _ (comps h2 hc) hb e1 e3 e4 e5 (fun c hc => ?_) hkept hn
      (ho2.1.next_parameters hpd (show oo.updateBase M (List.ofFn x) = .ok o3 from hup)) (ih (hV.base _ _ _ ho2.1 hup))
    rw [← e2]
    exact shows (hcalls c hc)

end

section
variable {F : Type} [Field F] [LinearOrder F] [IsStrictOrderedRing F]
variable {M : MathFns ℝ} {pd : List (PulseDict ℝ)} {td : List (TimeDict ℝ)} {rd : List (ParamDict ℝ)} {T : String → ℝ}
variable {sqrt : ℝ → ℝ} {rnd : ℕ → ℕ → List ℝ} {draws : ℕ → Vec ℝ (searchDim pd rd)}
variable {cfg : AlgCfg ℝ F} {env : Env (Vec ℝ (searchDim pd rd)) (ControlsOut ℝ) F}

/-- **C115.** A dCRAB optimization with the Nelder-Mead method and drift compensation after every super-iteration, without re-evaluation, with a
usable dictionary as in C100: for all answers of the user's function, stop requests, clocks and random numbers (the first one of each start
simplex regular), every super-iteration except the first one begins with the given number of measurements of the current base pulses and
parameter values, without any update, and the average of their figures of merit is the value to beat in the following search. There are no
other measurements, and none before the first super-iteration; there are fewer only if the run ends with them. The searches and updates
are those of C112, but the kept update is the best one that beats the average (no update if none does). The reported figure of merit is the
value kept at the end, unless the run ends during the measurements. -/
theorem C115_nelder_mead (hM : M.Standard) (hpd : ∀ d ∈ pd, DcrabPulse d) (hu : Usable pd td rd) (hT : DurationsAre td T)
    (hr : ∀ k, EnoughRandom pd (rnd k)) (hk : cfg.kind = .dcrab) (hre : cfg.reEval = none) (hdr : cfg.driftAfterSI = true)
    {c : NmCfg ℝ F (searchDim pd rd)} (hc : c.driftMinutes = 0) (ha : IsArgsort c.argsort) (hreg : ∀ k, RegularDraw (draws k)) {fuel : ℕ}
    {o : Controls ℝ} (ho : mkControls M pd td rd = .ok o) :
    ∃ b, DriftRun cfg pd rd T rnd (fun _ => NelderMeadSearch cfg (if c.adaptive then NmRef.adaptive (searchDim pd rd) else NmRef.usual))
      cfg.maxSI 1 (pd.map fun d => List.replicate d.binsNumber 0) (rd.map (·.initialValue)) cfg.fomMax
      (execute cfg env (systemOps .dcrab M Real.sqrt rnd draws) (nelderMead c fuel) o).2.log b ∧
      finalFoM cfg (execute cfg env (systemOps .dcrab M Real.sqrt rnd draws) (nelderMead c fuel) o).2 = dirMul cfg.maximize b :=
  ⟨_, drift_run hM hpd hu hT hr hk hre hdr (.inl ⟨c, fuel, hc.le, rfl⟩) ho
    fun k x0 sizes sim calls hsz hsim hmade => nm_search hc ha (hreg k) hsim hmade, rfl⟩

/-- **C115.** The same with CMA-ES in each super-iteration. -/
theorem C115_cma_es (hM : M.Standard) (hpd : ∀ d ∈ pd, DcrabPulse d) (hu : Usable pd td rd) (hT : DurationsAre td T)
    (hr : ∀ k, EnoughRandom pd (rnd k)) (hk : cfg.kind = .dcrab) (hre : cfg.reEval = none) (hdr : cfg.driftAfterSI = true)
    (hap : ∀ d ∈ pd, d.amplitudeVariation ≠ 0) (har : ∀ d ∈ rd, d.amplitudeVariation ≠ 0)
    {lib : CmaLib ℝ F} (hl : lib.Genuine) (hpow : lib.pow = fun x y => x ^ y) (hsort : lib.Sorts) {p : Option ℝ} {L : ℕ} (h2 : 2 ≤ L)
    (hL : (L : ℤ) = match p with | some q => ⌊q⌋ | none => 4 + ⌊3 * Real.log (searchDim pd rd)⌋) {fuel : ℕ}
    {o : Controls ℝ} (ho : mkControls M pd td rd = .ok o) :
    ∃ b, DriftRun cfg pd rd T rnd (fun k => CmaSearch cfg L (lib.randnIn k))
      cfg.maxSI 1 (pd.map fun d => List.replicate d.binsNumber 0) (rd.map (·.initialValue)) cfg.fomMax
      (execute cfg env (systemOps .dcrab M sqrt rnd draws) (cmaes lib p fuel) o).2.log b ∧
      finalFoM cfg (execute cfg env (systemOps .dcrab M sqrt rnd draws) (cmaes lib p fuel) o).2 = dirMul cfg.maximize b := by
  refine ⟨_, drift_run hM hpd hu hT hr hk hre hdr (.inr ⟨lib, p, fuel, rfl⟩) ho ?_, rfl⟩
  intro k x0 sizes sim calls hsz hsim hmade
  obtain ⟨hn, hne⟩ := cma_start hap har hsz hsim
  exact cma_search hn hl hpow hsort hne h2 hL hmade

end

/-! ### Concrete cases -/

/-- The hypotheses of C115 hold for CMA-ES with population two, all random numbers and any user's function, with three measurements before
each super-iteration except the first one. -/
example (randn : {n : ℕ} → ℕ → Fin n → ℝ) (env : Env (Vec ℝ (searchDim exDcrabPd exDcrabRd)) (ControlsOut ℝ) ℝ) (sc : ScCfg ℝ ℝ)
    (draws : ℕ → Vec ℝ (searchDim exDcrabPd exDcrabRd)) : ∃ o, mkControls standardFns exDcrabPd exDcrabTd exDcrabRd = .ok o ∧
    ∃ b, DriftRun { exDcrabCfgR sc with driftAfterSI := true, driftAverage := 3 } exDcrabPd exDcrabRd (fun _ => 2)
      (fun k _ => [1 / (k + 2), 1 / (k + 3)])
      (fun _ => CmaSearch { exDcrabCfgR sc with driftAfterSI := true, driftAverage := 3 } 2 randn) 3 1 [[0, 0, 0], [0, 0, 0]] [0] 10000000000
      (execute { exDcrabCfgR sc with driftAfterSI := true, driftAverage := 3 } env
        (systemOps .dcrab standardFns Real.sqrt (fun k _ => [1 / (k + 2), 1 / (k + 3)]) draws) (cmaes (realLib randn) (some 2) 5) o).2.log b := by
  obtain ⟨o, ho, _⟩ := mkControls_exists (M := standardFns) exDcrab_usable
  obtain ⟨b, h, -⟩ := C115_cma_es (cfg := { exDcrabCfgR sc with driftAfterSI := true, driftAverage := 3 }) (env := env) (sqrt := Real.sqrt)
    (rnd := fun k _ => [1 / (k + 2), 1 / (k + 3)]) (draws := draws) (lib := realLib randn) (p := some 2) (fuel := 5)
    (L := 2) standardFns_standard exDcrab_pulses exDcrab_usable exDcrab_durations exDcrab_random rfl rfl rfl
    (fun d hd => by
      simp only [exDcrabPd, List.mem_cons, List.not_mem_nil, or_false] at hd
      rcases hd with rfl | rfl <;> simp [exBasisPulse])
    (fun d hd => by rw [List.mem_singleton.1 hd]; norm_num) (realLib_genuine randn).1 rfl (realLib_genuine randn).2 le_rfl
    (by show ((2 : ℕ) : ℤ) = ⌊(2 : ℝ)⌋; norm_num) ho
  exact ⟨o, ho, b, h⟩

/-- A run with two super-iterations of two calls and two measurements between them: the measurements return 4 and 10, the average 7 is beaten
by 6 in the second search. -/
example : (execute { exCfg .dcrab 100 false none none with driftAfterSI := true, driftAverage := 2, maxSI := 2 }
      (exEnv (exAns [5, 3, 4, 10, 6, 8]) (fun _ => .none)) exOps (exDsm [1, 2]) ()).2.log.map (fun c => c.value) =
      [some 5, some 3, some 4, some 10, some 6, some 8] ∧
    finalFoM { exCfg .dcrab 100 false none none with driftAfterSI := true, driftAverage := 2, maxSI := 2 }
      (execute { exCfg .dcrab 100 false none none with driftAfterSI := true, driftAverage := 2, maxSI := 2 }
        (exEnv (exAns [5, 3, 4, 10, 6, 8]) (fun _ => .none)) exOps (exDsm [1, 2]) ()).2 = 6 := by
  constructor <;> decide +kernel

end QuOCS

/-
Property C114: optimizations with automatic differentiation and several super-iterations.
-/
import Verif.Lemmas.AdSuper

set_option linter.unusedSectionVars false
set_option linter.unusedVariables false

namespace QuOCS

section
variable {M : MathFns ℝ} {pd : List (PulseDict ℝ)} {td : List (TimeDict ℝ)} {rd : List (ParamDict ℝ)} {T : String → ℝ}
variable {rnd : ℕ → ℕ → List ℝ} {u : ℕ → Vec ℝ (searchDim pd rd)}
variable {lib : AdLib (Vec ℝ (searchDim pd rd)) (ControlsOut ℝ) ℚ}
variable {cfg : AlgCfg ℚ ℚ} {env : Env (Vec ℝ (searchDim pd rd)) (ControlsOut ℝ) ℚ}

/-- what the rows of a call show -/
theorem Ready.rows (hM : M.Standard) (hpd : ∀ d ∈ pd, DcrabPulse d) (hu : Usable pd td rd) (hT : DurationsAre td T)
    {c c' : Controls ℝ} (h : Ready M pd td rd c) {x : Vec ℝ (searchDim pd rd)} {o : ControlsOut ℝ}
    (hg : (adOps M rnd).getControls c x = .ok (c', o)) : dcrabView c' = dcrabView c ∧
      RowsShow pd T (c.pulses.map (·.w)) (c.pulses.map (·.basePulse)) (List.ofFn x) o ∧ ParameterValues pd rd (List.ofFn x) o.parameters := by
  obtain ⟨o', e, rfl⟩ := (ad_get hu h).1 hg
  obtain ⟨h1, h2, h3⟩ := h.shows hM hpd hu hT e
  refine ⟨h1, ⟨?_, fun i d w b row hd hw hb hr => ?_⟩, by exact (h.shows_parameters hpd e : ParameterValues pd rd (List.ofFn x) o'.parameters)⟩
  · show (o'.pulses.map _).length = _
    rw [List.length_map]; exact h2
  · have hr : (o'.pulses.map fun v => v ++ List.replicate (width pd - v.length) 0)[i]? = some row := hr
    rw [List.getElem?_map] at hr
    obtain ⟨v, hv, rfl⟩ := Option.map_eq_some_iff.1 hr
    have := h3 i d w b v hd hw hb hv
    obtain ⟨up, k1, k2, k3⟩ := this
    exact ⟨v, by rw [k2], up, k1, k2, k3⟩

/-- what holds between the super-iterations -/
structure AdPoint (M : MathFns ℝ) (pd : List (PulseDict ℝ)) (td : List (TimeDict ℝ)) (rd : List (ParamDict ℝ)) (cfg : AlgCfg ℚ ℚ)
    (env : Env (Vec ℝ (searchDim pd rd)) (ControlsOut ℝ) ℚ) (s : AdState (Vec ℝ (searchDim pd rd)) (ControlsOut ℝ) (Controls ℝ) ℚ) : Prop where
  inv : AdInv cfg env s
  best : AdBest cfg s
  way : UnderwayOn cfg env (Ready M pd td rd) s.evals s.alg

theorem AdPoint.frame {s s' : AdState (Vec ℝ (searchDim pd rd)) (ControlsOut ℝ) (Controls ℝ) ℚ} (h : AdPoint M pd td rd cfg env s)
    (hc : Ready M pd td rd s'.alg.ctl) (h1 : s'.alg.log = s.alg.log) (h2 : s'.gradAt = s.gradAt) (h3 : s'.alg.iter = s.alg.iter)
    (h4 : s'.alg.bestFoM = s.alg.bestFoM) (h5 : s'.alg.bestXX = s.alg.bestXX) (h6 : s'.alg.running = s.alg.running) :
    AdPoint M pd td rd cfg env s' := by
  have hm : s'.marks = s.marks := by unfold AdState.marks; rw [h1, h2]
  have he : s'.evals = s.evals := by unfold AdState.evals; rw [hm]
  refine ⟨h.inv.frame h1 h2 h3.ge (by rw [h3]; exact h.inv.budget) h4, h.best.frame h1 h2 h5 h4, hc, ?_, ?_, ?_⟩
  · rw [h6, h3, he]; exact h.way.iter
  · rw [he, h4]; exact h.way.best
  · rw [he, h6]; exact h.way.halted

theorem adLoop_run (hM : M.Standard) (hpd : ∀ d ∈ pd, DcrabPulse d) (hu : Usable pd td rd) (hT : DurationsAre td T)
    (hr : ∀ k, EnoughRandom pd (rnd k)) (hk : cfg.kind = .grape)
    (hst : ∀ k m s, lib.start k m s = .ok fun i => m i + 2 * (1 / 2 - u k i) * s i)
    {search : Vec ℝ (searchDim pd rd) → AdMinimizer (Vec ℝ (searchDim pd rd)) ℚ} (hse : ∀ x, lib.search x = (search x).calls) (m k : ℕ)
    {s : AdState (Vec ℝ (searchDim pd rd)) (ControlsOut ℝ) (Controls ℝ) ℚ} (h : AdPoint M pd td rd cfg env s) :
    ∃ l, (adLoop lib cfg env (adOps M rnd) m k s).2.marks = s.marks ++ l ∧
      AdSuperIterations cfg env search lib.grad u pd rd T rnd m k (s.alg.ctl.pulses.map (·.basePulse)) (s.alg.ctl.params.map (·.value))
        s.marks l := by
  have hF := ad_faultless (M := M) (rnd := rnd) hu hr
  induction m generalizing k s with
  | zero => exact ⟨[], (List.append_nil _).symm, .stop _ _ _ _⟩
  | succ m ih =>
    obtain ⟨o1, e1, r1⟩ := hF.select k s.alg.ctl h.way.ctl
    obtain ⟨sg, e2⟩ := hF.sigma o1 r1
    obtain ⟨x0, e3⟩ := hF.mean o1 r1
    obtain ⟨k1, k2⟩ := h.way.ctl.drawn hpd (show s.alg.ctl.selectBasis (rnd k) = .ok o1 from e1)
    have hpar := select_params (CInv.of_reach h.way.ctl.reach) (show s.alg.ctl.selectBasis (rnd k) = .ok o1 from e1)
    obtain ⟨v0, hv0, hv0'⟩ := py_bind_ok.1 (show (do vecOfList _ (← o1.mean)) = .ok x0 from e3)
    obtain ⟨v1, hv1, hv1'⟩ := py_bind_ok.1 (show (do vecOfList _ (← o1.sigma)) = .ok sg from e2)
    have hstart : StartsAt pd (s.alg.ctl.params.map (·.value)) (List.ofFn x0) := by
      rw [vecOfList_ofFn hv0', ← hpar]; exact r1.starts hpd hv0
    have hsize : StartSizes pd rd (List.ofFn sg) := by rw [vecOfList_ofFn hv1']; exact r1.sizes hM hpd hT hv1
    set s1 : AdState (Vec ℝ (searchDim pd rd)) (ControlsOut ℝ) (Controls ℝ) ℚ := { s with alg := { s.alg with superIt := k, ctl := o1 } } with hs1
    have p1 : AdPoint M pd td rd cfg env s1 := h.frame r1 rfl rfl rfl rfl rfl rfl
    have hm1 : s1.marks = s.marks := rfl
    set st : AdMinimizer (Vec ℝ (searchDim pd rd)) ℚ := search fun i => x0 i + 2 * (1 / 2 - u k i) * sg i with hstd
    set I1 : Controls ℝ → Prop := fun o => Ready M pd td rd o ∧ dcrabView o = dcrabView o1 with hI1
    have hget : ∀ o (x : Vec ℝ (searchDim pd rd)), I1 o → ∃ o' c, (adOps M rnd).getControls o x = .ok (o', c) ∧ I1 o' ∧
        (RowsShow pd T (o1.pulses.map (·.w)) (s.alg.ctl.pulses.map (·.basePulse)) (List.ofFn x) c ∧
          ParameterValues pd rd (List.ofFn x) c.parameters) := by
      rintro o x ⟨ho, hv⟩
      obtain ⟨o', c, g1, g2⟩ := hF.get o x ho
      obtain ⟨g3, g4, g5⟩ := ho.rows hM hpd hu hT g1
      obtain ⟨w1, w2⟩ := dcrabView_split hv
      rw [w1, w2, k2] at g4
      exact ⟨o', c, g1, ⟨g2, g3.trans hv⟩, g4, g5⟩
    obtain ⟨l, hl, hruns, hend⟩ := AdMinimizer.runs_of_interp (lib := lib) (cfg := cfg) (env := env) hk hget st false (s := s1) p1.best.wf
      ⟨⟨r1, rfl⟩, p1.way.iter, p1.way.best, p1.way.halted⟩ (fun h => by cases h)
    obtain ⟨hmakes, hshow⟩ := hruns.makes
    rw [hm1] at hmakes hl
    have hinv : AdInv cfg env (st.calls.interp lib cfg env (adOps M rnd) s1).2 :=
      AD.always_interp (AdInv.always_value hk) AdInv.always_gradient _ _ p1.inv
    have hbst : AdBest cfg (st.calls.interp lib cfg env (adOps M rnd) s1).2 :=
      AD.always_interp (AdBest.always_value hk) AdBest.always_gradient _ _ p1.best
    have hsound := AdSound.interp (lib := lib) (cfg := cfg) (env := env) hF st s1 ⟨r1, fun hn => by
      rcases p1.best.best with ⟨_, e⟩ | ⟨c, _, f, _, e, _⟩
      · exact e
      · rw [hn] at e; cases e⟩
    have hrun : adLoop lib cfg env (adOps M rnd) (m + 1) k s =
        (st.calls.interp lib cfg env (adOps M rnd) >>= fun _ => onAlg (updateBasePulses (adOps M rnd)) >>= fun _ =>
          adLoop lib cfg env (adOps M rnd) m (k + 1)) s1 := by
      have inner : ∀ t : AdState (Vec ℝ (searchDim pd rd)) (ControlsOut ℝ) (Controls ℝ) ℚ, t.alg.ctl = o1 →
          adInnerRun lib cfg env (adOps M rnd) k t = st.calls.interp lib cfg env (adOps M rnd) t := by
        intro t ht
        unfold adInnerRun
        rw [Prog.get_bind, ht, e2, Prog.bind_apply, Prog.lift_apply]
        dsimp only
        rw [e3, Prog.bind_apply, Prog.lift_apply]
        dsimp only
        rw [hst, Prog.bind_apply, Prog.lift_apply]
        dsimp only
        rw [hse]
      conv_lhs => unfold adLoop adSuperIteration
      simp only [bind_assoc]
      rw [Prog.bind_ok (show onAlg (Prog.modify fun s : AlgState (Vec ℝ (searchDim pd rd)) (ControlsOut ℝ) (Controls ℝ) ℚ => { s with superIt := k }) s =
        (.ok (), { s with alg := { s.alg with superIt := k } }) from rfl), Prog.get_bind]
      rw [Prog.bind_ok (show Prog.lift ((adOps M rnd).selectBasis k s.alg.ctl) _ = (.ok o1, _) from by rw [Prog.lift_apply, e1])]
      rw [Prog.bind_ok (show onAlg (Prog.modify fun s : AlgState (Vec ℝ (searchDim pd rd)) (ControlsOut ℝ) (Controls ℝ) ℚ => { s with ctl := o1 })
        { s with alg := { s.alg with superIt := k } } = (.ok (), s1) from rfl)]
      rw [Prog.bind_apply, Prog.bind_apply, inner s1 rfl]
    rw [hrun, Prog.bind_apply]
    rcases hi : st.calls.interp lib cfg env (adOps M rnd) s1 with ⟨_ | a, s2⟩
    · rename_i e
      rw [hi] at hl hinv hsound
      refine ⟨l, hl, .last _ x0 sg k1 hstart hsize hmakes hshow ?_⟩
      rw [← hl]
      exact AdFails.reason hinv (hsound.2 e rfl)
    · rw [hi] at hl hinv hsound hbst hend
      have hway := hend rfl
      dsimp only at hl hinv hbst hway ⊢
      rw [Prog.bind_apply]
      rcases hx : s2.alg.bestXX with _ | x
      · have hup : onAlg (updateBasePulses (adOps M rnd)) s2 = (.error .attributeError, s2) := by
          unfold onAlg updateBasePulses
          simp only [hx]
        rw [hup]
        refine ⟨l, hl, .last _ x0 sg k1 hstart hsize hmakes hshow ?_⟩
        rw [← hl]
        refine AdFails.reason (e := .attributeError) hinv (.inr (.inr ⟨rfl, ?_⟩))
        rcases hbst.best with ⟨_, e⟩ | ⟨c, _, f, _, e, _⟩
        · exact e
        · rw [hx] at e; cases e
      · obtain ⟨o3, u1, u2⟩ := hF.update s2.alg.ctl x hway.ctl.1
        have hup : onAlg (updateBasePulses (adOps M rnd)) s2 = (.ok (), { s2 with alg := { s2.alg with ctl := o3, paraList := s2.alg.paraList ++ [x] } }) := by
          unfold onAlg updateBasePulses
          simp only [hx, u1]
        rw [hup]
        dsimp only
        have p2 : AdPoint M pd td rd cfg env s2 := ⟨hinv, hbst, hway.ctl.1, hway.iter, hway.best, hway.halted⟩
        obtain ⟨rest, j1, j2⟩ := ih (k + 1) (s := { s2 with alg := { s2.alg with ctl := o3, paraList := s2.alg.paraList ++ [x] } }) (p2.frame u2 rfl rfl rfl rfl rfl rfl)
        have hm3 : ({ s2 with alg := { s2.alg with ctl := o3, paraList := s2.alg.paraList ++ [x] } } : AdState (Vec ℝ (searchDim pd rd)) (ControlsOut ℝ) (Controls ℝ) ℚ).marks =
          s.marks ++ l := hl
        rw [hm3] at j1 j2
        have hn := hway.ctl.1.next hM hpd hu hT (show s2.alg.ctl.updateBase M (List.ofFn x) = .ok o3 from u1)
        obtain ⟨w1, w2⟩ := dcrabView_split hway.ctl.2
        rw [w1, w2, k2] at hn
        refine ⟨l ++ rest, by rw [j1, List.append_assoc], .next _ x0 sg x _ _ k1 hstart hsize hmakes hshow ?_ hn
          (hway.ctl.1.next_parameters hpd (show s2.alg.ctl.updateBase M (List.ofFn x) = .ok o3 from u1)) j2⟩
        rw [← hl]
        exact hbst.vector hinv hx

/-- **C114**, except that the included update is the best one of all super-iterations, not the one of this super-iteration (see
`C114_update_added_twice`). An optimization with automatic differentiation with a usable dictionary as in C100: pulses with a documented basis and default
shaping, fixed times. `rnd k i` and `u k` are the random numbers of super-iteration `k`. For all answers of the user's function, gradients,
stop requests and clocks, and for every search method `search` (which may ask for figures of merit and gradients in any order), the calls
are those of the declared number of super-iterations (fewer only after a call without figure of merit, Ctrl-C, or without any figure of merit
better than the start value), in each of which
* new frequencies are drawn,
* the search starts at coefficients zero and the current parameter values plus a random part of the start sizes, every call is made at the
  vector it asks for, and it gets the figure of merit (negated for a maximization) or the gradient for it,
* the rows of every call, also of those for gradients, show base pulse plus update, and the parameter values, of the vector,
and after which the update and the parameter values of the vector with the best figure of merit of all calls so far are included. -/
theorem C114_super_iterations_partial (hM : M.Standard) (hpd : ∀ d ∈ pd, DcrabPulse d) (hu : Usable pd td rd) (hT : DurationsAre td T)
    (hr : ∀ k, EnoughRandom pd (rnd k)) (hk : cfg.kind = .grape)
    (hst : ∀ k m s, lib.start k m s = .ok fun i => m i + 2 * (1 / 2 - u k i) * s i)
    {search : Vec ℝ (searchDim pd rd) → AdMinimizer (Vec ℝ (searchDim pd rd)) ℚ} (hse : ∀ x, lib.search x = (search x).calls)
    {o : Controls ℝ} (ho : mkControls M pd td rd = .ok o) :
    AdSuperIterations cfg env search lib.grad u pd rd T rnd cfg.maxSI 1 (pd.map fun d => List.replicate d.binsNumber 0)
      (rd.map (·.initialValue)) [] (adExecute lib cfg env (adOps M rnd) o).2.marked := by
  obtain ⟨o', h1, h2⟩ := mkControls_exists (M := M) hu
  obtain rfl : o' = o := by rw [ho] at h1; cases h1; rfl
  have hbase := mkControls_start ho
  have hc : adCfg cfg = cfg := by unfold adCfg; rw [← hk]
  obtain ⟨l, hl, hrun⟩ := adLoop_run (lib := lib) (cfg := cfg) (env := env) hM hpd hu hT hr hk hst hse cfg.maxSI 1
    (s := ⟨initState cfg env o', []⟩) ⟨⟨by simp, by simp [AdState.marks, initState], by simp [initState], le_rfl, by simp [AdState.marks, initState],
      .inl rfl, fun g hg a c b e => by simp [AdState.marks, initState] at e, fun a c b e => by simp [initState] at e⟩,
      ⟨by simp, .inl ⟨rfl, rfl⟩⟩, h2, fun _ => rfl, .inl rfl, fun h => by cases h⟩
  rw [← hbase.1, ← hbase.2]
  have e : (adExecute lib cfg env (adOps M rnd) o').2.marked = l := by
    unfold adExecute
    rw [hc]
    exact hl
  rw [e]
  exact hrun

end

/-! ### A concrete case -/

/-- The hypotheses of C114 hold for three super-iterations with two pulses (Fourier and sigmoid) and a parameter, a search that asks for two
figures of merit and a gradient, and any user's function. -/
example (env : Env (Vec ℝ (searchDim exDcrabPd exDcrabRd)) (ControlsOut ℝ) ℚ)
    (g : List (Call (Vec ℝ (searchDim exDcrabPd exDcrabRd)) (ControlsOut ℝ) ℚ) → Vec ℝ (searchDim exDcrabPd exDcrabRd) → Vec ℝ (searchDim exDcrabPd exDcrabRd))
    (u : ℕ → Vec ℝ (searchDim exDcrabPd exDcrabRd)) : ∃ o, mkControls standardFns exDcrabPd exDcrabTd exDcrabRd = .ok o ∧
    AdSuperIterations { exCfg .grape 100 true none none with maxSI := 3 } env
      (fun x => .value x fun _ => .gradient x fun y => .value (x - y) fun _ => .stop) g u exDcrabPd exDcrabRd (fun _ => 2)
      (fun k _ => [1 / (k + 2), 1 / (k + 3)]) 3 1 [[0, 0, 0], [0, 0, 0]] [0] []
      (adExecute (⟨g, fun k m s => .ok fun i => m i + 2 * (1 / 2 - u k i) * s i,
        fun x => .value x fun _ => .grad x fun y => .value (x - y) fun _ => .ret ()⟩ : AdLib _ _ ℚ) { exCfg .grape 100 true none none with maxSI := 3 } env
        (adOps standardFns (fun k _ => [1 / (k + 2), 1 / (k + 3)])) o).2.marked := by
  obtain ⟨o, ho, _⟩ := mkControls_exists (M := standardFns) exDcrab_usable
  exact ⟨o, ho, C114_super_iterations_partial (cfg := { exCfg .grape 100 true none none with maxSI := 3 }) (u := u)
    (lib := ⟨g, fun k m s => .ok fun i => m i + 2 * (1 / 2 - u k i) * s i,
      fun x => .value x fun _ => .grad x fun y => .value (x - y) fun _ => .ret ()⟩)
    (search := fun x => .value x fun _ => .gradient x fun y => .value (x - y) fun _ => .stop)
    standardFns_standard exDcrab_pulses exDcrab_usable exDcrab_durations exDcrab_random rfl (fun _ _ _ => rfl) (fun _ => rfl) ho⟩

set_option synthInstance.maxSize 1000 in
/-- **C114 is violated if a super-iteration finds nothing better** (ADAlgorithm.py:134-142; dCRAB starts each super-iteration with the mean
value as best vector, dCRABAlgorithm.py:206, this algorithm keeps the old one): the update of the first super-iteration, whose figure of
merit 3 remains the best one, is added once more after the second one, so the third one does not continue from the best controls `[1, 2]`. Its
calls for the update `[1, 2]` get `[3, 6]`, cut off at the limit 5, and not `[2, 4]` as in the second one. -/
theorem C114_update_added_twice : (adSiRun 3 [3, 9, 4, 9, 5, 9, 6, 9, 7, 9, 8, 9]).map (fun r => r.2.1.map fun c => c.2.1) = .ok
    [[[1, 2]], [[1, 2]], [[3, 1]], [[3, 1]], [[2, 4]], [[2, 4]], [[4, 3]], [[4, 3]], [[3, 5]], [[3, 5]], [[5, 5]], [[5, 5]]] := by
  decide +kernel

end QuOCS

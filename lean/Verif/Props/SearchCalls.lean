/-
Property C96, continued: the calls of a direct search are the ones the search method of the dictionary asks for.
-/
import Verif.Lemmas.FollowSearch
import Verif.Props.GrapeCalls

set_option linter.unusedSectionVars false
set_option linter.unusedVariables false

namespace QuOCS

variable {w : Surroundings} {d : PDict} {r : Outcome} {n : ℕ}

/-! ### Specification -/

/-- The algorithm in the dictionary is DirectSearch. -/
def IsDirectSearch (d : PDict) : Prop :=
  NoEntry (entry d ["algorithm_settings", "algorithm_attribute"]) ∧
    entry d ["algorithm_settings", "algorithm_name"] = some (.str "DirectSearch")

/-- The search method in the dictionary. -/
def SearchesWith (d : PDict) (name : String) : Prop :=
  entry d ["algorithm_settings", "dsm_settings", "general_settings", "dsm_name"] = none ∧
    entry d ["algorithm_settings", "dsm_settings", "general_settings", "dsm_algorithm_name"] = some (.str name)

/-- A dictionary without pulses, with `n` parameters: their initial values, start sizes and limits. -/
structure OnlyParameters (d : PDict) (x0 size lo hi : Vec ℚ n) : Prop where
  pulses : itemsAt d "pulses" = []
  number : (itemsAt d "parameters").length = n
  values : ∀ (i : Fin n) p, (itemsAt d "parameters")[i.val]? = some p → setting p ["initial_value"] (.num 1) = .num (x0 i) ∧
    setting p ["amplitude_variation"] (.num (1 / 10)) = .num (size i) ∧ setting p ["lower_limit"] (.num (1 / 10)) = .num (lo i) ∧
    setting p ["upper_limit"] (.num (11 / 10)) = .num (hi i)
  ordered : ∀ i, lo i ≤ hi i

/-- The user's function is called with the parameters `x`, brought into the limits. -/
def CallAt (lo hi x : Vec ℚ n) (c : ControlsOut ℚ) : Prop :=
  c.pulses = [] ∧ c.parameters = List.ofFn fun i => within (lo i) (hi i) (x i)

/-- The calls are the ones that the search asks for, in this order, each with the parameters in the limits. The search gets the figure of
merit of the latest call (negated for a maximization). A call without figure of merit is the last one. For the reason `E` fewer calls are
made. All other questions of the search (has it converged, what time is it, ...) can have any answer. -/
def Strat.Follows {α : Type} (d : PDict) (lo hi : Vec ℚ n) (E : Prop) : Strat ℚ (Vec ℚ n) ℚ α → List Seen → Prop
  | .ret _, calls => calls = []
  | .op (.eval _ _) _, [] => E
  | .op (.eval x _) k, c :: calls => CallAt lo hi x c.1 ∧ match c.value with
    | some f => ∀ v, ToMinimize d f v → (k v).Follows d lo hi E calls
    | none => calls = []
  | .op (.fail _) _, calls => calls = []
  | .op (.checkNM (.error _) _ _) k, calls => calls = [] ∨ (k ()).Follows d lo hi E calls
  | .op _ k, calls => ∃ answer, (k answer).Follows d lo hi E calls

/-! ### Proofs -/

theorem Strat.follows_of_runs {α : Type} {mx : Bool} (hmx : mx = true ↔ Maximizes d) {lo hi : Vec ℚ n} {E E' : Prop} (hE : E → E')
    (st : Strat ℚ (Vec ℚ n) ℚ α) (l : List (Call (Vec ℚ n) (ControlsOut ℚ) ℚ)) (h : st.Runs (dirMul mx) (CallAt lo hi) E l) :
    st.Follows d lo hi E' (l.map fun k => (k.ctl, k.ans)) := by
  induction st generalizing l with
  | ret a => cases (show l = [] from h); rfl
  | op o k ih =>
    cases o with
    | eval x it =>
      cases l with
      | nil => exact hE h
      | cons c cs =>
        unfold Strat.Runs at h
        simp only [List.map_cons]
        unfold Strat.Follows
        refine ⟨h.1, ?_⟩
        rw [seen_value]
        have h2 := h.2
        rcases hv : c.value with _ | f
        · rw [hv] at h2
          simpa using h2
        · rw [hv] at h2
          intro v hv'
          obtain rfl : v = dirMul mx f := by
            unfold dirMul
            split
            · exact hv'.1 (hmx.1 ‹_›)
            · exact hv'.2 fun h => absurd (hmx.2 h) ‹_›
          exact ih _ _ h2
    | fail e => cases (show l = [] from h); rfl
    | checkNM size fs m =>
      cases size with
      | error e =>
        rcases (show l = [] ∨ _ from h) with rfl | h
        · exact .inl rfl
        · exact .inr (ih _ _ h)
      | ok z => obtain ⟨a, h⟩ := h; exact ⟨a, ih _ _ h⟩
    | drift x it v => obtain ⟨a, h⟩ := h; exact ⟨a, ih _ _ h⟩
    | readConv => obtain ⟨a, h⟩ := h; exact ⟨a, ih _ _ h⟩
    | setConv b => obtain ⟨a, h⟩ := h; exact ⟨a, ih _ _ h⟩
    | callback => obtain ⟨a, h⟩ := h; exact ⟨a, ih _ _ h⟩
    | userStop => obtain ⟨a, h⟩ := h; exact ⟨a, ih _ _ h⟩
    | checkCMA fs m => obtain ⟨a, h⟩ := h; exact ⟨a, ih _ _ h⟩
    | now => obtain ⟨a, h⟩ := h; exact ⟨a, ih _ _ h⟩
    | reason => obtain ⟨a, h⟩ := h; exact ⟨a, ih _ _ h⟩

/-- the run of a direct search -/
theorem direct_search_run {cfg : AlgCfg ℚ ℚ} (hk : cfg.kind = .directSearch) (hre : cfg.reEval = none) {M : MathFns ℚ}
    {rd : List (ParamDict ℚ)} {td : List (TimeDict ℚ)} (hn : n = searchDim ([] : List (PulseDict ℚ)) rd) (hu : Usable ([] : List (PulseDict ℚ)) td rd)
    (hf : FixedTimes td) {x0 size lo hi : Vec ℚ n}
    (hv : ∀ (i : Fin n) x, rd[i.val]? = some x → x.initialValue = x0 i ∧ x.amplitudeVariation = size i ∧ x.lower = lo i ∧ x.upper = hi i)
    (hord : ∀ i, lo i ≤ hi i) {o : Controls ℚ} (hc : mkControls M [] td rd = .ok o) (sqrt : ℚ → ℚ) (rnd : ℕ → ℕ → List ℚ)
    (draws : ℕ → Vec ℚ n) (env : Env (Vec ℚ n) (ControlsOut ℚ) ℚ) (dsm : Dsm ℚ (Vec ℚ n) ℚ)
    (hd : ∀ i x sim sg, (dsm i x sim sg).NoDrift) :
    ∃ sim, simplexCreation sqrt x0 size (draws 0) = .ok sim ∧
    (dsm 0 x0 sim size).Runs (dirMul cfg.maximize) (CallAt lo hi)
      (Halted cfg env (execute cfg env (systemOps cfg.kind M sqrt rnd draws) dsm o).2.log)
      (execute cfg env (systemOps cfg.kind M sqrt rnd draws) dsm o).2.log ∧
    (dsm 0 x0 sim size).Gives (StopLaws cfg.sc.maxEval) (dirMul cfg.maximize) (CallAt lo hi)
      (execute cfg env (systemOps cfg.kind M sqrt rnd draws) dsm o).2.log := by
  have hlen : rd.length = n := by rw [hn]; simp [searchDim]
  have hdim : n ≠ 0 := by rw [hn]; exact hu.dim_pos.ne'
  obtain ⟨o', h1, h2⟩ := mkControls_exists (M := M) hu
  obtain rfl : o' = o := by rw [hc] at h1; cases h1; rfl
  have hvec : ∀ (g : ParamDict ℚ → ℚ) (y : Vec ℚ n), (∀ (i : Fin n) x, rd[i.val]? = some x → g x = y i) →
      vecOfList n (rd.map g) = .ok y := by
    intro g y hg
    unfold vecOfList
    rw [dif_pos (by simp [hlen])]
    congr 1
    funext i
    have hi : i.val < rd.length := by rw [hlen]; exact i.isLt
    show (rd.map g)[i.val]'(by simpa using hi) = _
    rw [List.getElem_map]
    exact hg i _ (List.getElem?_eq_getElem hi)
  have hmean : (systemOps cfg.kind M sqrt rnd draws).mean o' = .ok x0 := by
    show (do vecOfList n (← o'.mean)) = _
    rw [C21_initial_start_point hc]
    simp only [List.map_nil, List.sum_nil, zeros, List.replicate_zero, List.nil_append, bind, Except.bind]
    exact hvec _ _ fun i x hx => (hv i x hx).1
  have hsigma : (systemOps cfg.kind M sqrt rnd draws).sigma o' = .ok size := by
    show (do vecOfList n (← o'.sigma)) = _
    rw [C21_start_sizes_partial (.create hc) hf]
    simp only [List.map_nil, List.flatten_nil, List.nil_append, bind, Except.bind]
    exact hvec _ _ fun i x hx => (hv i x hx).2.1
  obtain ⟨sim, hsim⟩ : ∃ sim, simplexCreation sqrt x0 size (draws 0) = .ok sim := by
    unfold simplexCreation
    rw [if_neg hdim]
    exact ⟨_, rfl⟩
  have hI : ∀ c x, Ready M [] td rd c → ∃ c' u, (systemOps cfg.kind M sqrt rnd draws).getControls c x = .ok (c', u) ∧
      Ready M [] td rd c' ∧ CallAt lo hi x u := by
    intro c x hr
    obtain ⟨c', u, e1, e2⟩ := hr.get hu (x := List.ofFn x) (by simp [hn])
    have hp : u.pulses = [] := by
      obtain ⟨ts, _, _, e5, e6, _⟩ := getControls_parts e1
      rw [List.forall₂_nil_left_iff.1 (CInv.of_reach hr.reach).reach, List.forall₂_nil_left_iff] at e5
      have := congrArg List.length e5
      rw [List.length_zip, e6, min_self, List.length_nil] at this
      rw [← List.length_eq_zero_iff, e6, this]
    refine ⟨c', u, ?_, e2, hp, ?_⟩
    · show getControlsFor cfg.kind M c (List.ofFn x) = _
      unfold getControlsFor
      rw [e1]
      simp [hp, bind, Except.bind]
    · obtain ⟨k1, k2⟩ := C22_parameters_within_limits hr.reach e1
      apply List.ext_getElem
      · rw [k1, hlen]; simp
      · intro i i1 i2
        simp only [List.length_ofFn] at i2
        obtain ⟨y, v, m1, m2, m3, m4, m5, m6⟩ := k2 i rd[i] (List.getElem?_eq_getElem (by rw [hlen]; exact i2))
        obtain ⟨_, _, l1, l2⟩ := hv ⟨i, i2⟩ rd[i] (List.getElem?_eq_getElem (by rw [hlen]; exact i2))
        have hord' := hord ⟨i, i2⟩
        simp only [List.map_nil, List.sum_nil, zero_add] at m1
        rw [List.getElem?_eq_getElem (by simpa using i2)] at m1
        rw [List.getElem?_eq_getElem i1] at m2
        rw [Option.some.inj m2]
        simp only [List.getElem_ofFn, Option.some.injEq] at m1 ⊢
        rw [m1]
        rw [l1, l2] at m3 m4 m5
        rw [l2] at m6
        unfold within
        split
        · exact m5 hord' ‹_›
        · split
          · exact m6 ‹_›
          · exact m4 (not_lt.1 ‹_›) (not_lt.1 ‹_›)
  refine ⟨sim, hsim, ?_⟩
  have hU : Underway cfg env (Ready M [] td rd) { initState cfg env o' with bestXX := some x0 } :=
    ⟨h2, fun _ => rfl, .inl rfl, fun h => by cases h⟩
  obtain ⟨l, hl, hr⟩ := Strat.runs_of_interp (by rw [hk]; decide) hre hI (dsm 0 x0 sim size) (hd _ _ _ _) hU
  obtain ⟨l', hl', evs, m', e1, e2, l1, tail, g1, ⟨s1, g2⟩, g3⟩ :=
    Strat.gives_of_interp (by rw [hk]; decide) hre hI (dsm 0 x0 sim size) (hd _ _ _ _) hU
  obtain rfl : l = l' := List.append_cancel_left (hl.symm.trans hl')
  have hlog : (execute cfg env (systemOps cfg.kind M sqrt rnd draws) dsm o').2.log = l := by
    have hsim' : (systemOps cfg.kind M sqrt rnd draws).simplex 0 x0 size = .ok sim := hsim
    generalize systemOps cfg.kind M sqrt rnd draws = ops at hmean hsigma hsim' hl
    unfold execute run
    rw [hk]
    dsimp only
    unfold dsmBuild
    rw [Prog.get_bind, Prog.bind_apply, Prog.lift_apply]
    rw [show (initState cfg env o').ctl = o' from rfl, hmean]
    dsimp only
    rw [Prog.bind_apply, Prog.lift_apply, hsigma]
    dsimp only
    rw [Prog.bind_apply, Prog.lift_apply]
    rw [show ops.simplex (initState cfg env o').superIt x0 size = .ok sim from hsim']
    dsimp only
    rw [Prog.modify_bind, Prog.bind_apply]
    have hl' : (((dsm (initState cfg env o').superIt x0 sim size).interp (algHandler cfg env ops))
      { initState cfg env o' with bestXX := some x0 }).2.log = l := hl
    split
    · rename_i heq
      rw [heq] at hl'
      exact hl'
    · rename_i heq
      rw [heq] at hl'
      exact hl'
  rw [hlog]
  exact ⟨hr, evs, m', e1, e2, l1, tail, g1, g2.stopLaws, g3⟩

section
variable {s : SearchSettings} {cfg : AlgCfg ℚ ℚ} {dsm : Dsm ℚ (Vec ℚ s.vars) ℚ} {o : Controls ℚ}

theorem Parts.directSearch (h : Parts w d r s cfg dsm o) (hd : IsDirectSearch d) : s.kind = .directSearch ∧ UsesDirectSearch w.lib d s := by
  obtain ⟨c, h1, h2⟩ := h.created
  have := (create_use w.lib h1).algorithm
  rw [hd.2, h2] at this
  rcases h.search with ⟨hk, _⟩ | hk
  · exfalso
    rcases hd.1 with e | e <;> rw [e] at this <;>
    · simp only [chosen, Spec.resolve, Spec.target, Spec.builtin, text, AlgSettings.className, hk] at this
      simp at this
  · exact hk

theorem Parts.method (h : Parts w d r s cfg dsm o) (hd : IsDirectSearch d) {name : String} (hm : SearchesWith d name) :
    (name = "NelderMead" → s.method.method = .nelderMead) ∧ (name = "CMAES" → s.method.method = .cmaes) := by
  have hM := (h.directSearch hd).2.method
  have := hM.method (.inr hm.1)
  rw [hm.2] at this
  refine ⟨?_, ?_⟩
  · rintro rfl
    rcases hM.library with e | e
    · exact e
    · rw [e] at this
      simp [chosen, Spec.resolve, Spec.target, Spec.builtin, text, MethodName.moduleAndClass] at this
  · rintro rfl
    rcases hM.library with e | e
    · rw [e] at this
      simp [chosen, Spec.resolve, Spec.target, Spec.builtin, text, MethodName.moduleAndClass] at this
    · exact e

/-- the reasons to stop, in terms of the dictionary -/
theorem Parts.mayStop (h : Parts w d r s cfg dsm o) (hh : Halted cfg (w.env s.vars) (theRun w s cfg dsm o).2.log) : MayStop w d r.calls := by
  rcases hh with h' | h' | h' | ⟨t, ht, h'⟩ | ⟨k, hkm, b, hb1, hb2⟩
  · exact .inl h'
  · refine .inr (.inl ⟨_, h.uses.budget, ?_⟩)
    rw [h.calls, List.length_map]
    exact h'
  · exact .inr (.inr (.inl ⟨_, h.uses.timeLimit, h'⟩))
  · refine .inr (.inr (.inr (.inl ?_)))
    unfold AlgCfg.goal at ht
    rw [Option.map_eq_some_iff] at ht
    obtain ⟨g, hg, rfl⟩ := ht
    have hg' := (h.uses.goal g).2 hg
    rcases h' with h' | ⟨k, hkm, f, hv, hle⟩
    · have hst : IsStart d (dirMul cfg.maximize cfg.fomMax) := by
        rw [h.kind.2]
        unfold dirMul IsStart
        rw [← h.maximize]
        cases cfg.maximize <;> simp
      refine ⟨g, _, hg', .inl hst, ?_⟩
      rw [← h.better, ← dirMul_lt, dirMul_dirMul]
      exact not_lt.2 h'
    · refine ⟨g, f, hg', .inr ⟨(k.ctl, k.ans), ?_, (seen_value k).trans hv⟩, ?_⟩
      · rw [h.calls]; exact List.mem_map.2 ⟨k, hkm, rfl⟩
      · rw [← h.better, ← dirMul_lt]
        exact not_lt.2 hle
  · refine .inr (.inr (.inr (.inr ⟨(k.ctl, k.ans), ?_, b, hb1, hb2⟩)))
    rw [h.calls]; exact List.mem_map.2 ⟨k, hkm, rfl⟩

end

/-- the calls of a direct search, with the search method in the model -/
theorem direct_search_follows (h : optimize w d = some (.ok r)) (hp : PlainControls w.lib d) (hs : SingleMeasurements d) (hd : IsDirectSearch d)
    {x0 size lo hi : Vec ℚ n} (ho : OnlyParameters d x0 size lo hi) {name : String} (hm : SearchesWith d name) :
    ∃ sim, simplexCreation w.sqrt x0 size (w.draws 0) = .ok sim ∧ ∃ (s : SearchSettings) (cfg : AlgCfg ℚ ℚ) (dsm : Dsm ℚ (Vec ℚ n) ℚ),
      s.dsm w cfg n = some dsm ∧ RunUses w.lib d cfg ∧ UsesMethod w.lib true d s.method s.stop ∧
      (name = "NelderMead" → s.method.method = .nelderMead) ∧ (name = "CMAES" → s.method.method = .cmaes) ∧ cfg.driftMinutes = 0 ∧
      (dsm 0 x0 sim size).Follows d lo hi (MayStop w d r.calls) r.calls ∧ (cfg.maximize = true ↔ Maximizes d) ∧
      ∃ l : List (Call (Vec ℚ n) (ControlsOut ℚ) ℚ), r.calls = l.map (fun k => (k.ctl, k.ans)) ∧
        (dsm 0 x0 sim size).Gives (StopLaws cfg.sc.maxEval) (dirMul cfg.maximize) (CallAt lo hi) l := by
  obtain ⟨s, cfg, dsm, o, h⟩ := optimize_parts h
  obtain ⟨h1, h2, h3⟩ := h.single hs
  obtain ⟨hu, hf⟩ := usable_controls h.usesControls hp
  have hc := h.usesControls
  have e1 := hc.pulses
  rw [ho.pulses, List.forall₂_nil_left_iff] at e1
  have hlen : s.controls.params.length = n := by rw [← ho.number]; exact hc.params.length_eq.symm
  obtain rfl : n = s.vars := by
    show n = searchDim s.controls.pulses s.controls.params
    rw [e1, ← hlen]
    simp [searchDim]
  have hk : cfg.kind = .directSearch := h.kind.1.trans (h.directSearch hd).1
  have hctl := h.hcontrols
  rw [e1] at hctl hu
  have hvars : s.vars = searchDim ([] : List (PulseDict ℚ)) s.controls.params := by
    show searchDim s.controls.pulses s.controls.params = _
    rw [e1]
  obtain ⟨sim, k1, k2, k3⟩ := direct_search_run (cfg := cfg) hk h1 hvars hu hf (x0 := x0) (size := size) (lo := lo) (hi := hi)
    (fun i x hx => by
      obtain ⟨p, hpi, hU⟩ := forall2_back hc.params hx
      obtain ⟨v1, v2, v3, v4⟩ := ho.values i p hpi
      have a1 := hU.value; have a2 := hU.variation; have a3 := hU.lower; have a4 := hU.upper
      rw [v1] at a1; rw [v2] at a2; rw [v3] at a3; rw [v4] at a4
      exact ⟨a1.num, a2.num, a3.num, a4.num⟩) ho.ordered hctl w.sqrt w.rnd (w.draws (n := s.vars)) (w.env s.vars) dsm
    ((h.library h3.le).noDrift h2).2
  refine ⟨sim, k1, s, cfg, dsm, h.hdsm, h.uses, (h.directSearch hd).2.method, (h.method hd hm).1, (h.method hd hm).2, h3, ?_⟩
  have hms := h.mayStop
  rw [h.calls]
  rw [h.calls] at hms
  exact ⟨Strat.follows_of_runs h.maximize hms _ _ k2, h.maximize, _, rfl, k3⟩

/-- **C96.** A direct search over parameters with Nelder-Mead calls the user's function exactly for the vectors that Nelder-Mead asks for, with
the adaptive setting in the dictionary, from a start simplex around the initial values with the start sizes in the dictionary. Nelder-Mead
gets the figure of merit of each call with the right sign. The calls end when the search does, or for one of the documented reasons. -/
theorem C96_follows_nelder_mead (h : optimize w d = some (.ok r)) (hp : PlainControls w.lib d) (hs : SingleMeasurements d) (hd : IsDirectSearch d)
    {x0 size lo hi : Vec ℚ n} (ho : OnlyParameters d x0 size lo hi) (hm : SearchesWith d "NelderMead") {b : ℤ}
    (hb : entry d ["algorithm_settings", "max_eval_total"] = some (.num b)) {adaptive : Bool}
    (ha : adaptive = false ↔ IsFalse (setting d ["algorithm_settings", "dsm_settings", "general_settings", "is_adaptive"] (.bool false))) :
    ∃ sim, simplexCreation w.sqrt x0 size (w.draws 0) = .ok sim ∧
      (nelderMead { adaptive := adaptive, driftMinutes := 0, driftAverage := 1, argsort := w.num.argsort } (b.toNat + 2) 0 x0 sim size).Follows
        d lo hi (MayStop w d r.calls) r.calls := by
  obtain ⟨sim, h1, s, cfg, dsm, h2, h3, h4, h5, _, h6, h7, -⟩ := direct_search_follows h hp hs hd ho hm
  refine ⟨sim, h1, ?_⟩
  unfold SearchSettings.dsm at h2
  rw [h5 rfl] at h2
  obtain rfl := Option.some.inj h2
  have hbud : cfg.maxEvalTotal = b := by
    have := h3.budget
    unfold setting at this
    rw [hb] at this
    exact this.int
  have hav : cfg.driftAverage = 1 := by
    obtain ⟨z, hz, e⟩ := h3.average
    have hn : entry d ["algorithm_settings", "compensate_drift", "num_average"] = none := by
      have := hs.drift
      simp only [entry] at this ⊢
      rcases ha : d.get? "algorithm_settings" with _ | a
      · rfl
      · rw [ha] at this
        cases a <;> simp_all
    unfold setting at hz
    rw [hn] at hz
    have := PVal_num_inj hz
    have : z = 1 := by exact_mod_cast this.symm
    rw [e, this]
    rfl
  have had : truthy s.method.adaptive = adaptive := by
    rw [h4.adaptive]
    have := truthy_false_iff (setting d ["algorithm_settings", "dsm_settings", "general_settings", "is_adaptive"] (.bool false))
    rw [← ha] at this
    revert this
    cases truthy _ <;> cases adaptive <;> simp
  rw [hbud, h6, hav, had] at h7
  exact h7

/-- **C96.** The same with CMA-ES, with the population in the dictionary (`none` if there is no entry), from the initial values and with the
start sizes in the dictionary. -/
theorem C96_follows_cmaes (h : optimize w d = some (.ok r)) (hp : PlainControls w.lib d) (hs : SingleMeasurements d) (hd : IsDirectSearch d)
    {x0 size lo hi : Vec ℚ n} (ho : OnlyParameters d x0 size lo hi) (hm : SearchesWith d "CMAES") {b : ℤ}
    (hb : entry d ["algorithm_settings", "max_eval_total"] = some (.num b)) {population : Option ℚ}
    (ha : setting d ["algorithm_settings", "dsm_settings", "general_settings", "population"] .null = (population.map .num).getD .null) :
    (cmaes w.num population (b.toNat + 2) 0 x0 [] size).Follows d lo hi (MayStop w d r.calls) r.calls := by
  obtain ⟨sim, h1, s, cfg, dsm, h2, h3, h4, _, h5, h6, h7, -⟩ := direct_search_follows h hp hs hd ho hm
  unfold SearchSettings.dsm at h2
  rw [h5 rfl] at h2
  dsimp only at h2
  rw [h4.population (h5 rfl), ha] at h2
  have hbud : cfg.maxEvalTotal = b := by
    have := h3.budget
    unfold setting at this
    rw [hb] at this
    exact this.int
  rw [show ((population.map PVal.num).getD .null).goal? = some population by cases population <;> rfl, Option.map_some] at h2
  obtain rfl := Option.some.inj h2
  rw [hbud] at h7
  exact h7

/-! ### Concrete optimizations -/

/-- DirectSearch over one parameter with the method `name`, at most five evaluations, maximization -/
def exDirectProgram (name : String) : PDict :=
  exSettings [("algorithm_name", .str "DirectSearch"), ("max_eval_total", .num 5), ("optimization_direction", .str "maximization"),
    ("dsm_settings", .dict (mkDict [("general_settings", .dict (mkDict [("dsm_algorithm_name", .str name), ("population", .num 2)])),
      ("stopping_criteria", .dict (mkDict []))]))]
    [] [exParam [("initial_value", .num (1 / 3)), ("upper_limit", .num 2)]] []

/-- the figure of merit is the sum of the parameters -/
def exParamAround : Surroundings :=
  { exAround 0 with user := fun _ c => .ok ⟨some c.parameters.sum, none, none⟩, draws := fun _ i => 1 / (2 + i.val) }

/-- the parameters and figures of merit of the calls -/
def paramsOf : Option (Py Outcome) → List (List ℚ × Option ℚ)
  | some (.ok r) => r.calls.map fun c => (c.1.parameters, c.value)
  | _ => []

set_option synthInstance.maxSize 1000 in
/-- Nelder-Mead: the start point, the other vertex, and three steps; the parameter is kept at its upper limit. -/
theorem exDirectProgram_nelder_mead : paramsOf (optimize exParamAround (exDirectProgram "NelderMead")) =
    [([1 / 3], some (1 / 3)), ([5 / 6], some (5 / 6)), ([4 / 3], some (4 / 3)), ([11 / 6], some (11 / 6)), ([2], some 2)] := by
  decide +kernel

set_option synthInstance.maxSize 1000 in
/-- CMA-ES: two generations of two individuals and one of the next one. -/
theorem exDirectProgram_cmaes : paramsOf (optimize exParamAround (exDirectProgram "CMAES")) =
    [([1 / 3], some (1 / 3)), ([5 / 6], some (5 / 6)),
     ([629966320037586727 / 478555047628001400], some (629966320037586727 / 478555047628001400)),
     ([1491103087089425681 / 957110095256002800], some (1491103087089425681 / 957110095256002800)), ([2], some 2)] := by
  decide +kernel

theorem exDirectProgram_meets (lib : PyLib) (name : String) : PlainControls lib (exDirectProgram name) ∧ SingleMeasurements (exDirectProgram name) ∧
    IsDirectSearch (exDirectProgram name) ∧ OnlyParameters (exDirectProgram name) ![1 / 3] ![1 / 2] ![-1] ![2] ∧
    SearchesWith (exDirectProgram name) name := by
  have hq : itemsAt (exDirectProgram name) "parameters" = [mkDict [("parameter_name", .str "a"), ("lower_limit", .num (-1)),
      ("amplitude_variation", .num (1 / 2)), ("initial_value", .num (1 / 3)), ("upper_limit", .num 2)]] := rfl
  refine ⟨⟨.inr (by rw [hq]; simp), fun p h => ?_, fun t h => ?_⟩, ⟨rfl, rfl⟩, ⟨.inl rfl, rfl⟩, ⟨rfl, rfl, fun i p h => ?_, ?_⟩, rfl, rfl⟩
  · cases h
  · cases h
  · rw [hq] at h
    fin_cases i
    · cases h; exact ⟨rfl, rfl, rfl, rfl⟩
  · intro i; fin_cases i <;> norm_num

/-- The hypotheses of both theorems are met by these optimizations. -/
example {w : Surroundings} {r : Outcome} (h : optimize w (exDirectProgram "CMAES") = some (.ok r)) :
    (cmaes w.num (some 2) 7 0 ![1 / 3] [] ![1 / 2]).Follows (exDirectProgram "CMAES") ![-1] ![2]
      (MayStop w (exDirectProgram "CMAES") r.calls) r.calls :=
  have ⟨h1, h2, h3, h4, h5⟩ := exDirectProgram_meets w.lib "CMAES"
  C96_follows_cmaes h h1 h2 h3 h4 h5 (b := 5) rfl (population := some 2) rfl

example {w : Surroundings} {r : Outcome} (h : optimize w (exDirectProgram "NelderMead") = some (.ok r)) :
    ∃ sim, simplexCreation w.sqrt ![1 / 3] ![1 / 2] (w.draws 0) = .ok sim ∧
      (nelderMead { adaptive := false, driftMinutes := 0, driftAverage := 1, argsort := w.num.argsort } 7 0 ![1 / 3] sim
        ![1 / 2]).Follows (exDirectProgram "NelderMead") ![-1] ![2]
          (MayStop w (exDirectProgram "NelderMead") r.calls) r.calls :=
  have ⟨h1, h2, h3, h4, h5⟩ := exDirectProgram_meets w.lib "NelderMead"
  C96_follows_nelder_mead h h1 h2 h3 h4 h5 (b := 5) rfl (adaptive := false) ⟨fun _ => .inr (.inl rfl), fun _ => rfl⟩

end QuOCS

/-
Property C98, continued: the calls of a GRAPE optimization are the ones L-BFGS-B asks for.
-/
import Verif.Lemmas.Follow
import Verif.Props.ProgramGrape
import Verif.Props.Controls

set_option linter.unusedSectionVars false
set_option linter.unusedVariables false

namespace QuOCS

variable {w : Surroundings} {L : GrapeLib} {d : PDict} {r : Outcome}

/-! ### Specification -/

/-- A dictionary with one pulse, which is piecewise constant with `n` bins, limits `lo` and `hi` and the start size `a`, default shaping
and no guess or scaling, and without parameters. -/
structure OnePiecewise (d : PDict) (n : ℕ) (lo hi a : ℚ) : Prop where
  pulse : ∃ p, itemsAt d "pulses" = [p] ∧ PiecewisePulse p ∧ setting p ["bins_number"] (.num 101) = .num n ∧
    setting p ["lower_limit"] (.num 0) = .num lo ∧ setting p ["upper_limit"] (.num 1) = .num hi ∧
    setting p ["amplitude_variation"] (.num 1) = .num a ∧ IsFalse (setting p ["shrink_ampl_lim"] (.bool false)) ∧
    NoEntry (entry p ["shaping_options"]) ∧ NoEntry (entry p ["initial_guess"]) ∧ NoEntry (entry p ["scaling_function"])
  params : itemsAt d "parameters" = []
  ordered : lo ≤ hi

/-- `v` brought into the limits -/
def within (lo hi v : ℚ) : ℚ := if v < lo then lo else if hi < v then hi else v

/-- The user's function is called with one pulse: the vector `x`, added to the zero pulse (as far as the limits allow it), within the
limits. -/
def CallFor {n : ℕ} (lo hi : ℚ) (x : Vec ℚ n) (c : ControlsOut ℚ) : Prop :=
  c.pulses = [List.ofFn fun i => within lo hi (within lo hi 0 + x i)] ∧ c.parameters = []

/-- The figure of merit as seen by a minimization. -/
def ToMinimize (d : PDict) (f v : ℚ) : Prop := (Maximizes d → v = -f) ∧ (¬ Maximizes d → v = f)

/-- The calls are the ones that `m` asks for, in this order; `Shows x c` says that the controls `c` are those of the vector `x`. `m` gets the figure
of merit of the latest call (negated for a maximization) and the gradient. A call without figure of merit is the last one. Only for the reason
`E` fewer calls are made. -/
def Minimizer.Follows {n : ℕ} (d : PDict) (Shows : Vec ℚ n → ControlsOut ℚ → Prop) (g : Vec ℚ n → Vec ℚ n) (E : Prop) :
    Minimizer (Vec ℚ n) ℚ → List Seen → Prop
  | .stop, calls => calls = []
  | .ask _ _, [] => E
  | .ask x k, c :: calls => Shows x c.1 ∧ match c.value with
    | some f => ∀ v, ToMinimize d f v → (k v (g x)).Follows d Shows g E calls
    | none => calls = []

/-- The reasons to stop: a user interrupt, the budget of evaluations, a time limit, a reached goal, or a call that asked to stop. -/
def MayStop (w : Surroundings) (d : PDict) (calls : List Seen) : Prop :=
  (∃ n, w.async n ≠ .none) ∨
  (∃ b, IsInt w.lib (setting d ["algorithm_settings", "max_eval_total"] (.num (10 ^ 10))) b ∧ b ≤ calls.length) ∨
  (∃ t, setting d ["algorithm_settings", "total_time_lim"] (.num (10 ^ 10)) = .num t ∧ t < 10 ^ 10) ∨
  (∃ g v, setting d ["algorithm_settings", "FoM_goal"] .null = .num g ∧ (IsStart d v ∨ ∃ c ∈ calls, c.value = some v) ∧
    ¬ BetterFor d g v) ∨
  ∃ c ∈ calls, ∃ a, c.2 = .ok a ∧ a.status.getD 0 ≠ 0

/-! ### The controls -/

theorem cut_within {lo hi v : ℚ} (h : lo ≤ hi) : cutSample (min lo hi) (max lo hi) v = within lo hi v := by
  rw [min_eq_left h, max_eq_right h]
  unfold cutSample within
  split
  · rename_i h1
    rw [min_eq_left (h1.le.trans h), max_eq_right h1.le]
  · rename_i h1
    split
    · rename_i h2
      rw [min_eq_right h2.le, max_eq_left h]
    · rename_i h2
      rw [min_eq_left (not_lt.1 h2), max_eq_left (not_lt.1 h1)]

section
variable {M : MathFns ℚ} {pd : PulseDict ℚ}

/-- the delivered pulse -/
theorem plain_piecewise_pulse {p q : Pulse ℚ} {v u : List ℚ} {T : ℚ} (hr : PulseReach M pd p) (hb : pd.basis = .piecewise)
    (ho : pd.shapingOptions = none) (hs : pd.shrink = false) (hord : pd.lowerLimit ≤ pd.upperLimit)
    (hgu : ∃ f, pd.guess = .callable f ∧ ∀ t, f t = t.map fun _ => 0)
    (hsc : ∃ f, pd.scaling = .callable f ∧ ∀ t, f t = t.map fun _ => 1)
    (hz : p.basePulse = zeros pd.binsNumber) (hv : v.length = pd.binsNumber) (h : p.getPulse M v T = .ok (q, u)) :
    q.basePulse = p.basePulse ∧
      u = v.map fun y => within pd.lowerLimit pd.upperLimit (within pd.lowerLimit pd.upperLimit 0 + y) := by
  obtain ⟨hlo, hup, hsh, hshape, hbins, hscal, hguess, _, hbas⟩ := hr.fields
  obtain ⟨fg, hg1, hg2⟩ := hgu
  obtain ⟨fs, hs1, hs2⟩ := hsc
  unfold Pulse.getPulse at h
  obtain ⟨u', hb', h⟩ := py_bind_ok.1 h
  cases h
  refine ⟨rfl, ?_⟩
  set p' := p.setInputs v T with hp'
  have hlim : ∀ w, p'.limited w = .ok (w.map (within pd.lowerLimit pd.upperLimit)) := by
    intro w
    unfold Pulse.limited
    rw [show p'.shrink = false from hsh.trans hs]
    show Except.ok (w.map (cutSample p.lower p.upper)) = _
    rw [hlo, hup]
    congr 2
    funext y
    exact cut_within hord
  have hgrid : p'.timeGrid.length = pd.binsNumber := by
    show (linspace0 T p.binsNumber).length = _
    rw [linspace0_length, hbins]
  have a1 : p'.applyStep M (zeros p'.binsNumber) .addInitialGuess = .ok (List.replicate pd.binsNumber (within pd.lowerLimit pd.upperLimit 0)) := by
    simp only [Pulse.applyStep, Pulse.addInitialGuess, Pulse.initialGuess]
    rw [show p'.guess = .callable fg from hguess.trans hg1]
    simp only [hlim, bind, Except.bind]
    rw [show p'.binsNumber = pd.binsNumber from hbins, bop_eq (by simp [hg2, hgrid, zeros]), hg2]
    congr 1
    apply List.ext_getElem
    · simp [hgrid, zeros]
    · intro i h1 h2
      simp [zeros]
  have a2 : p'.applyStep M (List.replicate pd.binsNumber (within pd.lowerLimit pd.upperLimit 0)) .addBasePulse =
      .ok (List.replicate pd.binsNumber (within pd.lowerLimit pd.upperLimit 0)) := by
    simp only [Pulse.applyStep]
    rw [show p'.basePulse = zeros pd.binsNumber from hz, bop_eq (by simp [zeros])]
    congr 1
    apply List.ext_getElem
    · simp [zeros]
    · intro i h1 h2
      simp [zeros]
  have a3 : p'.applyStep M (List.replicate pd.binsNumber (within pd.lowerLimit pd.upperLimit 0)) .addNewUpdatePulse =
      .ok (v.map fun y => within pd.lowerLimit pd.upperLimit 0 + y) := by
    have : p'.shaped M = .ok v := by
      unfold Pulse.shaped
      rw [show p'.basis = .piecewise from hbas.trans hb]
      rfl
    simp only [Pulse.applyStep, this, bind, Except.bind]
    rw [bop_eq (by simp [hv])]
    congr 1
    apply List.ext_getElem
    · simp [hv]
    · intro i h1 h2
      simp
  have a4 : ∀ w : List ℚ, w.length = pd.binsNumber → p'.applyStep M w .scalePulse = .ok w := by
    intro w hw
    simp only [Pulse.applyStep, Pulse.scale]
    rw [show p'.scaling = .callable fs from hscal.trans hs1]
    dsimp only
    rw [bop_eq (by simp [hs2, hgrid, hw]), hs2]
    congr 1
    apply List.ext_getElem
    · simp [hgrid, hw]
    · intro i h1 h2
      simp
  have a5 : ∀ w : List ℚ, p'.applyStep M w .limitPulse = .ok (w.map (within pd.lowerLimit pd.upperLimit)) := hlim
  unfold Pulse.build at hb'
  rw [show p'.shaping = [.addInitialGuess, .addBasePulse, .addNewUpdatePulse, .scalePulse, .limitPulse] by
    show p.shaping = _; rw [hshape, ho]; rfl] at hb'
  simp only [List.foldlM_cons, List.foldlM_nil, a1, a2, a3, a4 _ (show (v.map _).length = _ by simp [hv]), a5,
    bind, Except.bind, pure, Except.pure, Except.ok.injEq] at hb'
  rw [← hb', List.map_map]
  rfl

/-- the state of the controls during the search -/
structure PlainState (M : MathFns ℚ) (pd : PulseDict ℚ) (td : List (TimeDict ℚ)) (c : Controls ℚ) : Prop where
  ready : Ready M [pd] td [] c
  base : ∀ p ∈ c.pulses, p.basePulse = zeros pd.binsNumber

theorem PlainState.get {td : List (TimeDict ℚ)} {n : ℕ} (hn : n = searchDim [pd] ([] : List (ParamDict ℚ))) (hu : Usable [pd] td [])
    (hft : FixedTimes td) (hb : pd.basis = .piecewise)
    (ho : pd.shapingOptions = none) (hs : pd.shrink = false) (hord : pd.lowerLimit ≤ pd.upperLimit)
    (hgu : ∃ f, pd.guess = .callable f ∧ ∀ t, f t = t.map fun _ => 0)
    (hsc : ∃ f, pd.scaling = .callable f ∧ ∀ t, f t = t.map fun _ => 1) (u : Vec ℚ n) (c : Controls ℚ) (x : Vec ℚ n)
    (h : PlainState M pd td c) :
    ∃ c' o, (grapeOps M u).getControls c x = .ok (c', o) ∧ PlainState M pd td c' ∧ CallFor pd.lowerLimit pd.upperLimit x o := by
  subst hn
  obtain ⟨c', o, h1, h2⟩ := (grape_faultless hu u).get c x h.ready
  refine ⟨c', o, h1, ?_⟩
  rw [grape_get] at h1
  have hi := CInv.of_reach h.ready.reach
  obtain ⟨p, ps, hp, hps, e⟩ := List.forall₂_cons_left_iff.1 hi.reach
  cases hps
  have hpar : c.params = [] := List.forall₂_nil_left_iff.1 hi.params
  have hdim : searchDim [pd] ([] : List (ParamDict ℚ)) = pd.binsNumber := by
    simp [searchDim, PulseDict.declared, basisParams, hb]
  have hct : p.ctrlList = List.range' 0 pd.binsNumber := by
    have := hi.pchain
    rw [e] at this
    rw [this.1, hp.w_length.2.1, hb]
    rfl
  have hgather : gather (List.ofFn x) (List.range' 0 pd.binsNumber) = .ok (List.ofFn x) := by
    unfold gather
    rw [mapM_ok, List.forall₂_iff_get]
    refine ⟨by simp [hdim], fun i h1 h2 => ?_⟩
    simp only [List.length_ofFn] at h2
    simp [getIdx, h2]
  unfold Controls.getControls at h1
  rw [e, hpar] at h1
  obtain ⟨ts, h3, h1⟩ := py_bind_ok.1 h1
  obtain ⟨l, h4, h1⟩ := py_bind_ok.1 h1
  obtain ⟨l', h5, h1⟩ := py_bind_ok.1 h1
  cases h5
  cases h1
  rw [mapM_ok] at h4
  obtain ⟨r1, rs, hr1, hrs, rfl⟩ := List.forall₂_cons_left_iff.1 h4
  cases hrs
  obtain ⟨v0, hv0, hr1⟩ := py_bind_ok.1 hr1
  obtain ⟨t, ht, hr1⟩ := py_bind_ok.1 hr1
  rw [hct, hgather] at hv0
  cases hv0
  obtain ⟨k1, k2⟩ := plain_piecewise_pulse hp hb ho hs hord hgu hsc (h.base p (by rw [e]; simp)) (by simp [hdim])
    (show p.getPulse M (List.ofFn x) t.getTime = .ok (r1.1, r1.2) from hr1)
  refine ⟨⟨h2, fun q hq => ?_⟩, ?_, rfl⟩
  · simp only [List.map_cons, List.map_nil, List.mem_singleton] at hq
    rw [hq, k1]
    exact h.base p (by rw [e]; simp)
  · simp only [List.map_cons, List.map_nil, k2]
    rw [List.map_ofFn]
    rfl

end

/-! ### The property -/

section
variable {n : ℕ} {lo hi a : ℚ}

theorem vecOfList_zeros (n : ℕ) : vecOfList n (zeros n : List ℚ) = .ok fun _ => 0 := by
  unfold vecOfList
  rw [dif_pos (by simp [zeros])]
  congr 1
  funext i
  simp [zeros]

theorem vecOfList_replicate (n : ℕ) (v : ℚ) : vecOfList n (List.replicate n v) = .ok fun _ => v := by
  unfold vecOfList
  rw [dif_pos (by simp)]
  congr 1
  funext i
  simp

theorem updateBasePulses_log {V C O F : Type} [Add F] [Sub F] [Mul F] [Div F] [Neg F] [Zero F] [One F] [NatCast F] [LE F] [LT F]
    [DecidableLE F] [DecidableLT F] (ops : CtlOps O V C) (s : AlgState V C O F) : (updateBasePulses ops s).2.log = s.log := by
  unfold updateBasePulses
  split
  · rfl
  · split <;> rfl

theorem num_of_num? {v : PVal} {q : ℚ} (h : v.num? = some q) : v = .num q := by
  unfold PVal.num? at h
  split at h
  · cases h; rfl
  · cases h

theorem num_of_goal? {v : PVal} {q : ℚ} (h : v.goal? = some (some q)) : v = .num q := by
  unfold PVal.goal? at h
  split at h
  · cases h
  · rw [Option.map_eq_some_iff] at h
    obtain ⟨q', h1, h2⟩ := h
    cases h2
    exact num_of_num? h1

theorem grape_time {s : GradientSettings} {cfg : AlgCfg ℚ ℚ} (h : s.cfg = some cfg) : s.core.totalTimeLim = .num cfg.totalTimeLim := by
  unfold GradientSettings.cfg at h
  simp only [bind, Option.bind_eq_some_iff, pure, Option.some.injEq] at h
  obtain ⟨t, h1, _, h2, h⟩ := h
  rw [← h]
  exact num_of_num? h1

/-- the run of a search with a minimizer -/
theorem follows_run {cfg : AlgCfg ℚ ℚ} (hk : cfg.kind = .grape) {M : MathFns ℚ} {x : PulseDict ℚ} {td : List (TimeDict ℚ)}
    (hn : n = searchDim [x] ([] : List (ParamDict ℚ))) (hu : Usable [x] td []) (hf : FixedTimes td) (hb : x.basis = .piecewise)
    (ho : x.shapingOptions = none) (hs : x.shrink = false) (hord : x.lowerLimit ≤ x.upperLimit)
    (hgu : ∃ f, x.guess = .callable f ∧ ∀ t, f t = t.map fun _ => 0)
    (hsc : ∃ f, x.scaling = .callable f ∧ ∀ t, f t = t.map fun _ => 1) {o : Controls ℚ} (hc : mkControls M [x] td [] = .ok o)
    (env : Env (Vec ℚ n) (ControlsOut ℚ) ℚ) (u : Vec ℚ n) (m : Vec ℚ n → Minimizer (Vec ℚ n) ℚ) (g : Vec ℚ n → Vec ℚ n) :
    (m fun i => (1 - 2 * u i) * x.amplitudeVariation).Runs (dirMul cfg.maximize) (CallFor x.lowerLimit x.upperLimit) g
      (Halted cfg env (execute cfg env (grapeOps M u) (fun _ v sim _ => (m (sim.head?.getD v)).calls g v 0) o).2.log)
      (execute cfg env (grapeOps M u) (fun _ v sim _ => (m (sim.head?.getD v)).calls g v 0) o).2.log := by
  have hdim : searchDim [x] ([] : List (ParamDict ℚ)) = x.declared := by simp [searchDim]
  obtain ⟨o', h1, h2⟩ := mkControls_exists (M := M) hu
  obtain rfl : o' = o := by rw [hc] at h1; cases h1; rfl
  have hmean : (grapeOps M u).mean o' = .ok fun _ => 0 := by
    show (do vecOfList n (← o'.mean)) = _
    rw [C21_initial_start_point hc]
    simp only [List.map_cons, List.map_nil, List.sum_cons, List.sum_nil, add_zero, List.append_nil, bind, Except.bind]
    rw [hn, hdim]
    exact vecOfList_zeros _
  have hsigma : (grapeOps M u).sigma o' = .ok fun _ => x.amplitudeVariation := by
    show (do vecOfList n (← o'.sigma)) = _
    rw [C21_start_sizes_partial (.create hc) hf]
    simp only [List.map_cons, List.map_nil, List.flatten_cons, List.flatten_nil, List.append_nil, bind, Except.bind]
    rw [hn, hdim, show x.startSize M = x.amplitudeVariation by unfold PulseDict.startSize; rw [hb]]
    exact vecOfList_replicate _ _
  have hbase : ∀ p ∈ o'.pulses, p.basePulse = zeros x.binsNumber := by
    clear h1
    unfold mkControls at hc
    obtain ⟨⟨ps, mi⟩, h1, hc⟩ := py_bind_ok.1 hc
    obtain ⟨ts, _, hc⟩ := py_bind_ok.1 hc
    cases hc
    unfold mkPulses at h1
    obtain ⟨p, hp, h1⟩ := py_bind_ok.1 h1
    obtain ⟨q, hq, h1⟩ := py_bind_ok.1 h1
    cases hq
    cases h1
    intro q hq
    obtain rfl := List.mem_singleton.1 hq
    unfold mkPulse at hp
    simp only at hp
    split at hp
    · cases hp
    · cases hp; rfl
  have hU : Underway cfg env (PlainState M x td) (initState cfg env o') :=
    ⟨⟨h2, hbase⟩, fun _ => rfl, .inl rfl, fun h => by cases h⟩
  obtain ⟨l, hl, hr⟩ := Minimizer.runs_of_interp (g := g) hk
    (fun c v => PlainState.get hn hu hf hb ho hs hord hgu hsc u c v)
    (m (grapeStart u (fun _ => 0) fun _ => x.amplitudeVariation)) (fun _ => 0) 0 hU
  have hstart : grapeStart u (fun _ => 0) (fun _ => x.amplitudeVariation) = fun i => (1 - 2 * u i) * x.amplitudeVariation := by
    funext i
    unfold grapeStart
    ring
  have hlog : (execute cfg env (grapeOps M u) (fun _ v sim _ => (m (sim.head?.getD v)).calls g v 0) o').2.log = l := by
    unfold execute run
    rw [hk]
    dsimp only
    rw [Prog.get_bind, Prog.bind_apply, Prog.lift_apply]
    rw [show (initState cfg env o').ctl = o' from rfl, hmean]
    dsimp only
    rw [Prog.bind_apply, Prog.lift_apply, hsigma]
    dsimp only
    rw [Prog.bind_apply, Prog.lift_apply]
    show ((_ >>= fun _ => updateBasePulses (grapeOps M u)) _).2.log = l
    rw [Prog.bind_apply]
    simp only [List.head?_cons, Option.getD_some]
    have hl' : _ = l := hl
    split
    · rename_i heq
      rw [heq] at hl'
      rw [updateBasePulses_log]
      exact hl'
    · rename_i heq
      rw [heq] at hl'
      exact hl'
  rw [hlog, ← hstart]
  exact hr

theorem follows_of_runs {mx : Bool} (hmx : mx = true ↔ Maximizes d) {g : Vec ℚ n → Vec ℚ n} {E E' : Prop} (hE : E → E')
    {B : Vec ℚ n → ControlsOut ℚ → Prop} (m : Minimizer (Vec ℚ n) ℚ) (l : List (Call (Vec ℚ n) (ControlsOut ℚ) ℚ)) (h : m.Runs (dirMul mx) B g E l) :
    m.Follows d B g E' (l.map fun k => (k.ctl, k.ans)) := by
  induction m generalizing l with
  | stop => unfold Minimizer.Runs at h; subst h; simp [Minimizer.Follows]
  | ask x k ih =>
    cases l with
    | nil => unfold Minimizer.Runs at h; exact hE h
    | cons c cs =>
      unfold Minimizer.Runs at h
      simp only [List.map_cons]
      unfold Minimizer.Follows
      refine ⟨h.1, ?_⟩
      rw [seen_value]
      have h2 := h.2
      rcases hv : c.value with _ | f
      · rw [hv] at h2
        simpa using h2
      · rw [hv] at h2
        intro v hv'
        obtain rfl : v = dirMul mx f := by
          unfold dirMul
          split
          · exact hv'.1 (hmx.1 ‹_›)
          · exact hv'.2 fun h => absurd (hmx.2 h) ‹_›
        exact ih _ _ _ h2

/-- the reasons to stop, in terms of the dictionary -/
theorem grape_halts {s : GradientSettings} {cfg : AlgCfg ℚ ℚ} {o : Controls ℚ} (h : GrapeParts w L d r s cfg o) {V : Type}
    {env : Env V (ControlsOut ℚ) ℚ} {l : List (Call V (ControlsOut ℚ) ℚ)} (henv : env.async = w.async) (h' : Halted cfg env l) :
    MayStop w d (l.map fun k => (k.ctl, k.ans)) := by
  obtain ⟨hk, hmax, hbud, hdir, hgoal, _⟩ := grape_cfg h.hcfg
  have seen_val : ∀ k : Call V (ControlsOut ℚ) ℚ, Seen.value (k.ctl, k.ans) = k.value := fun k => by
    unfold Seen.value Call.value
    rcases k.ans with _ | _ <;> rfl
  revert h'
  rintro (h' | h' | h' | ⟨t, ht, h'⟩ | ⟨k, hkm, b, hb1, hb2⟩)
  · exact .inl (by rw [← henv]; exact h')
  · refine .inr (.inl ⟨_, h.uses.core.budget, ?_⟩)
    rw [hbud] at h'
    rw [List.length_map]
    exact h'
  · refine .inr (.inr (.inl ⟨_, ?_, h'⟩))
    rw [← h.uses.core.timeLimit]
    exact grape_time h.hcfg
  · refine .inr (.inr (.inr (.inl ?_)))
    unfold AlgCfg.goal at ht
    rw [Option.map_eq_some_iff] at ht
    obtain ⟨g, hg, rfl⟩ := ht
    rw [hg] at hgoal
    have hg' := num_of_goal? hgoal
    rw [h.uses.core.goal] at hg'
    rcases h' with h' | ⟨k, hkm, f, hv, hle⟩
    · refine ⟨g, _, hg', .inl h.start.1, ?_⟩
      rw [← h.better, ← dirMul_lt, dirMul_dirMul]
      exact not_lt.2 h'
    · refine ⟨g, f, hg', .inr ⟨(k.ctl, k.ans), List.mem_map.2 ⟨k, hkm, rfl⟩, (seen_val k).trans hv⟩, ?_⟩
      rw [← h.better, ← dirMul_lt]
      exact not_lt.2 hle
  · exact .inr (.inr (.inr (.inr ⟨_, List.mem_map.2 ⟨k, hkm, rfl⟩, b, hb1, hb2⟩)))

/-- **C98.** With one piecewise constant pulse, GRAPE calls the user's function exactly for the vectors that L-BFGS-B asks for, with the options
in the dictionary and a start vector around zero whose distance is drawn from the `amplitude_variation`; L-BFGS-B gets the figure of
merit of each call with the right sign and the gradient, and the calls end early only for one of the documented reasons. -/
theorem C98_follows (h : optimizeGrape w L d = some (.ok r)) (hp : PlainControls w.lib d) (ho : OnePiecewise d n lo hi a) :
    (L.minimize (setting d ["algorithm_settings", "stopping_criteria", "ftol"] (.num (1 / 10 ^ 6)))
      (setting d ["algorithm_settings", "stopping_criteria", "max_eval_total"] (.num (10 ^ 10)))
      (setting d ["algorithm_settings", "stopping_criteria", "gtol"] (.num (1 / 10 ^ 6)))
      (setting d ["algorithm_settings", "stopping_criteria", "maxls"] (.num 20))
      (fun i => (1 - 2 * w.draws (n := n) 0 i) * a)).Follows d (CallFor lo hi) L.gradient (MayStop w d r.calls) r.calls := by
  obtain ⟨s, cfg, o, h⟩ := grape_parts h
  obtain ⟨hk, hmax, hbud, hdir, hgoal, _⟩ := grape_cfg h.hcfg
  obtain ⟨hu, hf⟩ := usable_controls h.uses.controls hp
  obtain ⟨p, hpp, hpw, hbins, hlo, hhi, ha, hshr, hsha, hguess, hscale⟩ := ho.pulse
  have h1 := h.uses.controls.pulses
  have h2 := h.uses.controls.params
  rw [hpp] at h1
  rw [ho.params] at h2
  obtain ⟨x, l, hx, hl, e⟩ := List.forall₂_cons_left_iff.1 h1
  obtain rfl : l = [] := List.forall₂_nil_left_iff.1 hl
  have e' := List.forall₂_nil_left_iff.1 h2
  have hcontrols := h.hcontrols
  rw [e, e'] at hcontrols hu
  have hb := piecewise_basis hx hpw
  have hbn : n = x.binsNumber := by
    have := hx.bins
    rw [hbins] at this
    have := this.num
    exact_mod_cast this
  have hdim : searchDim [x] ([] : List (ParamDict ℚ)) = x.binsNumber := by
    simp [searchDim, PulseDict.declared, basisParams, hb]
  obtain rfl : n = s.vars := by
    show n = searchDim s.controls.pulses s.controls.params
    rw [e, e', hdim, hbn]
  have hlow : x.lowerLimit = lo := by have := hx.lower; rw [hlo] at this; exact this.num
  have hupp : x.upperLimit = hi := by have := hx.upper; rw [hhi] at this; exact this.num
  have hamp : x.amplitudeVariation = a := by have := hx.variation; rw [ha] at this; exact this.num
  have hgu : ∃ f, x.guess = .callable f ∧ ∀ t, f t = t.map fun _ => 0 := by
    have := noEntry_guess hx.guess hguess
    exact this
  have hsc : ∃ f, x.scaling = .callable f ∧ ∀ t, f t = t.map fun _ => 1 := by
    have := noEntry_guess hx.scaling hscale
    exact this
  have hso : x.shapingOptions = none := by
    rcases hx.shaping with ⟨_, h⟩ | ⟨names, h, _⟩
    · exact h
    · rw [h] at hsha
      rcases hsha with hsha | hsha <;> cases hsha
  have hruns := follows_run (cfg := cfg) hk (M := w.lib.M) (n := s.vars) (by rw [hdim]; exact hbn) hu hf hb hso (hx.shrink.2 hshr)
    (by rw [hlow, hupp]; exact ho.ordered) hgu hsc hcontrols (w.env s.vars) (w.draws 0)
    (L.minimize s.ftol s.maxEval s.gtol s.maxls) L.gradient
  rw [hlow, hupp, hamp] at hruns
  rw [← h.uses.ftol, ← h.uses.maxEval, ← h.uses.gtol, ← h.uses.maxls]
  have hcalls := h.calls
  rw [hcalls]
  refine follows_of_runs (mx := cfg.maximize) h.maximize ?_ _ _ hruns
  exact grape_halts h rfl

end

/-! ### The concrete optimization -/

theorem exGrapeProgram_one (m : ℤ) : OnePiecewise (exGrapeProgram m) 3 (-1) 2 1 where
  pulse := ⟨mkDict [("pulse_name", .str "p"), ("time_name", .str "t"), ("bins_number", .num 3),
      ("lower_limit", .num (-1)), ("upper_limit", .num 2), ("amplitude_variation", .num 1),
      ("basis", .dict (mkDict [("basis_name", .str "PiecewiseBasis")]))], rfl, ⟨rfl, rfl⟩, rfl, rfl, rfl, rfl, .inr (.inl rfl), .inl rfl, .inl rfl,
    .inl rfl⟩
  params := rfl
  ordered := by norm_num

/-- the samples of the first pulse of the calls -/
def samplesOf : Option (Py Outcome) → List (List ℚ)
  | some (.ok r) => r.calls.map fun c => c.1.pulses.flatten
  | _ => []

/-- The start vector is `(0, 1/3, 1/2)`, and each step of the stand-in for L-BFGS-B halves it. -/
theorem exGrapeProgram_samples : samplesOf (optimizeGrape exGrapeAround exGrapeLib (exGrapeProgram 3)) =
    [[0, 1 / 3, 1 / 2], [0, 1 / 6, 1 / 4], [0, 1 / 12, 1 / 8]] := by decide +kernel

/-- `C98_follows` holds for the dictionary of the example with any L-BFGS-B. -/
example (L : GrapeLib) (m : ℤ) : ∃ r, optimizeGrape exGrapeAround L (exGrapeProgram m) = some (.ok r) ∧
    (L.minimize (.num (1 / 10 ^ 6)) (.num (10 ^ 10)) (.num (1 / 10 ^ 6)) (.num 20)
      (fun i : Fin 3 => (1 - 2 * (1 / (2 + i.val))) * 1)).Follows (exGrapeProgram m) (CallFor (-1) 2) L.gradient
        (MayStop exGrapeAround (exGrapeProgram m) r.calls) r.calls := by
  obtain ⟨h1, h2, h3, _, h4, _⟩ := exGrapeProgram_plain m
  obtain ⟨r, hr⟩ := C98_runs (w := exGrapeAround) (L := L) exLib_installed (exGrapeProgram_documented m) h3
  exact ⟨r, hr, C98_follows hr h1 (exGrapeProgram_one m)⟩

end QuOCS

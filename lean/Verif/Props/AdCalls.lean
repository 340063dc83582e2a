/-
Property C99, continued: the calls of an optimization with automatic differentiation are the ones L-BFGS-B asks for.
-/
import Verif.Lemmas.FollowAD
import Verif.Props.GrapeCalls
import Verif.Props.ProgramAD

set_option linter.unusedSectionVars false
set_option linter.unusedVariables false

namespace QuOCS

variable {w : Surroundings} {L : AdProgramLib} {d : PDict} {r : AdOutcome} {n : ℕ} {lo hi a : ℚ}

/-! ### Specification -/

/-- The calls among these that were made for a figure of merit. -/
def forValues (calls : List AdCall) : List Seen := (calls.filter fun c => !c.forGradient).map (·.seen)

/-- The calls are the ones that `m` asks for, in this order; `before` are the earlier ones; `Shows x c` says that the controls `c` are those of the
vector `x`. For a figure of merit, `m` gets the one of the call
(negated for a maximization). If there is a reason to stop, no call is made: `m` gets `10^10`, also for all later figures of merit, or the search
is left by an interrupt. For a gradient there is always a call, and `m` gets the gradient, which depends on the calls so far. A call without
figure of merit is the last one. -/
def AdMinimizer.Follows (w : Surroundings) (d : PDict) (Shows : Vec ℚ n → ControlsOut ℚ → Prop) (g : List Seen → Vec ℚ n → Vec ℚ n) :
    AdMinimizer (Vec ℚ n) ℚ → (stopped : Bool) → (before calls : List AdCall) → Prop
  | .stop, _, _, calls => calls = []
  | .value x k, stopped, before, calls =>
      (MayStop w d (forValues before) ∧ (((∃ i, w.async i = .sigint) ∧ calls = []) ∨ (k (10 ^ 10)).Follows w d Shows g true before calls)) ∨
      (stopped = false ∧ ∃ c later, calls = c :: later ∧ c.forGradient = false ∧ Shows x c.seen.1 ∧ match c.seen.value with
        | some f => ∀ v, ToMinimize d f v → (k v).Follows w d Shows g false (before ++ [c]) later
        | none => later = [])
  | .gradient x k, stopped, before, calls => ∃ c later, calls = c :: later ∧ c.forGradient = true ∧ Shows x c.seen.1 ∧ match c.seen.value with
        | some _ => (k (g ((before ++ [c]).map (·.seen)) x)).Follows w d Shows g stopped (before ++ [c]) later
        | none => later = []

/-! ### The controls -/

section
variable {M : MathFns ℚ} {x : PulseDict ℚ} {rnd : ℕ → ℕ → List ℚ}

theorem PlainState.getAD {td : List (TimeDict ℚ)} (hn : n = searchDim [x] ([] : List (ParamDict ℚ))) (hu : Usable [x] td [])
    (hft : FixedTimes td) (hb : x.basis = .piecewise) (ho : x.shapingOptions = none) (hs : x.shrink = false) (hord : x.lowerLimit ≤ x.upperLimit)
    (hgu : ∃ f, x.guess = .callable f ∧ ∀ t, f t = t.map fun _ => 0)
    (hsc : ∃ f, x.scaling = .callable f ∧ ∀ t, f t = t.map fun _ => 1) (c : Controls ℚ) (v : Vec ℚ n) (h : PlainState M x td c) :
    ∃ c' o, (adOps M rnd).getControls c v = .ok (c', o) ∧ PlainState M x td c' ∧ CallFor x.lowerLimit x.upperLimit v o := by
  obtain ⟨c', o, h1, h2, h3⟩ := PlainState.get hn hu hft hb ho hs hord hgu hsc (fun _ => 0) c v h
  subst hn
  rw [grape_get] at h1
  refine ⟨c', _, (ad_get hu h.ready).2 ⟨o, h1, rfl⟩, h2, ?_, h3.2⟩
  have hl := h.ready.samples hu (x := List.ofFn v) (by simp) h1
  rw [h3.1] at hl
  show o.pulses.map _ = _
  rw [h3.1, List.map_singleton, List.forall₂_cons.1 hl |>.1]
  simp [width]

theorem piecewise_select {c : Controls ℚ} (h : CInv M [x] td [] c) (hb : x.basis = .piecewise) (r : ℕ → List ℚ) : c.selectBasis r = .ok c := by
  obtain ⟨p, ps, hp, hps, e⟩ := List.forall₂_cons_left_iff.1 h.reach
  cases hps
  have hbas : p.basis = .piecewise := hp.fields.2.2.2.2.2.2.2.2.trans hb
  unfold Controls.selectBasis
  rw [e]
  simp only [List.length_singleton, List.range_one, List.foldlM_cons, List.foldlM_nil]
  unfold Controls.selectBasisAt
  rw [e]
  simp only [List.getElem?_cons_zero, hbas]
  rfl

theorem created_base {td : List (TimeDict ℚ)} {o : Controls ℚ} (hc : mkControls M [x] td [] = .ok o) :
    ∀ p ∈ o.pulses, p.basePulse = zeros x.binsNumber := by
  unfold mkControls at hc
  obtain ⟨⟨ps, mi⟩, h1, hc⟩ := py_bind_ok.1 hc
  obtain ⟨ts, _, hc⟩ := py_bind_ok.1 hc
  cases hc
  unfold mkPulses at h1
  obtain ⟨p, hp, h1⟩ := py_bind_ok.1 h1
  obtain ⟨q, hq, h1⟩ := py_bind_ok.1 h1
  cases hq
  cases h1
  intro q hq
  obtain rfl := List.mem_singleton.1 hq
  unfold mkPulse at hp
  simp only at hp
  split at hp
  · cases hp
  · cases hp; rfl

/-- the run of a search with a minimizer -/
theorem follows_ad {cfg : AlgCfg ℚ ℚ} (hone : cfg.maxSI = 1) {td : List (TimeDict ℚ)}
    (hn : n = searchDim [x] ([] : List (ParamDict ℚ))) (hu : Usable [x] td []) (hf : FixedTimes td) (hb : x.basis = .piecewise)
    (ho : x.shapingOptions = none) (hs : x.shrink = false) (hord : x.lowerLimit ≤ x.upperLimit)
    (hgu : ∃ f, x.guess = .callable f ∧ ∀ t, f t = t.map fun _ => 0)
    (hsc : ∃ f, x.scaling = .callable f ∧ ∀ t, f t = t.map fun _ => 1) {o : Controls ℚ} (hc : mkControls M [x] td [] = .ok o)
    (env : Env (Vec ℚ n) (ControlsOut ℚ) ℚ) (u : ℕ → Vec ℚ n) (m : Vec ℚ n → AdMinimizer (Vec ℚ n) ℚ)
    (g : List (Call (Vec ℚ n) (ControlsOut ℚ) ℚ) → Vec ℚ n → Vec ℚ n) {lib : AdLib (Vec ℚ n) (ControlsOut ℚ) ℚ}
    (hlib : lib = ⟨g, fun k mean sigma => .ok (grapeStart (u k) mean sigma), fun v => (m v).calls⟩) :
    (m fun i => (1 - 2 * u 1 i) * x.amplitudeVariation).Runs (dirMul cfg.maximize) (CallFor x.lowerLimit x.upperLimit) g cfg.fomMax
      (Halted (adCfg cfg) env) (∃ i, env.async i = .sigint) false [] (adExecute lib cfg env (adOps M rnd) o).2.marks := by
  have hdim : searchDim [x] ([] : List (ParamDict ℚ)) = x.declared := by simp [searchDim]
  obtain ⟨o', h1, h2⟩ := mkControls_exists (M := M) hu
  obtain rfl : o' = o := by rw [hc] at h1; cases h1; rfl
  have hmean : (adOps M rnd).mean o' = .ok fun _ : Fin n => 0 := by
    show (do vecOfList n (← o'.mean)) = _
    rw [C21_initial_start_point hc]
    simp only [List.map_cons, List.map_nil, List.sum_cons, List.sum_nil, add_zero, List.append_nil, bind, Except.bind]
    rw [hn, hdim]
    exact vecOfList_zeros _
  have hsigma : (adOps M rnd).sigma o' = .ok fun _ : Fin n => x.amplitudeVariation := by
    show (do vecOfList n (← o'.sigma)) = _
    rw [C21_start_sizes_partial (.create hc) hf]
    simp only [List.map_cons, List.map_nil, List.flatten_cons, List.flatten_nil, List.append_nil, bind, Except.bind]
    rw [hn, hdim, show x.startSize M = x.amplitudeVariation by unfold PulseDict.startSize; rw [hb]]
    exact vecOfList_replicate _ _
  have hselect : (adOps M rnd (n := n)).selectBasis 1 o' = .ok o' := piecewise_select (CInv.of_reach h2.reach) hb _
  have hstart : grapeStart (u 1) (fun _ => 0) (fun _ => x.amplitudeVariation) = fun i => (1 - 2 * u 1 i) * x.amplitudeVariation := by
    funext i
    unfold grapeStart
    ring
  set s1 : AdState (Vec ℚ n) (ControlsOut ℚ) (Controls ℚ) ℚ := ⟨{ initState (adCfg cfg) env o' with superIt := 1 }, []⟩ with hs1
  have hU : UnderwayOn (adCfg cfg) env (PlainState M x td) s1.evals s1.alg :=
    ⟨⟨h2, created_base hc⟩, fun _ => rfl, .inl rfl, fun h => by cases h⟩
  obtain ⟨l, hl, hr, -⟩ := AdMinimizer.runs_of_interp (lib := lib) (cfg := adCfg cfg) (env := env) (ops := adOps M rnd) rfl
    (fun c v => PlainState.getAD hn hu hf hb ho hs hord hgu hsc c v)
    (m fun i => (1 - 2 * u 1 i) * x.amplitudeVariation) false (s := s1) (fun i hi => by cases hi) hU (fun h => by cases h)
  have hg : lib.grad = g := by rw [hlib]
  rw [hg] at hr
  have hmarks : (adExecute lib cfg env (adOps M rnd) o').2.marks = l := by
    have hl' : (((m fun i => (1 - 2 * u 1 i) * x.amplitudeVariation).calls.interp lib (adCfg cfg) env (adOps M rnd)) s1).2.marks = l := hl
    have hinner : adInnerRun lib (adCfg cfg) env (adOps M rnd) 1 s1 =
        ((m fun i => (1 - 2 * u 1 i) * x.amplitudeVariation).calls.interp lib (adCfg cfg) env (adOps M rnd)) s1 := by
      unfold adInnerRun
      rw [Prog.get_bind, Prog.bind_apply, Prog.lift_apply, show s1.alg.ctl = o' from rfl, hsigma]
      dsimp only
      rw [Prog.bind_apply, Prog.lift_apply, hmean]
      dsimp only
      rw [Prog.bind_apply, Prog.lift_apply]
      subst hlib
      dsimp only
      rw [hstart]
    have hloop : adExecute lib cfg env (adOps M rnd) o' = adSuperIteration lib (adCfg cfg) env (adOps M rnd) 1 ⟨initState (adCfg cfg) env o', []⟩ := by
      unfold adExecute
      rw [hone]
      unfold adLoop
      rw [Prog.bind_apply]
      unfold adLoop
      split
      · rename_i a s' heq
        rw [heq]
        rfl
      · rename_i e s' heq
        rw [heq]
    rw [hloop]
    unfold adSuperIteration
    rw [Prog.bind_ok (show onAlg (Prog.modify fun s => { s with superIt := 1 }) ⟨initState (adCfg cfg) env o', []⟩ = (.ok (), s1) from rfl),
      Prog.get_bind, Prog.bind_apply, Prog.lift_apply, show s1.alg.ctl = o' from rfl, hselect]
    dsimp only
    rw [Prog.bind_ok (show onAlg (Prog.modify fun s => { s with ctl := o' }) s1 = (.ok (), s1) from rfl), Prog.bind_apply, hinner]
    split
    · rename_i heq
      rw [heq] at hl'
      rw [← hl']
      unfold AdState.marks onAlg
      dsimp only
      rw [updateBasePulses_log]
    · rename_i heq
      rw [heq] at hl'
      exact hl'
  rw [hmarks]
  exact hr

end

/-! ### The property -/

/-- a call as seen by the user -/
def adSeen (k : Bool × Call (Vec ℚ n) (ControlsOut ℚ) ℚ) : AdCall := ⟨k.1, k.2.ctl, k.2.ans⟩

theorem follows_of_runs_ad {mx : Bool} (hmx : mx = true ↔ Maximizes d) {g : List Seen → Vec ℚ n → Vec ℚ n} {E : List (Call (Vec ℚ n) (ControlsOut ℚ) ℚ) → Prop}
    {S : Prop} {B : Vec ℚ n → ControlsOut ℚ → Prop} (hE : ∀ l, E l → MayStop w d (l.map fun k => (k.ctl, k.ans))) (hS : S → ∃ i, w.async i = .sigint)
    (m : AdMinimizer (Vec ℚ n) ℚ) (st : Bool) (before l : List (Bool × Call (Vec ℚ n) (ControlsOut ℚ) ℚ))
    (h : m.Runs (dirMul mx) B (fun h x => g (h.map fun k => (k.ctl, k.ans)) x) (10 ^ 10) E S st before l) :
    m.Follows w d B g st (before.map adSeen) (l.map adSeen) := by
  induction m generalizing st before l with
  | stop => unfold AdMinimizer.Runs at h; subst h; simp [AdMinimizer.Follows]
  | value x k ih =>
    unfold AdMinimizer.Runs at h
    unfold AdMinimizer.Follows
    rcases h with ⟨h1, h2⟩ | ⟨h1, c, cs, rfl, -, h3, h4⟩
    · refine .inl ⟨?_, h2.imp (fun h => ⟨hS h.1, by rw [h.2]; rfl⟩) (ih _ _ _ _)⟩
      have := hE _ h1
      rw [List.map_map] at this
      unfold forValues
      rw [List.filter_map, List.map_map]
      exact this
    · refine .inr ⟨h1, adSeen (false, c), cs.map adSeen, rfl, rfl, h3, ?_⟩
      rw [show (adSeen (false, c)).seen.value = c.value from seen_value c]
      rcases hv : c.value with _ | f
      · rw [hv] at h4
        dsimp only at h4 ⊢
        rw [h4]
        rfl
      · rw [hv] at h4
        intro v hv'
        obtain rfl : v = dirMul mx f := by
          unfold dirMul
          split
          · exact hv'.1 (hmx.1 ‹_›)
          · exact hv'.2 fun h => absurd (hmx.2 h) ‹_›
        have := ih _ _ _ _ h4
        rw [List.map_append] at this
        exact this
  | gradient x k ih =>
    unfold AdMinimizer.Runs at h
    unfold AdMinimizer.Follows
    obtain ⟨c, cs, rfl, -, h3, h4⟩ := h
    refine ⟨adSeen (true, c), cs.map adSeen, rfl, rfl, h3, ?_⟩
    rw [show (adSeen (true, c)).seen.value = c.value from seen_value c]
    rcases hv : c.value with _ | f
    · rw [hv] at h4
      dsimp only at h4 ⊢
      rw [h4]
      rfl
    · rw [hv] at h4
      have := ih _ _ _ _ h4
      rw [show (before ++ [(true, c)]).map adSeen = before.map adSeen ++ [adSeen (true, c)] from List.map_append] at this
      dsimp only
      have e : ((before.map (·.2) ++ [c]).map fun k => (k.ctl, k.ans)) = (before.map adSeen ++ [adSeen (true, c)]).map (·.seen) := by
        simp [adSeen, Function.comp_def]
      rw [← e]
      exact this

theorem gradient_time {s : GradientSettings} {cfg : AlgCfg ℚ ℚ} (h : s.adCfg = some cfg) : s.core.totalTimeLim = .num cfg.totalTimeLim := by
  unfold GradientSettings.adCfg at h
  rw [Option.map_eq_some_iff] at h
  obtain ⟨c, h1, rfl⟩ := h
  have := grape_time h1
  exact this

/-- the reasons to stop, in terms of the dictionary -/
theorem ad_halts {s : GradientSettings} {cfg : AlgCfg ℚ ℚ} {o : Controls ℚ} (h : AdParts w L d r s cfg o) {V : Type}
    {env : Env V (ControlsOut ℚ) ℚ} {l : List (Call V (ControlsOut ℚ) ℚ)} (henv : env.async = w.async) (h' : Halted (adCfg cfg) env l) :
    MayStop w d (l.map fun k => (k.ctl, k.ans)) := by
  obtain ⟨hk, hmax, hbud, hdir, hgoal, hsi⟩ := ad_cfg h.hcfg
  have seen_val : ∀ k : Call V (ControlsOut ℚ) ℚ, Seen.value (k.ctl, k.ans) = k.value := fun k => by
    unfold Seen.value Call.value
    rcases k.ans with _ | _ <;> rfl
  revert h'
  rintro (h' | h' | h' | ⟨t, ht, h'⟩ | ⟨k, hkm, b, hb1, hb2⟩)
  · exact .inl (by rw [← henv]; exact h')
  · refine .inr (.inl ⟨_, h.uses.core.budget, ?_⟩)
    have h' : cfg.maxEvalTotal ≤ l.length := h'
    rw [hbud] at h'
    rw [List.length_map]
    exact h'
  · refine .inr (.inr (.inl ⟨_, ?_, h'⟩))
    rw [← h.uses.core.timeLimit]
    have := gradient_time h.hcfg
    exact this
  · refine .inr (.inr (.inr (.inl ?_)))
    have ht : cfg.goal = some t := ht
    unfold AlgCfg.goal at ht
    rw [Option.map_eq_some_iff] at ht
    obtain ⟨g, hg, rfl⟩ := ht
    rw [hg] at hgoal
    have hg' := num_of_goal? hgoal
    rw [h.uses.core.goal] at hg'
    rcases h' with h' | ⟨k, hkm, f, hv, hle⟩
    · refine ⟨g, _, hg', .inl h.start.1, ?_⟩
      rw [← h.better, ← dirMul_lt, dirMul_dirMul]
      exact not_lt.2 h'
    · refine ⟨g, f, hg', .inr ⟨(k.ctl, k.ans), List.mem_map.2 ⟨k, hkm, rfl⟩, (seen_val k).trans hv⟩, ?_⟩
      rw [← h.better, ← dirMul_lt]
      exact not_lt.2 hle
  · exact .inr (.inr (.inr (.inr ⟨_, List.mem_map.2 ⟨k, hkm, rfl⟩, b, hb1, hb2⟩)))

/-- **C99, partial.** With one piecewise constant pulse and automatic differentiation, the user's function is called exactly for the vectors for which
L-BFGS-B asks for a figure of merit or a gradient, with the options in the dictionary and a start vector around zero whose distance is drawn from
the `amplitude_variation`; L-BFGS-B gets the figure of merit of each call with the right sign and the gradient at each vector; figures of merit
are no longer computed only for one of the documented reasons. Missing: more than one super-iteration. -/
theorem C99_follows_partial (h : optimizeAD w L d = some (.ok r)) (hp : PlainControls w.lib d) (ho : OnePiecewise d n lo hi a)
    (h1 : setting d ["algorithm_settings", "super_iteration_number"] (.num 1) = .num 1) :
    (L.minimize (setting d ["algorithm_settings", "stopping_criteria", "ftol"] (.num (1 / 10 ^ 6)))
      (setting d ["algorithm_settings", "stopping_criteria", "max_eval_total"] (.num (10 ^ 10)))
      (setting d ["algorithm_settings", "stopping_criteria", "gtol"] (.num (1 / 10 ^ 6)))
      (setting d ["algorithm_settings", "stopping_criteria", "maxls"] (.num 20))
      (fun i => (1 - 2 * w.draws (n := n) 1 i) * a)).Follows w d (CallFor lo hi) (fun calls x => L.gradient calls x) false [] r.calls := by
  obtain ⟨s, cfg, o, h⟩ := ad_parts h
  obtain ⟨hk, hmax, hbud, hdir, hgoal, hsi⟩ := ad_cfg h.hcfg
  have hone : cfg.maxSI = 1 := by
    have := h.uses.superIterations rfl
    rw [h1] at this
    have e : s.maxSI = 1 := by
      have h2 : IsInt w.lib (.num ((1 : ℤ) : ℚ)) s.maxSI := by simpa using this
      exact h2.int
    rw [hsi, e]
    rfl
  obtain ⟨hu, hf⟩ := usable_controls h.uses.controls hp
  obtain ⟨p, hpp, hpw, hbins, hlo, hhi, ha, hshr, hsha, hguess, hscale⟩ := ho.pulse
  have h1 := h.uses.controls.pulses
  have h2 := h.uses.controls.params
  rw [hpp] at h1
  rw [ho.params] at h2
  obtain ⟨x, l, hx, hl, e⟩ := List.forall₂_cons_left_iff.1 h1
  obtain rfl : l = [] := List.forall₂_nil_left_iff.1 hl
  have e' := List.forall₂_nil_left_iff.1 h2
  have hcontrols := h.hcontrols
  rw [e, e'] at hcontrols hu
  have hb := piecewise_basis hx hpw
  have hbn : n = x.binsNumber := by
    have := hx.bins
    rw [hbins] at this
    have := this.num
    exact_mod_cast this
  have hdim : searchDim [x] ([] : List (ParamDict ℚ)) = x.binsNumber := by
    simp [searchDim, PulseDict.declared, basisParams, hb]
  obtain rfl : n = s.vars := by
    show n = searchDim s.controls.pulses s.controls.params
    rw [e, e', hdim, hbn]
  have hlow : x.lowerLimit = lo := by have := hx.lower; rw [hlo] at this; exact this.num
  have hupp : x.upperLimit = hi := by have := hx.upper; rw [hhi] at this; exact this.num
  have hamp : x.amplitudeVariation = a := by have := hx.variation; rw [ha] at this; exact this.num
  have hso : x.shapingOptions = none := by
    rcases hx.shaping with ⟨_, h⟩ | ⟨names, h, _⟩
    · exact h
    · rw [h] at hsha
      rcases hsha with hsha | hsha <;> cases hsha
  have hgu : ∃ f, x.guess = .callable f ∧ ∀ t, f t = t.map fun _ => 0 := by
    have := noEntry_guess hx.guess hguess
    exact this
  have hsc : ∃ f, x.scaling = .callable f ∧ ∀ t, f t = t.map fun _ => 1 := by
    have := noEntry_guess hx.scaling hscale
    exact this
  have hruns := follows_ad (cfg := cfg) (M := w.lib.M) (rnd := w.rnd) (n := s.vars) hone (by rw [hdim]; exact hbn) hu hf hb hso (hx.shrink.2 hshr)
    (by rw [hlow, hupp]; exact ho.ordered) hgu hsc hcontrols (w.env s.vars)
    (fun k => w.draws k) (L.minimize s.ftol s.maxEval s.gtol s.maxls) _ (lib := s.adLib w L s.vars) rfl
  rw [hlow, hupp, hamp, hmax] at hruns
  rw [← h.uses.ftol, ← h.uses.maxEval, ← h.uses.gtol, ← h.uses.maxls, h.marks]
  refine follows_of_runs_ad (mx := cfg.maximize) (g := fun calls x => L.gradient calls x) h.maximize ?_ id _ _ [] _ hruns
  exact fun l h' => ad_halts h rfl h'

/-! ### A concrete optimization -/

/-- automatic differentiation with one piecewise constant pulse with three bins between -1 and 2, a maximization with at most `m` evaluations -/
def exAdOne (m : ℤ) : PDict :=
  exSettings [("algorithm_name", .str "AD"), ("max_eval_total", .num m), ("optimization_direction", .str "maximization")]
    [.dict (mkDict [("pulse_name", .str "p"), ("time_name", .str "t"), ("bins_number", .num 3), ("lower_limit", .num (-1)),
      ("upper_limit", .num 2), ("amplitude_variation", .num 1), ("basis", .dict (mkDict [("basis_name", .str "PiecewiseBasis")]))])]
    [] [exTime]

theorem exAdOne_plain (m : ℤ) : PlainControls exLib (exAdOne m) ∧ OnePiecewise (exAdOne m) 3 (-1) 2 1 ∧ Maximizes (exAdOne m) := by
  have hp : itemsAt (exAdOne m) "pulses" = [mkDict [("pulse_name", .str "p"), ("time_name", .str "t"), ("bins_number", .num 3),
      ("lower_limit", .num (-1)), ("upper_limit", .num 2), ("amplitude_variation", .num 1),
      ("basis", .dict (mkDict [("basis_name", .str "PiecewiseBasis")]))]] := rfl
  have ht : itemsAt (exAdOne m) "times" = [mkDict [("time_name", .str "t"), ("initial_value", .num 3)]] := rfl
  refine ⟨⟨.inl (by rw [hp]; simp), fun p h => ?_, fun t h => ?_⟩, ⟨⟨_, hp, ⟨rfl, rfl⟩, rfl, rfl, rfl, rfl, .inr (.inl rfl), .inl rfl, .inl rfl, .inl rfl⟩,
    rfl, by norm_num⟩, ?_⟩
  · rw [hp, List.mem_singleton] at h
    subst h
    refine ⟨⟨3, by norm_num, rfl, ⟨_, .inl ⟨.inl rfl, rfl⟩⟩, ⟨_, .inl ⟨.inl rfl, rfl⟩⟩⟩, ⟨1, le_refl _, rfl⟩, ?_⟩
    rw [ht]
    exact ⟨_, List.mem_singleton.2 rfl, rfl⟩
  · rw [ht, List.mem_singleton] at h
    subst h
    exact .inr (.inl rfl)
  · rfl

theorem exAdOne_documented (m : ℤ) : Documented exLib "AD" (exAdOne m) where
  algorithm := by
    refine ⟨_, rfl, by simp, ⟨.inl rfl, rfl⟩, ?_, doc_numbers (ks := ["max_eval_total"]) rfl _ (by simp),
      doc_numbers (ks := ["total_time_lim"]) rfl _ (by simp), .inl (.inl rfl),
      doc_numbers (ks := ["super_iteration_number"]) rfl _ (by simp), ?_, fun h => by simp at h, fun h => by simp at h, ?_⟩
    · intro v hv; cases hv; exact .inr rfl
    · intro v hv; cases hv
    · intro _ v hv; cases hv
  pulses := by
    refine ⟨[_], rfl, fun p hp => ?_⟩
    rw [List.mem_singleton] at hp
    subst hp
    refine ⟨⟨_, rfl⟩, ?_, ⟨3, by norm_num, rfl⟩, doc_numbers rfl, ⟨"PiecewiseBasis", ⟨_, rfl, ?_⟩, fun _ h => by cases h⟩, .inl (.inl rfl),
      .inl (.inl rfl), .inl (.inl rfl), ?_⟩
    · intro v hv; cases hv; exact ⟨_, rfl⟩
    · exact ⟨by simp, ⟨.inl rfl, rfl⟩, ⟨1, le_refl _, rfl⟩, doc_numbers rfl, fun h => by simp at h⟩
    · decide
  params := ⟨[], rfl, fun p hp => by cases hp⟩
  times := by
    refine ⟨[_], rfl, fun p hp => ?_⟩
    rw [List.mem_singleton] at hp
    subst hp
    exact doc_exTime
  grape := fun _ h => by cases h

/-- `C99_follows_partial` holds for this dictionary with any L-BFGS-B, any gradients and any budget. -/
example (L : AdProgramLib) (m : ℤ) : ∃ r, optimizeAD exGrapeAround L (exAdOne m) = some (.ok r) ∧
    (L.minimize (.num (1 / 10 ^ 6)) (.num (10 ^ 10)) (.num (1 / 10 ^ 6)) (.num 20)
      (fun i : Fin 3 => (1 - 2 * (1 / (2 + i.val))) * 1)).Follows exGrapeAround (exAdOne m) (CallFor (-1) 2) (fun calls x => L.gradient calls x) false [] r.calls := by
  obtain ⟨h1, h2, _⟩ := exAdOne_plain m
  obtain ⟨r, hr⟩ := C99_runs (w := exGrapeAround) (L := L) exLib_installed (exAdOne_documented m)
  exact ⟨r, hr, C99_follows_partial hr h1 h2 rfl⟩

/-- the calls (for a gradient?) with the samples -/
def adSamplesOf : Option (Py AdOutcome) → List (Bool × List ℚ)
  | some (.ok r) => r.calls.map fun c => (c.forGradient, c.seen.1.pulses.flatten)
  | _ => []

set_option synthInstance.maxSize 1000 in
/-- One evaluation is allowed: for the second figure of merit there is no call, for the gradients there are. -/
example : adSamplesOf (optimizeAD exGrapeAround { exAdLib with minimize := fun _ _ _ _ _ x => exAdDescent (-1 / 4) 2 x } (exAdOne 1)) =
    [(false, [0, 1 / 3, 1 / 2]), (true, [0, 1 / 3, 1 / 2]), (true, [0, 1 / 2, 3 / 4])] := by decide +kernel

end QuOCS

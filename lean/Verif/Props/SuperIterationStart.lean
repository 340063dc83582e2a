/-
C89: a super-iteration starts at the best controls found so far, the first one at the initial guess.
-/
import Verif.Lemmas.FirstCall
import Verif.Lemmas.Delivered
import Verif.Props.Usable
import Verif.Props.CMAES
import Verif.Props.SuperIterations
import Verif.Props.EndToEnd

set_option linter.unusedSectionVars false
set_option linter.unusedVariables false

namespace QuOCS

section
variable {K F : Type} {n : ℕ} [Field K] [LinearOrder K] [IsStrictOrderedRing K]
variable [Add F] [Sub F] [Mul F] [Div F] [Neg F] [Zero F] [One F] [NatCast F] [LE F] [LT F] [DecidableLE F]
  [DecidableLT F]
variable {M : MathFns K} {pd : List (PulseDict K)} {td : List (TimeDict K)} {rd : List (ParamDict K)}
variable {sqrt : K → K} {rnd : ℕ → ℕ → List K} {draws : ℕ → Vec K (searchDim pd rd)}

theorem nmInit_startsAt (ks : List (Fin (n + 1))) (k : Fin (n + 1)) (s : NmState K F n) {α : Type}
    (f : NmState K F n → Strat K (Vec K n) F α) : (nmInit (k :: ks) s >>= f).StartsAt (s.sim k) :=
  .eval _ _

theorem nelderMead_startsAt (c : NmCfg K F n) (fuel i : ℕ) (x sg : Vec K n) {sim : List (Vec K n)} (h : sim[0]? = some x) :
    (nelderMead c fuel i x sim sg).StartsAt x := by
  unfold nelderMead
  split
  · rename_i hl
    have h0 : sim[((0 : Fin (n + 1)) : ℕ)]'(by rw [hl]; exact Fin.is_lt _) = x := by
      rw [List.getElem?_eq_getElem (by omega)] at h
      simpa using h
    refine .setConv _ _ fun _ => .now _ fun _ => .now _ fun t => ?_
    have := nmInit_startsAt (n := n) (α := DsmResult (Vec K n) F) ((List.finRange n).map Fin.succ) 0
      ({ sim := fun i => sim[i], fsim := fun _ => 0, calls := 0, iterations := 0, lastDrift := t } : NmState K F n)
      (fun s => do
        let s ← nmLoop c (nmCoef c.adaptive n) fuel { nmSort c s with iterations := 1 }
        let r ← Strat.call .reason
        pure { fMin := s.fsim 0, xOpt := s.sim 0, nit := s.iterations - 1, nfev := s.calls, reason := r })
    rw [show (({ sim := fun i => sim[i], fsim := fun _ => 0, calls := 0, iterations := 0, lastDrift := t } : NmState K F n).sim 0) = x from h0]
      at this
    rw [← List.finRange_succ] at this
    exact this
  · exact .fail _ _

theorem Strat.StartsAt.bind {V α β : Type} {x : V} {st : Strat K V F α} (h : st.StartsAt x) (f : α → Strat K V F β) :
    (Strat.bind st f).StartsAt x := by
  induction h with
  | eval it k => exact .eval it _
  | fail e k => exact .fail e _
  | setConv b k h ih => exact .setConv b _ ih
  | now k h ih => exact .now _ ih
  | fresh k k' hk h ih =>
    refine .fresh _ (fun r => Strat.bind (k' r) f) ?_ ih
    show Strat.bind (k ()) f = _
    rw [hk]; rfl

theorem cmaSample_startsAt {L : ℕ} (lib : CmaLib K F) (hL : 0 < L) (s : CmaState K F n L) (h : s.counteval = 0) :
    (cmaSample lib (List.finRange L) s).StartsAt s.xmean := by
  obtain ⟨m, rfl⟩ := Nat.exists_eq_succ_of_ne_zero hL.ne'
  rw [List.finRange_succ]
  unfold cmaSample
  rw [if_pos h]
  exact .eval _ _

theorem cmaRun_startsAt {L : ℕ} (lib : CmaLib K F) (hL : 0 < L) (fuel : ℕ) (x sg : Vec K n) :
    (cmaRun (F := F) lib hL fuel x sg).StartsAt x := by
  rcases fuel with _ | fuel
  · exact .setConv _ _ fun _ => .fail _ _
  · refine .fresh _ _ rfl ?_
    exact ((cmaSample_startsAt lib hL (cmaInit hL x sg) rfl).bind _).bind _

theorem cmaes_startsAt [FloorRing K] (lib : CmaLib K F) (p : Option K) (fuel i : ℕ) (x sg : Vec K n) (sim : List (Vec K n)) :
    (cmaes lib p fuel i x sim sg).StartsAt x := by
  unfold cmaes
  split
  · exact .setConv _ _ fun _ => .fail _ _
  · split
    · exact cmaRun_startsAt _ _ _ _ _
    · split <;> exact .setConv _ _ fun _ => .fail _ _

theorem system_starts (c : NmCfg K F (searchDim pd rd)) (fuel : ℕ) :
    StartsAtMean (systemOps .dcrab M sqrt rnd draws) (nelderMead c fuel) := by
  intro k x sg sim h
  refine nelderMead_startsAt c fuel k x sg ?_
  have h : simplexCreation sqrt x sg (draws k) = .ok sim := h
  unfold simplexCreation at h
  split at h
  · cases h
  · cases h
    simp

/-- Both search methods of the library start at the mean. -/
theorem library_starts [FloorRing K] {dsm : Dsm K (Vec K (searchDim pd rd)) F}
    (hd : (∃ c fuel, dsm = nelderMead c fuel) ∨ ∃ lib p fuel, dsm = cmaes lib p fuel) :
    StartsAtMean (systemOps .dcrab M sqrt rnd draws) dsm := by
  rcases hd with ⟨c, fuel, rfl⟩ | ⟨lib, p, fuel, rfl⟩
  · exact system_starts c fuel
  · exact fun k x sg sim h => cmaes_startsAt lib p fuel k x sg sim

theorem vecOfList_ofFn {l : List K} {v : Vec K n} (h : vecOfList n l = .ok v) : List.ofFn v = l := by
  unfold vecOfList at h
  split at h
  · rename_i hl
    cases h
    subst hl
    exact List.ofFn_getElem
  · cases h

theorem system_shows {c : Controls K} {x : Vec K (searchDim pd rd)} {o : ControlsOut K} :
    Shows (systemOps .dcrab M sqrt rnd draws) c x o ↔
      Shows (controlsOps M rnd (fun _ _ _ => .ok [])) c (List.ofFn x) o := by
  unfold Shows
  show (getControlsFor .dcrab M c (List.ofFn x)).map Prod.snd = _ ↔ (c.getControls M (List.ofFn x)).map Prod.snd = _
  unfold getControlsFor
  rcases c.getControls M (List.ofFn x) with e | r <;> simp [bind, Except.bind]

theorem system_restartable (hz : ∀ d ∈ pd, ZeroUpdate M d) (hT : FixedTimes td)
    (hu : Usable pd td rd) (hr : ∀ k, EnoughRandom pd (rnd k)) :
    Restartable (systemOps .dcrab M sqrt rnd draws) (Ready M pd td rd) := by
  refine ⟨fun k o o' h hs => ?_⟩
  have hs : o.selectBasis (rnd k) = .ok o' := hs
  obtain ⟨o2, h2, h3⟩ := h.select (hr k)
  rw [hs] at h2
  cases h2
  refine ⟨h3, ?_⟩
  rintro c ⟨x, hx, hc⟩
  have hx : (do vecOfList _ (← o.mean)) = .ok x := hx
  obtain ⟨l, hl, hv⟩ := py_bind_ok.1 hx
  rw [system_shows, vecOfList_ofFn hv] at hc
  obtain ⟨l', hl', hc'⟩ := (basis_standard (rnd := rnd) (simplex := fun _ _ _ => .ok []) hz hT k o o' h.reach hs).2 c ⟨l, hl, hc⟩
  obtain ⟨l2, h4, h5⟩ := h3.mean
  rw [show o'.mean = .ok l' from hl'] at h4
  cases h4
  obtain ⟨v, h6⟩ := vecOfList_exists h5
  refine ⟨v, ?_, ?_⟩
  · show (do vecOfList _ (← o'.mean)) = _
    rw [show o'.mean = .ok l' from hl']; exact h6
  · rw [system_shows, vecOfList_ofFn h6]; exact hc'

theorem system_kept (hu : Usable pd td rd) (hr : ∀ k, EnoughRandom pd (rnd k)) :
    KeptByOps (systemOps .dcrab M sqrt rnd draws) (Ready M pd td rd) := by
  have hF := system_faultless (M := M) (kind := .dcrab) hu (by simp) sqrt hr draws
  refine ⟨fun o x o' c h hg => ?_, fun o k o' h hg => ?_, fun o x o' h hg => ?_⟩
  · obtain ⟨a, b, h1, h2⟩ := hF.get o x h
    rw [hg] at h1; cases h1; exact h2
  · obtain ⟨a, h1, h2⟩ := hF.select k o h
    rw [hg] at h1; cases h1; exact h2
  · obtain ⟨a, h1, h2⟩ := hF.update o x h
    rw [hg] at h1; cases h1; exact h2

theorem system_best (hu : Usable pd td rd) (hr : ∀ k, EnoughRandom pd (rnd k)) {V : Type}
    {s : AlgState (Vec K (searchDim pd rd)) (ControlsOut K) (Controls K) F} (h : Ready M pd td rd s.ctl) :
    ∃ best, bestControls (systemOps .dcrab M sqrt rnd draws) s = .ok best := by
  have hF := system_faultless (M := M) (kind := .dcrab) hu (by simp) sqrt hr draws
  obtain ⟨x, h1⟩ := hF.mean s.ctl h
  obtain ⟨o, c, h2, _⟩ := hF.get s.ctl x h
  exact ⟨c, by unfold bestControls; simp only [h1, bind, Except.bind, h2]; rfl⟩

variable {cfg : AlgCfg K F} {env : Env (Vec K (searchDim pd rd)) (ControlsOut K) F}

/-- **C89, partial.** A dCRAB run with Nelder-Mead or CMA-ES searches, a usable dictionary, any shaping options, fixed times and bases
that give no update at zero coefficients; with or without re-evaluation, drift compensation or overwritten base pulses. A run with
`m + 1` super-iterations makes all the calls of the run with `m` super-iterations. If it makes further calls, the first of them
uses exactly the controls that `get_best_controls` returns after `m` super-iterations. This holds for all answers of the user's
function, all stop requests and all random numbers.
Missing: bases with an update at zero coefficients (none of the library, `C41_zero_update_every_basis`); optimized times, where it is false (`C89_optimized_time_restarts_elsewhere`). -/
theorem C89_super_iteration_starts_at_best_partial [FloorRing K] (hu : Usable pd td rd)
    (hz : ∀ d ∈ pd, ZeroUpdate M d) (hT : FixedTimes td) (hr : ∀ k, EnoughRandom pd (rnd k)) (hk : cfg.kind = .dcrab)
    {dsm : Dsm K (Vec K (searchDim pd rd)) F} (hd : (∃ c fuel, dsm = nelderMead c fuel) ∨ ∃ lib p fuel, dsm = cmaes lib p fuel)
    {o : Controls K} (ho : mkControls M pd td rd = .ok o) (m : ℕ) :
    let short := (execute { cfg with maxSI := m } env (systemOps .dcrab M sqrt rnd draws) dsm o).2
    let long := (execute { cfg with maxSI := m + 1 } env (systemOps .dcrab M sqrt rnd draws) dsm o).2
    ∃ best, bestControls (systemOps .dcrab M sqrt rnd draws) short = .ok best ∧
      (long.log = short.log ∨ ∃ first rest, long.log = short.log ++ first :: rest ∧ first.ctl = best) := by
  intro short long
  obtain ⟨o', h1, h2⟩ := mkControls_exists (M := M) hu
  obtain rfl : o' = o := by rw [ho] at h1; cases h1; rfl
  have hI : Ready M pd td rd short.ctl :=
    (execute_built (cfg := { cfg with maxSI := m }) (env := env) (system_kept (M := M) (sqrt := sqrt) (draws := draws) hu hr)
      dsm h2).ctl
  obtain ⟨best, hb⟩ := system_best (F := F) (V := Unit) (sqrt := sqrt) (draws := draws) hu hr hI
  exact ⟨best, hb, execute_succ (cfg := cfg) hk (system_restartable hz hT hu hr) (library_starts hd) m o' hI best hb⟩

end

section
variable {K : Type} [Field K] [LinearOrder K] [IsStrictOrderedRing K]
variable {M : MathFns K} {pd : List (PulseDict K)} {td : List (TimeDict K)} {rd : List (ParamDict K)}

theorem mkPulses_each {mi mi' : ℤ} {ps : List (Pulse K)} (h : mkPulses M mi pd = .ok (ps, mi')) :
    List.Forall₂ (fun d p => ∃ i, mkPulse M i d = .ok p) pd ps := by
  induction pd generalizing mi ps with
  | nil => cases h; exact .nil
  | cons d ds ih =>
    unfold mkPulses at h
    obtain ⟨p, h1, h⟩ := py_bind_ok.1 h
    obtain ⟨⟨ps', k⟩, h2, h⟩ := py_bind_ok.1 h
    rw [py_pure_ok] at h
    cases h
    exact .cons ⟨_, h1⟩ (ih h2)

/-- The pulse delivered by a new pulse object at zero coefficients. -/
theorem fresh_pulse {d : PulseDict K} {p q : Pulse K} {i : ℤ} {u sc g : List K} {T : K} (hp : mkPulse M i d = .ok p)
    (hsh : d.shapingOptions = none) (hz : ZeroUpdate M d) (hs : d.shrink = false)
    (hsc : d.scaling = .array sc ∨ ∃ f, d.scaling = .callable f ∧ f q.timeGrid = sc)
    (hg : d.guess = .array g ∨ ∃ f, d.guess = .callable f ∧ f q.timeGrid = g)
    (hscl : sc.length = d.binsNumber) (hgl : g.length = d.binsNumber)
    (h : p.getPulse M (zeros d.declared) T = .ok (q, u)) :
    u = List.zipWith (fun s y => cutSample (min d.lowerLimit d.upperLimit) (max d.lowerLimit d.upperLimit)
      (s * cutSample (min d.lowerLimit d.upperLimit) (max d.lowerLimit d.upperLimit) y)) sc g := by
  have hr : PulseReach M d p := .create hp
  obtain ⟨hlo, hup, hsk, hshape, hbins, hscal, hgu, _, hbas⟩ := hr.fields
  have hbase : p.basePulse = zeros d.binsNumber := by
    unfold mkPulse at hp
    dsimp only at hp
    split at hp
    · cases hp
    · cases hp; rfl
  unfold Pulse.getPulse at h
  obtain ⟨u', hv, h⟩ := py_bind_ok.1 h
  rw [py_pure_ok] at h
  obtain ⟨rfl, rfl⟩ := Prod.mk.inj h
  unfold Pulse.build at hv
  have hshape' : (p.setInputs (zeros d.declared) T).shaping =
      [.addInitialGuess, .addBasePulse, .addNewUpdatePulse, .scalePulse, .limitPulse] := by
    show p.shaping = _
    rw [hshape, hsh]; rfl
  rw [hshape'] at hv
  simp only [List.foldlM_cons, List.foldlM_nil, bind_pure] at hv
  obtain ⟨u1, hu1, hv⟩ := py_bind_ok.1 hv
  obtain ⟨u2, hu2, hv⟩ := py_bind_ok.1 hv
  obtain ⟨u3, hu3, hv⟩ := py_bind_ok.1 hv
  obtain ⟨u4, hu4, hv⟩ := py_bind_ok.1 hv
  have hzb : (zeros (p.setInputs (zeros d.declared) T).binsNumber : List K) = zeros d.binsNumber := by
    show zeros p.binsNumber = _
    rw [hbins]
  have hlim : ∀ l, (p.setInputs (zeros d.declared) T).limited l =
      .ok (l.map (cutSample (min d.lowerLimit d.upperLimit) (max d.lowerLimit d.upperLimit))) := by
    intro l
    unfold Pulse.limited
    rw [show (p.setInputs (zeros d.declared) T).shrink = false from hsk.trans hs,
      show (p.setInputs (zeros d.declared) T).lower = _ from hlo, show (p.setInputs (zeros d.declared) T).upper = _ from hup]
    rfl
  -- the guess
  have e1 : u1 = g.map (cutSample (min d.lowerLimit d.upperLimit) (max d.lowerLimit d.upperLimit)) := by
    simp only [Pulse.applyStep, Pulse.addInitialGuess, Pulse.initialGuess] at hu1
    rw [show (p.setInputs (zeros d.declared) T).guess = d.guess from hgu, hzb] at hu1
    have : bop (· + ·) (g.map (cutSample (min d.lowerLimit d.upperLimit) (max d.lowerLimit d.upperLimit))) (zeros d.binsNumber)
        = .ok u1 := by
      rcases hg with h | ⟨f, h, hf⟩
      · rw [h] at hu1
        simpa only [hlim, bind, Except.bind] using hu1
      · rw [h] at hu1
        simpa only [hlim, bind, Except.bind, hf] using hu1
    rw [bop_zeros (.inl (by simp [hgl]))] at this
    cases this; rfl
  subst e1
  have e2 : u2 = g.map (cutSample (min d.lowerLimit d.upperLimit) (max d.lowerLimit d.upperLimit)) := by
    simp only [Pulse.applyStep] at hu2
    rw [show (p.setInputs (zeros d.declared) T).basePulse = _ from hbase, bop_zeros (.inl (by simp [hgl]))] at hu2
    cases hu2; rfl
  subst e2
  have e3 : u3 = g.map (cutSample (min d.lowerLimit d.upperLimit) (max d.lowerLimit d.upperLimit)) := by
    obtain ⟨q, hq⟩ := hz p hr T
    have hshaped : (p.setInputs (zeros d.declared) T).shaped M = .ok (zeros d.binsNumber) := by
      unfold Pulse.getBarePulse at hq
      obtain ⟨w, h1, hq⟩ := py_bind_ok.1 hq
      rw [py_pure_ok] at hq
      cases hq
      exact h1
    simp only [Pulse.applyStep, hshaped, bind, Except.bind] at hu3
    rw [bop_zeros (.inl (by simp [hgl]))] at hu3
    cases hu3; rfl
  subst e3
  have e4 : u4 = List.zipWith (· * ·) sc (g.map (cutSample (min d.lowerLimit d.upperLimit) (max d.lowerLimit d.upperLimit))) := by
    simp only [Pulse.applyStep, Pulse.scale] at hu4
    rw [show (p.setInputs (zeros d.declared) T).scaling = d.scaling from hscal] at hu4
    have hl : sc.length = (g.map (cutSample (min d.lowerLimit d.upperLimit) (max d.lowerLimit d.upperLimit))).length := by
      simp [hscl, hgl]
    rcases hsc with h | ⟨f, h, hf⟩
    · rw [h] at hu4
      simp only at hu4
      rw [bop_eq hl] at hu4
      cases hu4; rfl
    · rw [h] at hu4
      simp only [hf] at hu4
      rw [bop_eq hl] at hu4
      cases hu4; rfl
  subst e4
  simp only [Pulse.applyStep, hlim, Except.ok.injEq] at hv
  rw [← hv]
  simp [List.map_zipWith, List.zipWith_map_right]

/-- The controls shown by a new object at its mean. -/
theorem fresh_controls {o : Controls K} (ho : mkControls M pd td rd = .ok o) {l : List K} (hl : o.mean = .ok l)
    {o' : Controls K} {out : ControlsOut K} (h : o.getControls M l = .ok (o', out)) :
    (∀ (i : ℕ) (d : ParamDict K), rd[i]? = some d → d.lower ≤ d.initialValue → d.initialValue ≤ d.upper → out.parameters[i]? = some d.initialValue) ∧
    ∀ (i : ℕ) (d : PulseDict K) (grid sc g : List K), pd[i]? = some d → out.timegrids[i]? = some grid →
      d.shapingOptions = none → ZeroUpdate M d → d.shrink = false →
      (d.scaling = .array sc ∨ ∃ f, d.scaling = .callable f ∧ f grid = sc) →
      (d.guess = .array g ∨ ∃ f, d.guess = .callable f ∧ f grid = g) →
      sc.length = d.binsNumber → g.length = d.binsNumber →
      out.pulses[i]? = some (List.zipWith (fun s y => cutSample (min d.lowerLimit d.upperLimit) (max d.lowerLimit d.upperLimit)
        (s * cutSample (min d.lowerLimit d.upperLimit) (max d.lowerLimit d.upperLimit) y)) sc g) := by
  have hreach : ControlsReach M pd td rd o := .create ho
  have I := CInv.of_reach hreach
  rw [C21_start_point hreach] at hl
  cases hl
  have ho' := ho
  unfold mkControls at ho'
  obtain ⟨⟨ps, mi⟩, h1, ho'⟩ := py_bind_ok.1 ho'
  obtain ⟨ts, h2, ho'⟩ := py_bind_ok.1 ho'
  rw [py_pure_ok] at ho'
  subst ho'
  have hp := mkPulses_each h1
  obtain ⟨ts', t1, t2, t3, t4, t5, t6, t7⟩ := getControls_parts h
  refine ⟨fun i d hd hlo hup => ?_, fun i d grid sc g hd hgrid hsh hz hs hsc hg hscl hgl => ?_⟩
  · obtain ⟨p, hpi, hpd⟩ := forall2_at I.params hd
    obtain ⟨q, hqi, v, hv, hq⟩ := forall2_at t6 hpi
    rw [gather_mean_param I p (List.mem_of_getElem? hpi)] at hv
    cases hv
    unfold Param.setParameter at hq
    obtain ⟨z, hz, hq⟩ := py_bind_ok.1 hq
    rw [py_pure_ok] at hq
    have hz : z = p.value := by
      simp only [getIdx] at hz
      simpa [eq_comm] using hz
    subst hz hq
    rw [t7, List.getElem?_map, hqi]
    have hval : p.value = d.initialValue := by
      obtain ⟨i1, i2, i3⟩ := mkPulses_inv (k := 0) h1
      simp only [Nat.cast_zero, zero_add] at i3
      have e : (mkParams mi rd).map (·.value) = rd.map (·.initialValue) := by
        rw [i3, (mkParams_inv (K := K) (k := (ps.map (·.nParams)).sum) rd).2.2]
      have := congrArg (fun l => l[i]?) e
      simp only [List.getElem?_map, hd, hpi, Option.map_some, Option.some.injEq] at this
      exact this
    simp only [Option.map_some, Option.some.injEq, Param.checkLimits, hval, hpd.2.1, hpd.2.2.1]
    rw [max_eq_right hlo, min_eq_left hup]
  · obtain ⟨p, hpi, k, hmk⟩ := forall2_at hp hd
    obtain ⟨⟨q, u⟩, hqi, v, t, hv, ht, hget⟩ := forall2_at t3 hpi
    rw [gather_mean_pulse I _ p (List.mem_of_getElem? hpi)] at hv
    cases hv
    have hn : p.nParams = d.declared := by
      have := (PulseReach.create hmk : PulseReach M d p).w_length.2.1
      exact this
    rw [hn] at hget
    obtain ⟨hq1, hq2⟩ := List.getElem?_zip_eq_some.1 hqi
    have hgr : q.timeGrid = grid := by
      rw [t5, List.getElem?_map, hq1] at hgrid
      simpa using hgrid
    subst hgr
    rw [hq2]
    exact congrArg some (fresh_pulse hmk hsh hz hs hsc hg hscl hgl hget)

end

section
variable {K F : Type} [Field K] [LinearOrder K] [IsStrictOrderedRing K]
variable [Add F] [Sub F] [Mul F] [Div F] [Neg F] [Zero F] [One F] [NatCast F] [LE F] [LT F] [DecidableLE F]
  [DecidableLT F]
variable {M : MathFns K} {pd : List (PulseDict K)} {td : List (TimeDict K)} {rd : List (ParamDict K)}
variable {sqrt : K → K} {rnd : ℕ → ℕ → List K} {draws : ℕ → Vec K (searchDim pd rd)}
variable {cfg : AlgCfg K F} {env : Env (Vec K (searchDim pd rd)) (ControlsOut K) F}

/-- **C89, partial.** In the same configurations the first call of the run uses the user's initial guess: every parameter has its
initial value if that is within its limits, and every pulse with default shaping that is cut to its limits has the samples scaling times
guess, both cut to the limits. Here `sc` and `g` are the samples of the user's scaling and guess (arrays, or functions of the delivered time grid).
Missing: as above; other shaping options. -/
theorem C89_first_call_is_initial_guess_partial [FloorRing K] (hu : Usable pd td rd)
    (hz : ∀ d ∈ pd, ZeroUpdate M d) (hT : FixedTimes td) (hr : ∀ k, EnoughRandom pd (rnd k)) (hk : cfg.kind = .dcrab)
    {dsm : Dsm K (Vec K (searchDim pd rd)) F} (hd : (∃ c fuel, dsm = nelderMead c fuel) ∨ ∃ lib p fuel, dsm = cmaes lib p fuel)
    {o : Controls K} (ho : mkControls M pd td rd = .ok o)
    {first : Call (Vec K (searchDim pd rd)) (ControlsOut K) F} {rest}
    (h : (execute cfg env (systemOps .dcrab M sqrt rnd draws) dsm o).2.log = first :: rest) :
    (∀ (i : ℕ) (d : ParamDict K), rd[i]? = some d → d.lower ≤ d.initialValue → d.initialValue ≤ d.upper →
      first.ctl.parameters[i]? = some d.initialValue) ∧
    ∀ (i : ℕ) (d : PulseDict K) (grid sc g : List K), pd[i]? = some d → first.ctl.timegrids[i]? = some grid →
      d.shapingOptions = none → d.shrink = false →
      (d.scaling = .array sc ∨ ∃ f, d.scaling = .callable f ∧ f grid = sc) →
      (d.guess = .array g ∨ ∃ f, d.guess = .callable f ∧ f grid = g) →
      sc.length = d.binsNumber → g.length = d.binsNumber →
      let cut := fun y => max (min y (max d.lowerLimit d.upperLimit)) (min d.lowerLimit d.upperLimit)
      first.ctl.pulses[i]? = some (List.zipWith (fun s y => cut (s * cut y)) sc g) := by
  obtain ⟨o', h1, h2⟩ := mkControls_exists (M := M) hu
  obtain rfl : o' = o := by rw [ho] at h1; cases h1; rfl
  obtain ⟨best, hb⟩ := system_best (F := F) (V := Unit) (sqrt := sqrt) (draws := draws) hu hr
    (s := initState cfg env o') h2
  have hfirst := execute_first (cfg := cfg) (env := env) hk (system_restartable hz hT hu hr) (library_starts hd) o' h2 best hb h
  have hb' := showsMean_of_best hb
  obtain ⟨x, hx, hs⟩ := hb'
  have hx : (do vecOfList _ (← o'.mean)) = .ok x := hx
  obtain ⟨l, hl, hv⟩ := py_bind_ok.1 hx
  rw [system_shows, vecOfList_ofFn hv] at hs
  have hs : (o'.getControls M l).map Prod.snd = .ok best := hs
  rcases hg : o'.getControls M l with e | ⟨o2, out⟩
  · rw [hg] at hs; cases hs
  · rw [hg] at hs
    have hs : out = best := by simpa [Except.map] using hs
    subst hs
    rw [hfirst]
    obtain ⟨a1, a2⟩ := fresh_controls ho hl hg
    exact ⟨a1, fun i d grid sc g hd hgr hsh => a2 i d grid sc g hd hgr hsh (hz d (List.mem_of_getElem? hd))⟩

end
/-! ### Concrete instance -/

/-- one pulse that is cut to its limits `-20`, `8`, guess `t ↦ 5 t`, scaling 1/2; one fixed time -/
def exSPd : List (PulseDict ℚ) :=
  [{ exDict with basis := .sinc 1 1, shrink := false, lowerLimit := -20, upperLimit := 8
                 scaling := .callable (fun t => t.map (fun _ => 1 / 2)) }]

/-- the user's function: minus the second sample -/
def exSEnv : Env (Vec ℚ 1) (ControlsOut ℚ) ℚ :=
  { exUEnv 0 with getFoM := fun _ c => .ok ⟨some (-(c.pulses.flatten.getD 1 0)), none, none⟩ }

/-- at most two calls in each super-iteration -/
def exSCfg : AlgCfg ℚ ℚ :=
  { exCfg .dcrab 100 false none none with
    sc := { maxEval := 2, timeLim := 1000, xatol := 0, fatol := 0, cbsEvals := 100, cbsChange := 0 } }

def exSOps : CtlOps (Controls ℚ) (Vec ℚ 1) (ControlsOut ℚ) :=
  systemOps .dcrab exFns id (fun k _ => [1 / (k + 2)]) (fun _ _ => 1 / 2)

/-- a run with `m` super-iterations: the end, the pulses of each call, the pulses of the best controls -/
def exSRun (m : ℕ) : Py (Py Unit × List (List (List ℚ)) × Py (List (List ℚ))) := do
  let o ← mkControls exFns exSPd exTd []
  let r := execute { exSCfg with maxSI := m } exSEnv exSOps (nelderMead (exNm exArgsort1) 5) o
  pure (r.1, r.2.log.map (fun c => c.ctl.pulses), (bestControls exSOps r.2).map (fun c => c.pulses))

theorem exSPd_usable : Usable exSPd exTd [] := by
  refine ⟨.inl (by simp [exSPd]), fun d hd => ?_, fun t ht h => ?_⟩
  · obtain rfl : d = _ := by simpa [exSPd] using hd
    refine ⟨by decide, by decide, trivial, fun t ht => .inl (by simpa using ht), fun t ht => .inl (by simpa using ht), ?_⟩
    exact ⟨_, List.mem_cons_self, rfl⟩
  · obtain rfl : t = _ := by simpa [exTd] using ht
    cases h

/-- the hypotheses of both theorems are met -/
example : Usable exSPd exTd [] ∧ (∀ d ∈ exSPd, d.shapingOptions = none) ∧ (∀ d ∈ exSPd, ZeroUpdate exFns d) ∧ FixedTimes exTd ∧
    (∀ k : ℕ, EnoughRandom exSPd ((fun k _ => [1 / (k + 2)] : ℕ → ℕ → List ℚ) k)) ∧ exSCfg.kind = .dcrab ∧
    ∀ d ∈ exSPd, d.shrink = false := by
  refine ⟨exSPd_usable, by simp [exSPd, exDict], fun d hd => ?_, by simp [FixedTimes, exTd], fun k i d hd => ?_, rfl, by simp [exSPd]⟩
  · obtain rfl : d = _ := by simpa [exSPd] using hd
    exact C37_zeroUpdate _ (.inl trivial)
  · rcases i with _ | i
    · cases hd; exact le_refl 1
    · simp [exSPd] at hd

set_option synthInstance.maxSize 1000 in
/-- One super-iteration improves the guess `[0, 5, 10]` (cut to 8, times 1/2) in four calls. The run with two super-iterations
makes four more calls, the first of them at the best controls. -/
example : exSRun 1 = .ok (.ok (),
      [[[0, 5 / 2, 4]], [[5 / 14, 20 / 7, 61 / 14]], [[5 / 7, 45 / 14, 33 / 7]], [[15 / 14, 25 / 7, 71 / 14]]],
      .ok [[15 / 14, 25 / 7, 71 / 14]]) ∧
    exSRun 2 = .ok (.ok (),
      [[[0, 5 / 2, 4]], [[5 / 14, 20 / 7, 61 / 14]], [[5 / 7, 45 / 14, 33 / 7]], [[15 / 14, 25 / 7, 71 / 14]],
       [[15 / 14, 25 / 7, 71 / 14]], [[10 / 7, 55 / 14, 38 / 7]], [[25 / 14, 30 / 7, 81 / 14]], [[15 / 7, 65 / 14, 43 / 7]]],
      .ok [[15 / 7, 65 / 14, 43 / 7]]) := by
  constructor <;> decide +kernel

/-- a run with two super-iterations with other shaping options or times: the end, the pulses, time grids and answers of the calls, the
best pulses and time grids -/
def exSGen (so : Option (List String)) (td : List (TimeDict ℚ)) (m : ℕ) :
    Py (Py Unit × List (List (List ℚ) × List (List ℚ) × Option ℚ) × Py (List (List ℚ) × List (List ℚ))) := do
  let o ← mkControls exFns (exSPd.map fun d => { d with shapingOptions := so }) td []
  let r := execute { exSCfg with maxSI := m } exSEnv exSOps (nelderMead (exNm exArgsort1) 5) o
  pure (r.1, r.2.log.map (fun c => (c.ctl.pulses, c.ctl.timegrids, match c.ans with | .ok a => a.fom | .error _ => none)),
    (bestControls exSOps r.2).map (fun c => (c.pulses, c.timegrids)))

set_option synthInstance.maxSize 1000 in
/-- **C89 is violated with an optimized time**: the first super-iteration ends with the time 3 and the figure of merit -9/2. The second one
starts again with the initial time 2 and the figure of merit -13/4. -/
theorem C89_optimized_time_restarts_elsewhere : exSGen none exTdOpt 2 = .ok (.ok (),
    [([[0, 5 / 2, 4]], [[0, 1, 2]], some (-5 / 2)), ([[1 / 4, 4, 17 / 4]], [[0, 3 / 2, 3]], some (-4)),
     ([[1 / 2, 17 / 4, 9 / 2]], [[0, 3 / 2, 3]], some (-17 / 4)), ([[3 / 4, 9 / 2, 19 / 4]], [[0, 3 / 2, 3]], some (-9 / 2)),
     ([[3 / 4, 13 / 4, 19 / 4]], [[0, 1, 2]], some (-13 / 4)), ([[1, 19 / 4, 5]], [[0, 3 / 2, 3]], some (-19 / 4)),
     ([[5 / 4, 5, 21 / 4]], [[0, 3 / 2, 3]], some (-5)), ([[3 / 2, 21 / 4, 11 / 2]], [[0, 3 / 2, 3]], some (-21 / 4))],
    .ok ([[3 / 2, 4, 11 / 2]], [[0, 1, 2]])) := by
  decide +kernel

/-- the same with CMA-ES, two individuals -/
def exSRunC (m : ℕ) : Py (Py Unit × List (List (List ℚ)) × Py (List (List ℚ))) := do
  let o ← mkControls exFns exSPd exTd []
  let r := execute { exSCfg with maxSI := m } exSEnv exSOps (cmaes exCmaLib (some 2) 5) o
  pure (r.1, r.2.log.map (fun c => c.ctl.pulses), (bestControls exSOps r.2).map (fun c => c.pulses))

set_option synthInstance.maxSize 1000 in
/-- Two calls in each super-iteration; the third call is at the best controls of the first two. -/
example : exSRunC 2 = .ok (.ok (),
      [[[0, 5 / 2, 4]], [[5 / 14, 20 / 7, 61 / 14]], [[5 / 14, 20 / 7, 61 / 14]], [[5 / 7, 45 / 14, 33 / 7]]],
      .ok [[5 / 7, 45 / 14, 33 / 7]]) := by
  decide +kernel

end QuOCS

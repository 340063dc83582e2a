/-
Property C86: the gradient of GRAPE and the control parameters.
-/
import Verif.Model.GrapeControls
import Verif.Props.Grape
import Verif.Props.Controls
import Verif.Props.Shaping

set_option linter.unusedSectionVars false
set_option linter.unusedVariables false

namespace QuOCS
open Matrix

section length
variable {d n : ℕ} {M : MathFns ℝ} {prop : ControlsOut ℝ → Py (List (CMat d))} {cast : CMat d → CMat d} {transfer : Bool}
  {B : CMat d} {c : Controls ℝ} {rho corho : List (CMat d)} {x g : List ℝ} {rest : Controls ℝ × List (CMat d) × List (CMat d)}
  {pd : List (PulseDict ℝ)} {td : List (TimeDict ℝ)} {rd : List (ParamDict ℝ)}

theorem grapeEntries_length {dt : ℝ} {g : List ℝ} (h : grapeEntries transfer dt B n rho corho = .ok g) : g.length = n := by
  unfold grapeEntries at h
  rw [mapM_ok] at h
  simpa using h.length_eq.symm

theorem grapeGetGradient_length (h : grapeGetGradient M prop cast transfer B n c rho corho x = .ok (g, rest)) : g.length = n := by
  unfold grapeGetGradient at h
  obtain ⟨r, _, h⟩ := py_bind_ok.1 h
  obtain ⟨U, _, h⟩ := py_bind_ok.1 h
  obtain ⟨tg, _, h⟩ := py_bind_ok.1 h
  obtain ⟨g', hg, h⟩ := py_bind_ok.1 h
  cases h
  unfold grapeGradient at hg
  obtain ⟨dt, _, hg⟩ := py_bind_ok.1 hg
  obtain ⟨r1, _, hg⟩ := py_bind_ok.1 hg
  obtain ⟨r2, _, hg⟩ := py_bind_ok.1 hg
  obtain ⟨g2, hg2, hg⟩ := py_bind_ok.1 hg
  cases hg
  exact grapeEntries_length hg2

theorem PulseReach.nParams_pos {p : PulseDict ℝ} {q : Pulse ℝ} (h : PulseReach M p q) : 0 < q.nParams := by
  rw [h.w_length.2.1]
  induction h with
  | create h =>
    unfold mkPulse at h
    simp only at h
    split at h
    · cases h
    · omega
  | inputs _ _ _ ih => exact ih
  | get _ _ ih => exact ih
  | bare _ _ ih => exact ih
  | base _ _ ih => exact ih
  | draw _ _ ih => exact ih
  | index _ _ ih => exact ih

/-- **C86** (number of entries). If there is one pulse with the piecewise basis and no parameter, the gradient of every call
has one entry for each control parameter. Missing: all other lists of controls (see `C86_wrong_number_of_entries`). -/
theorem C86_one_entry_per_parameter_partial {p : PulseDict ℝ} (hr : ControlsReach M [p] td [] c) (hp : p.basis = .piecewise)
    (hn : grapeSlices c = .ok n)
    (h : grapeGetGradient M prop cast transfer B n c rho corho x = .ok (g, rest)) : g.length = c.number := by
  rw [grapeGetGradient_length h]
  have hi := CInv.of_reach hr
  obtain ⟨q, ps, hq, hps, e⟩ := List.forall₂_cons_left_iff.1 hi.reach
  cases hps
  have hpar : c.params = [] := by
    exact List.forall₂_nil_left_iff.1 hi.params
  unfold grapeSlices at hn
  rw [e] at hn
  cases hn
  simp only [Controls.number, e, hpar, List.map_cons, List.map_nil, List.sum_cons, List.sum_nil, add_zero]
  rw [hq.fields.2.2.2.2.1, hq.w_length.2.1]
  simp [hp, basisParams]

/-- **C86 is violated** by every other list of controls that starts with a piecewise pulse: as soon as there is a second pulse
or a parameter, the gradient has fewer entries than there are control parameters. -/
theorem C86_wrong_number_of_entries {p : PulseDict ℝ} {ps : List (PulseDict ℝ)} (hr : ControlsReach M (p :: ps) td rd c)
    (hp : p.basis = .piecewise) (hmore : ps ≠ [] ∨ rd ≠ []) (hn : grapeSlices c = .ok n)
    (h : grapeGetGradient M prop cast transfer B n c rho corho x = .ok (g, rest)) : g.length < c.number := by
  rw [grapeGetGradient_length h]
  have hi := CInv.of_reach hr
  obtain ⟨q, qs, hq, hqs, e⟩ := List.forall₂_cons_left_iff.1 hi.reach
  unfold grapeSlices at hn
  rw [e] at hn
  cases hn
  have e1 : q.nParams = q.binsNumber := by
    rw [hq.fields.2.2.2.2.1, hq.w_length.2.1]
    simp [hp, basisParams]
  simp only [Controls.number, e, List.map_cons, List.sum_cons, e1]
  have : 0 < (qs.map (·.nParams)).sum + (c.params.map fun _ => 1).sum := by
    rcases hmore with hm | hm
    · obtain ⟨p', ps', rfl⟩ := List.exists_cons_of_ne_nil hm
      obtain ⟨q', qs', hq', _, rfl⟩ := List.forall₂_cons_left_iff.1 hqs
      have := hq'.nParams_pos
      simp only [List.map_cons, List.sum_cons]
      omega
    · obtain ⟨r, rs, rfl⟩ := List.exists_cons_of_ne_nil hm
      obtain ⟨r', rs', _, _, e'⟩ := List.forall₂_cons_left_iff.1 hi.params
      simp only [e', List.map_cons, List.sum_cons]
      omega
  omega

end length

/-! ### The entries -/

section entries
variable {d n : ℕ} {M : MathFns ℝ} {c c' : Controls ℝ} {x : List ℝ} {td : List (TimeDict ℝ)} {pd : PulseDict ℝ}

/-- rows of real amplitudes as complex numbers -/
def complexRows (l : List (List ℝ)) : List (List ℂ) := l.map (·.map Complex.ofReal)

theorem gather_range' {x : List ℝ} {n : ℕ} (h : x.length = n) : gather x (List.range' 0 n) = .ok x := by
  unfold gather
  rw [mapM_ok, List.forall₂_iff_get]
  refine ⟨by simp [h], fun i h1 h2 => ?_⟩
  simp [getIdx, h2]

/-- The samples of the scaling function are `sc`, whatever the duration is: an array, or a function of time (for example
the default `lambda t: 1.0 + 0.0 * t`, with samples `1`). -/
def PulseDict.ScalesBy (pd : PulseDict ℝ) (sc : List ℝ) : Prop :=
  pd.scaling = .array sc ∨ ∃ f, pd.scaling = .callable f ∧ ∀ T, f (linspace0 T pd.binsNumber) = sc

/-- A pulse with the piecewise basis and default shaping, cut to its limits: every vector of the right length is accepted if
one is, and the delivered pulse is the cut of scaling times (base and guess + vector). -/
theorem piecewise_pulse {p q : Pulse ℝ} {v u sc : List ℝ} {T : ℝ} (hr : PulseReach M pd p) (hb : pd.basis = .piecewise)
    (ho : pd.shapingOptions = none) (hs : pd.shrink = false) (hsc : pd.ScalesBy sc) (hscl : sc.length = pd.binsNumber)
    (h2 : 2 ≤ pd.binsNumber) (h : p.getPulse M v T = .ok (q, u)) :
    ∃ w : List ℝ, w.length = pd.binsNumber ∧ ∀ v' : List ℝ, v'.length = pd.binsNumber → p.getPulse M v' T = .ok (p.setInputs v' T,
      (List.zipWith (· * ·) sc (List.zipWith (· + ·) w v')).map (cutSample (min pd.lowerLimit pd.upperLimit) (max pd.lowerLimit pd.upperLimit))) := by
  obtain ⟨hlo, hup, hsh, hshape, hbins, hscal, hgu, _, hbas⟩ := hr.fields
  unfold Pulse.getPulse at h
  obtain ⟨u', hv, h⟩ := py_bind_ok.1 h
  unfold Pulse.build at hv
  have hshape' : ∀ v', (p.setInputs v' T).shaping = [.addInitialGuess, .addBasePulse, .addNewUpdatePulse, .scalePulse, .limitPulse] := by
    intro v'
    show p.shaping = _
    rw [hshape, ho]; rfl
  rw [hshape'] at hv
  simp only [List.foldlM_cons, List.foldlM_nil, bind_pure] at hv
  obtain ⟨u1, hu1, hv⟩ := py_bind_ok.1 hv
  obtain ⟨u2, hu2, hv⟩ := py_bind_ok.1 hv
  have hlu : (p.setInputs v T).lower ≤ (p.setInputs v T).upper := by
    show p.lower ≤ p.upper
    rw [hlo, hup]; exact min_le_max
  have hskl : ScalingKeepsLength (p.setInputs v T).scaling := by
    show ScalingKeepsLength p.scaling
    rw [hscal]
    rcases hsc with h | ⟨f, h, _⟩ <;> (rw [h]; intro f' hf'; simp at hf')
  have hz : (zeros (p.setInputs v T).binsNumber : List ℝ).length = pd.binsNumber := by
    show (zeros p.binsNumber : List ℝ).length = _
    simp [zeros, hbins]
  have l1 := applyStep_length hlu hskl (by rw [hz]; omega) hu1
  have l2 := applyStep_length hlu hskl (by rw [l1, hz]; omega) hu2
  have l2' : u2.length = pd.binsNumber := by rw [l2, l1, hz]
  refine ⟨u2, l2', fun v' hv' => ?_⟩
  have a1 : (p.setInputs v' T).applyStep M (zeros (p.setInputs v' T).binsNumber) .addInitialGuess = .ok u1 := hu1
  have a2 : (p.setInputs v' T).applyStep M u1 .addBasePulse = .ok u2 := hu2
  have a3 : (p.setInputs v' T).applyStep M u2 .addNewUpdatePulse = .ok (List.zipWith (· + ·) u2 v') := by
    have : (p.setInputs v' T).shaped M = .ok v' := by
      unfold Pulse.shaped
      rw [show (p.setInputs v' T).basis = .piecewise from hbas.trans hb]
      rfl
    simp only [Pulse.applyStep, this]
    exact bop_eq (by rw [l2', hv'])
  have a4 : (p.setInputs v' T).applyStep M (List.zipWith (· + ·) u2 v') .scalePulse
      = .ok (List.zipWith (· * ·) sc (List.zipWith (· + ·) u2 v')) := by
    simp only [Pulse.applyStep, Pulse.scale]
    rcases hsc with h | ⟨f, h, hf⟩
    · rw [show (p.setInputs v' T).scaling = .array sc from hscal.trans h]
      exact bop_eq (by simp [hscl, l2', hv'])
    · rw [show (p.setInputs v' T).scaling = .callable f from hscal.trans h]
      have : f (p.setInputs v' T).timeGrid = sc := by
        show f (linspace0 T p.binsNumber) = sc
        rw [hbins, hf]
      simp only [this]
      exact bop_eq (by simp [hscl, l2', hv'])
  have a5 : ∀ w, (p.setInputs v' T).applyStep M w .limitPulse
      = .ok (w.map (cutSample (min pd.lowerLimit pd.upperLimit) (max pd.lowerLimit pd.upperLimit))) := by
    intro w
    simp only [Pulse.applyStep, Pulse.limited]
    rw [show (p.setInputs v' T).shrink = false from hsh.trans hs, ← hlo, ← hup]
    rfl
  refine py_bind_ok.2 ⟨_, ?_, rfl⟩
  unfold Pulse.build
  rw [hshape']
  simp only [List.foldlM_cons, List.foldlM_nil, bind_pure]
  exact py_bind_ok.2 ⟨_, a1, py_bind_ok.2 ⟨_, a2, py_bind_ok.2 ⟨_, a3, py_bind_ok.2 ⟨_, a4, a5 _⟩⟩⟩⟩

/-- The controls object with one piecewise pulse. -/
theorem piecewise_controls {sc : List ℝ} {o : ControlsOut ℝ} (hr : ControlsReach M [pd] td [] c) (hft : FixedTimes td) (hb : pd.basis = .piecewise)
    (ho : pd.shapingOptions = none) (hs : pd.shrink = false) (hsc : pd.ScalesBy sc) (hscl : sc.length = pd.binsNumber)
    (h2 : 2 ≤ pd.binsNumber) (h : c.getControls M x = .ok (c', o)) :
    ∃ (w : List ℝ) (T : ℝ), w.length = pd.binsNumber ∧ ∀ v : List ℝ, v.length = pd.binsNumber →
      ∃ cv, c.getControls M v = .ok (cv, ⟨[(List.zipWith (· * ·) sc (List.zipWith (· + ·) w v)).map
        (cutSample (min pd.lowerLimit pd.upperLimit) (max pd.lowerLimit pd.upperLimit))], [linspace0 T pd.binsNumber], []⟩) := by
  have hi := CInv.of_reach hr
  obtain ⟨p, ps, hp, hps, e⟩ := List.forall₂_cons_left_iff.1 hi.reach
  cases hps
  have hpar : c.params = [] := List.forall₂_nil_left_iff.1 hi.params
  have hct : p.ctrlList = List.range' 0 pd.binsNumber := by
    have := hi.pchain
    rw [e] at this
    rw [this.1, hp.w_length.2.1, hb]
    rfl
  have hst : ∀ v : List ℝ, setTimes v c.times = .ok c.times := by
    intro v
    unfold setTimes
    rw [mapM_ok, List.forall₂_same]
    intro t ht
    rw [hi.fixed hft t ht]
    rfl
  unfold Controls.getControls at h
  rw [hst, e] at h
  obtain ⟨ts, h1, h⟩ := py_bind_ok.1 h
  cases h1
  obtain ⟨r, h1, h⟩ := py_bind_ok.1 h
  rw [mapM_ok] at h1
  obtain ⟨r1, rs, hr1, _, _⟩ := List.forall₂_cons_left_iff.1 h1
  obtain ⟨v0, hv0, hr1⟩ := py_bind_ok.1 hr1
  obtain ⟨t, ht, hr1⟩ := py_bind_ok.1 hr1
  obtain ⟨w, hw, hall⟩ := piecewise_pulse hp hb ho hs hsc hscl h2 (q := r1.1) (u := r1.2) hr1
  refine ⟨w, t.getTime, hw, fun v hv => ?_⟩
  have hg := gather_range' hv
  rw [← hct] at hg
  refine ⟨⟨[p.setInputs v t.getTime], [], c.times⟩, ?_⟩
  unfold Controls.getControls
  rw [hst, e, hpar, ← hp.fields.2.2.2.2.1]
  refine py_bind_ok.2 ⟨_, rfl, py_bind_ok.2 ⟨[(p.setInputs v t.getTime, _)], ?_, py_bind_ok.2 ⟨[], rfl, rfl⟩⟩⟩
  rw [mapM_ok]
  exact .cons (py_bind_ok.2 ⟨_, hg, py_bind_ok.2 ⟨_, ht, hall v hv⟩⟩) .nil

/-- A propagator function of the user as in the examples: the propagators of the slices for the delivered pulses. -/
noncomputable def slicePropagators (store : List (CMat d)) (A B : CMat d) (n : ℕ) (o : ControlsOut ℝ) : Py (List (CMat d)) :=
  getIdx o.timegrids 0 >>= fun tg => grapeDt tg >>= fun dt => pwEvolution NormedSpace.exp store (complexRows o.pulses) A [B] n dt

/-- The evolution under delivered pulses. -/
noncomputable def evolutionUnder (A B : CMat d) (n : ℕ) (o : ControlsOut ℝ) : Py (CMat d) :=
  getIdx o.timegrids 0 >>= fun tg => grapeDt tg >>= fun dt => pwFinalEvolution NormedSpace.exp (complexRows o.pulses) A [B] n dt 1

theorem cutSample_inside {lo up y : ℝ} (h1 : lo < cutSample lo up y) (h2 : cutSample lo up y < up) : cutSample lo up y = y := by
  unfold cutSample at *
  rcases lt_max_iff.1 h1 with h | h
  · rw [max_eq_left h.le] at h2 ⊢
    rcases min_lt_iff.1 h2 with h' | h'
    · exact min_eq_left h'.le
    · exact absurd h' (lt_irrefl _)
  · exact absurd h (lt_irrefl _)

/-- What the entries of the gradient are: for one piecewise pulse with a scaling array, limits that do not act, and a control
that commutes with the drift, entry `t` times the scaling of slice `t` is minus the derivative of the overlap with respect to
control parameter `t`. -/
theorem gradient_and_scaling {A B initial target : CMat d} {store : List (CMat d)} {sc u : List ℝ} {o : ControlsOut ℝ}
    (hr : ControlsReach M [pd] td [] c) (hft : FixedTimes td) (hb : pd.basis = .piecewise)
    (ho : pd.shapingOptions = none) (hs : pd.shrink = false) (hsc : pd.ScalesBy sc) (hscl : sc.length = pd.binsNumber)
    (h2 : 2 ≤ pd.binsNumber) (hx : x.length = pd.binsNumber) (h : c.getControls M x = .ok (c', o))
    (hu : o.pulses = [u]) (hin : ∀ y ∈ u, min pd.lowerLimit pd.upperLimit < y ∧ y < max pd.lowerLimit pd.upperLimit)
    (hB : Bᴴ = B) (hc : A * B = B * A) (hst : store.length = pd.binsNumber) :
    ∃ g rest, grapeGetGradient M (slicePropagators store A B pd.binsNumber) id true B pd.binsNumber c
        (grapeRhoInit id pd.binsNumber initial) (grapeCorhoInit id pd.binsNumber target) x = .ok (g, rest) ∧
      ∀ t < pd.binsNumber, ∃ (gt s : ℝ) (E : ℝ → CMat d), g[t]? = some gt ∧ sc[t]? = some s ∧
        (∀ e : ℝ, ∃ ce oe, c.getControls M (x.set t (x.getD t 0 + e)) = .ok (ce, oe) ∧
          evolutionUnder A B pd.binsNumber oe = .ok (E e)) ∧
        HasDerivAt (fun e : ℝ => overlap target initial (E e)) (-(s * gt)) 0 := by
  obtain ⟨w, T, hw, hall⟩ := piecewise_controls hr hft hb ho hs hsc hscl h2 h
  set n := pd.binsNumber with hn
  set lo := min pd.lowerLimit pd.upperLimit
  set up := max pd.lowerLimit pd.upperLimit
  obtain ⟨cx, hcx⟩ := hall x hx
  have eo := Prod.mk.inj (Except.ok.inj (h.symm.trans hcx))
  obtain ⟨rfl, rfl⟩ := eo
  have hu' := (List.cons.inj hu).1
  clear hu
  have hul : u.length = n := by rw [← hu']; simp [hscl, hw, hx]
  set tg := linspace0 T n with htgd
  have htl : tg.length = n := by simp [tg, linspace0]
  obtain ⟨tend, htend⟩ : ∃ tend, tg.getLast? = some tend := by
    have : tg ≠ [] := by intro h0; rw [h0] at htl; simp at htl; omega
    exact ⟨_, List.getLast?_eq_some_getLast this⟩
  have hdt : grapeDt tg = .ok (tend / tg.length) := by
    unfold grapeDt lastIdx
    rw [htend]; rfl
  have hraw : ∀ i, i < n → u.getD i 0 = sc.getD i 0 * (w.getD i 0 + x.getD i 0) := by
    intro i hi
    have h1 : u[i]? = some (cutSample lo up (sc.getD i 0 * (w.getD i 0 + x.getD i 0))) := by
      rw [← hu']
      simp [hscl, hw, hx, hi]
    have hm := hin _ (List.mem_of_getElem? h1)
    rw [List.getD_eq_getElem?_getD, h1]
    exact cutSample_inside hm.1 hm.2
  obtain ⟨U, g, rho, corho, p1, p2, p3, p4⟩ := C57_commuting_gradient_partial (A := A) (B := B) (row := u.map Complex.ofReal) (n := n)
    htend (by simpa using hul) initial target hB hc hst
  refine ⟨g, (c', rho, corho), ?_, fun t ht => ?_⟩
  · unfold grapeGetGradient
    refine py_bind_ok.2 ⟨_, hcx, py_bind_ok.2 ⟨U, ?_, py_bind_ok.2 ⟨tg, rfl, py_bind_ok.2 ⟨_, p2, rfl⟩⟩⟩⟩
    unfold slicePropagators
    refine py_bind_ok.2 ⟨tg, rfl, py_bind_ok.2 ⟨_, hdt, ?_⟩⟩
    rw [← p1, ← hu']
    rfl
  · obtain ⟨gt, E', q1, q2, q3⟩ := p4 t ht
    have hlen : ∀ e : ℝ, (x.set t (x.getD t 0 + e)).length = n := fun e => by simp [hx]
    have hall' : ∀ e : ℝ, ∃ E ce oe, c.getControls M (x.set t (x.getD t 0 + e)) = .ok (ce, oe) ∧
        oe.pulses = [(List.zipWith (· * ·) sc (List.zipWith (· + ·) w (x.set t (x.getD t 0 + e)))).map (cutSample lo up)] ∧
        oe.timegrids = [tg] ∧ evolutionUnder A B n oe = .ok E := by
      intro e
      obtain ⟨ce, hce⟩ := hall _ (hlen e)
      have hE : ∀ r : List ℝ, r.length = n → ∃ E, evolutionUnder A B n ⟨[r], [tg], []⟩ = .ok E := by
        intro r hr
        refine ⟨_, py_bind_ok.2 ⟨tg, rfl, py_bind_ok.2 ⟨_, hdt, TE.final_ok ?_ 1⟩⟩⟩
        intro k hk
        obtain rfl : k = 0 := by simpa using hk
        exact ⟨r.map Complex.ofReal, rfl, by simp [hr]⟩
      obtain ⟨Ee, hEe⟩ := hE ((List.zipWith (· * ·) sc (List.zipWith (· + ·) w (x.set t (x.getD t 0 + e)))).map (cutSample lo up))
        (by simp [hscl, hw, hx])
      exact ⟨Ee, ce, _, hce, rfl, rfl, hEe⟩
    choose E ce oe r1 r2 r3 r4 using hall'
    refine ⟨gt, sc.getD t 0, E, q1, ?_, fun e => ⟨ce e, oe e, r1 e, r4 e⟩, ?_⟩
    · rw [List.getD_eq_getElem?_getD, List.getElem?_eq_getElem (by omega)]; rfl
    have hm := hin (u.getD t 0) (by
      rw [List.getD_eq_getElem?_getD, List.getElem?_eq_getElem (by omega)]; exact List.getElem_mem _)
    have hev : ∀ᶠ e in nhds (0 : ℝ), lo < u.getD t 0 + sc.getD t 0 * e ∧ u.getD t 0 + sc.getD t 0 * e < up := by
      have hcont : Filter.Tendsto (fun e : ℝ => u.getD t 0 + sc.getD t 0 * e) (nhds 0) (nhds (u.getD t 0)) := by
        have : Continuous fun e : ℝ => u.getD t 0 + sc.getD t 0 * e := by fun_prop
        simpa using this.tendsto 0
      exact hcont.eventually (Ioo_mem_nhds hm.1 hm.2)
    have heq : (fun e : ℝ => overlap target initial (E e)) =ᶠ[nhds 0] fun e => overlap target initial (E' (sc.getD t 0 * e)) := by
      refine hev.mono fun e he => ?_
      have hrow : (List.zipWith (· * ·) sc (List.zipWith (· + ·) w (x.set t (x.getD t 0 + e)))).map (cutSample lo up)
          = u.set t (u.getD t 0 + sc.getD t 0 * e) := by
        refine List.ext_getElem? fun i => ?_
        by_cases hi : i < n
        · have h1 : ((List.zipWith (· * ·) sc (List.zipWith (· + ·) w (x.set t (x.getD t 0 + e)))).map (cutSample lo up))[i]?
              = some (cutSample lo up (sc.getD i 0 * (w.getD i 0 + (x.set t (x.getD t 0 + e)).getD i 0))) := by
            simp [hscl, hw, hx, hi]
          rw [h1]
          by_cases hit : i = t
          · subst hit
            rw [List.getElem?_set_self (by omega)]
            have : (x.set i (x.getD i 0 + e)).getD i 0 = x.getD i 0 + e := by
              rw [List.getD_eq_getElem?_getD, List.getElem?_set_self (by omega)]; rfl
            rw [this, ← add_assoc, mul_add, ← hraw i hi, cutSample_id he.1.le he.2.le]
          · rw [List.getElem?_set_ne (Ne.symm hit)]
            have : (x.set t (x.getD t 0 + e)).getD i 0 = x.getD i 0 := by
              rw [List.getD_eq_getElem?_getD, List.getElem?_set_ne (Ne.symm hit), ← List.getD_eq_getElem?_getD]
            have hmi := hin (u.getD i 0) (by
              rw [List.getD_eq_getElem?_getD, List.getElem?_eq_getElem (by omega)]; exact List.getElem_mem _)
            rw [this, ← hraw i hi, cutSample_id hmi.1.le hmi.2.le, List.getD_eq_getElem?_getD,
              List.getElem?_eq_getElem (by omega)]
            rfl
        · rw [List.getElem?_eq_none (by simp [hscl, hw, hx]; omega), List.getElem?_eq_none (by simp; omega)]
      have h3 := r4 e
      unfold evolutionUnder at h3
      rw [r3 e, r2 e, hrow] at h3
      obtain ⟨_, k1, h3⟩ := py_bind_ok.1 h3
      cases k1
      obtain ⟨_, k1, h3⟩ := py_bind_ok.1 h3
      rw [hdt] at k1
      cases k1
      have h4 := q2 (sc.getD t 0 * e)
      have h5 : complexRows [u.set t (u.getD t 0 + sc.getD t 0 * e)]
          = [(u.map Complex.ofReal).set t ((u.map Complex.ofReal).getD t 0 + ((sc.getD t 0 * e : ℝ) : ℂ))] := by
        unfold complexRows
        simp only [List.map_cons, List.map_nil, List.map_set]
        congr 2
        rw [Complex.ofReal_add]
        congr 1
        simp [List.getD_eq_getElem?_getD, List.getElem?_map, List.getElem?_eq_getElem (show t < u.length by omega)]
      rw [h5] at h3
      have := Except.ok.inj (h3.symm.trans h4)
      show overlap target initial (E e) = _
      rw [this]
    refine HasDerivAt.congr_of_eventuallyEq ?_ heq
    have hlin : HasDerivAt (fun e : ℝ => sc.getD t 0 * e) (sc.getD t 0) 0 := by
      simpa using (hasDerivAt_id (0 : ℝ)).const_mul (sc.getD t 0)
    have q3' : HasDerivAt (fun e : ℝ => overlap target initial (E' e)) (-gt) (sc.getD t 0 * 0) := by simpa using q3
    have := q3'.comp (0 : ℝ) hlin
    refine this.congr_deriv ?_
    ring

/-- **C86** (the entries). For one piecewise pulse with the scaling function `1`, limits that do not act on the delivered
pulse, and a control that commutes with the drift: entry `t` of the gradient is minus the derivative of the overlap with
respect to control parameter `t`. Missing: other scaling functions (`C86_scaling_ignored`), acting limits, other bases, controls
that do not commute with the drift (C57). -/
theorem C86_derivative_of_parameters_partial {A B initial target : CMat d} {store : List (CMat d)} {u : List ℝ} {o : ControlsOut ℝ}
    (hr : ControlsReach M [pd] td [] c) (hft : FixedTimes td) (hb : pd.basis = .piecewise)
    (ho : pd.shapingOptions = none) (hs : pd.shrink = false) (hsc : pd.ScalesBy (List.replicate pd.binsNumber 1))
    (h2 : 2 ≤ pd.binsNumber) (hx : x.length = pd.binsNumber) (h : c.getControls M x = .ok (c', o))
    (hu : o.pulses = [u]) (hin : ∀ y ∈ u, min pd.lowerLimit pd.upperLimit < y ∧ y < max pd.lowerLimit pd.upperLimit)
    (hB : Bᴴ = B) (hc : A * B = B * A) (hst : store.length = pd.binsNumber) :
    ∃ g rest, grapeGetGradient M (slicePropagators store A B pd.binsNumber) id true B pd.binsNumber c
        (grapeRhoInit id pd.binsNumber initial) (grapeCorhoInit id pd.binsNumber target) x = .ok (g, rest) ∧
      ∀ t < pd.binsNumber, ∃ (gt : ℝ) (E : ℝ → CMat d), g[t]? = some gt ∧
        (∀ e : ℝ, ∃ ce oe, c.getControls M (x.set t (x.getD t 0 + e)) = .ok (ce, oe) ∧
          evolutionUnder A B pd.binsNumber oe = .ok (E e)) ∧
        HasDerivAt (fun e : ℝ => overlap target initial (E e)) (-gt) 0 := by
  obtain ⟨g, rest, h1, h3⟩ := gradient_and_scaling (initial := initial) (target := target) hr hft hb ho hs hsc (by simp) h2 hx h hu
    hin hB hc hst
  refine ⟨g, rest, h1, fun t ht => ?_⟩
  obtain ⟨gt, s, E, k1, k2, k3, k4⟩ := h3 t ht
  obtain rfl : s = 1 := by
    rw [List.getElem?_replicate, if_pos ht] at k2
    exact (Option.some.inj k2).symm
  exact ⟨gt, E, k1, k3, by simpa using k4⟩

/-! #### The scaling function is not in the gradient -/

/-- elementary functions for the example: they are not used by the piecewise basis -/
noncomputable def exRealFns : MathFns ℝ := { sin := id, cos := id, arccos := id, erf := id, pi := 1, sqrt2 := 1 }

/-- One piecewise pulse with two bins, limits `±1`, guess `0`, scaling function `2`. -/
noncomputable def exScaled (s : ℝ) : PulseDict ℝ :=
  { pulseName := "p", timeName := "t", binsNumber := 2, lowerLimit := -1, upperLimit := 1, amplitudeVariation := 1
    shrink := false, guess := .array [0, 0], scaling := .array [s, s], shapingOptions := none, overwrite := false
    basis := .piecewise, wLower := 0, wUpper := 1 }

/-- A fixed duration of 2. -/
noncomputable def exDuration : TimeDict ℝ :=
  { name := "t", initialValue := 2, isOptimization := false, lower := 0, upper := 1, amplitudeVariation := 1 }

/-- the pulse object of the example -/
noncomputable def exScaledPulse (s : ℝ) : Pulse ℝ :=
  { pulseName := "p", timeName := "t", binsNumber := 2, lower := -1, upper := 1, amplitudeVariation := 1
    shrink := false, guess := .array [0, 0], scaling := .array [s, s], shaping := shapingOptions none, overwrite := false
    basis := .piecewise, nParams := 2, ctrlList := [0, 1], lastIndex := 1, scaleCoeffs := [1, 1], offsetCoeffs := [0, 0]
    w := [], wLower := 0, wUpper := 1, basePulse := [0, 0], timeGrid := [0, 0], finalTime := 0, params := [] }

theorem exScaled_pulse (s : ℝ) : (exScaledPulse s).getPulse exRealFns [0, 0] 2 =
    .ok ((exScaledPulse s).setInputs [0, 0] 2, [0, 0]) := by
  have hg : ((exScaledPulse s).setInputs [0, 0] 2).addInitialGuess [0, 0] = .ok [0, 0] := by
    norm_num [exScaledPulse, Pulse.setInputs, Pulse.addInitialGuess, Pulse.initialGuess, Pulse.limited, cutSample, bop, bind, Except.bind]
  refine py_bind_ok.2 ⟨_, ?_, rfl⟩
  show ((exScaledPulse s).setInputs [0, 0] 2).addInitialGuess [0, 0] >>= _ = _
  rw [hg]
  norm_num [exScaledPulse, Pulse.setInputs, Pulse.applyStep, Pulse.limited, cutSample, bop, bind, Except.bind, List.foldlM,
    Pulse.shaped, Pulse.scale, pure, Except.pure]

theorem exScaled_controls (s : ℝ) : ∃ c c', mkControls exRealFns [exScaled s] [exDuration] [] = .ok c ∧
    c.getControls exRealFns [0, 0] = .ok (c', ⟨[[0, 0]], [[0, 2]], []⟩) ∧ grapeSlices c = .ok 2 := by
  have h1 : mkPulse exRealFns (-1) (exScaled s) = .ok (exScaledPulse s) := by
    unfold mkPulse exScaled exScaledPulse
    norm_num [basisParams, basisScale, basisSuper, ctrlIndices, zeros, List.range_succ, List.replicate]
  obtain ⟨t, h2, h3, h4⟩ : ∃ t, mkTime exDuration = .ok t ∧ t.isOptimization = false ∧ t.getTime = 2 := by
    refine ⟨_, rfl, rfl, rfl⟩
  refine ⟨⟨[exScaledPulse s], [], [("t", t)]⟩, ⟨[(exScaledPulse s).setInputs [0, 0] 2], [], [("t", t)]⟩,
    py_bind_ok.2 ⟨([exScaledPulse s], 1), py_bind_ok.2 ⟨_, h1, rfl⟩, py_bind_ok.2 ⟨_, py_bind_ok.2 ⟨_, h2, rfl⟩, rfl⟩⟩, ?_, rfl⟩
  refine py_bind_ok.2 ⟨[("t", t)], ?_, py_bind_ok.2 ⟨[((exScaledPulse s).setInputs [0, 0] 2, [0, 0])], ?_, py_bind_ok.2 ⟨[], rfl, ?_⟩⟩⟩
  · unfold setTimes
    rw [mapM_ok]
    refine .cons ?_ .nil
    simp only [h3]
    rfl
  · rw [mapM_ok]
    refine .cons (py_bind_ok.2 ⟨[0, 0], rfl, py_bind_ok.2 ⟨t, rfl, ?_⟩⟩) .nil
    rw [h4]
    exact exScaled_pulse s
  · rw [py_pure_ok]
    simp [Pulse.setInputs, linspace0, exScaledPulse, List.range_succ]

/-- **C86 is violated by scaling functions**: the entries of the gradient are derivatives with respect to the scaled amplitudes,
not with respect to the control parameters that the optimizer changes. With the scaling function `2`, control `sigma_z`, no
drift, all parameters `0`, the gradient is `[-1, -1]` but the derivative of the negative overlap with respect to the first
parameter is `-2`. -/
theorem C86_scaling_ignored :
    ∃ c c' o, mkControls exRealFns [exScaled 2] [exDuration] [] = .ok c ∧ c.getControls exRealFns [0, 0] = .ok (c', o) ∧
      ∃ rest, grapeGetGradient exRealFns (slicePropagators [0, 0] 0 exCtl 2) id true exCtl 2 c (grapeRhoInit id 2 exInit)
          (grapeCorhoInit id 2 exTarget) [0, 0] = .ok ([-1, -1], rest) ∧
        ∃ E : ℝ → CMat 2, (∀ e : ℝ, ∃ ce oe, c.getControls exRealFns [0 + e, 0] = .ok (ce, oe) ∧
            evolutionUnder 0 exCtl 2 oe = .ok (E e)) ∧
          HasDerivAt (fun e : ℝ => -overlap exTarget exInit (E e)) (-2) 0 := by
  obtain ⟨c, c', hc, hg, hn⟩ := exScaled_controls 2
  obtain ⟨g, rest, h1, h2⟩ := gradient_and_scaling (pd := exScaled 2) (td := [exDuration]) (M := exRealFns) (c := c) (c' := c')
    (x := [0, 0]) (sc := [2, 2]) (u := [0, 0]) (A := 0) (B := exCtl) (initial := exInit) (target := exTarget) (store := [0, 0])
    (.create hc) (by intro d hd; obtain rfl := List.mem_singleton.1 hd; rfl) rfl rfl rfl (.inl rfl) rfl le_rfl rfl hg rfl
    (by intro y hy; simp at hy; subst hy; norm_num [exScaled])
    (by ext i j; fin_cases i <;> fin_cases j <;> simp [exCtl]) (by simp) rfl
  have hg' : g = [-1, -1] := by
    unfold grapeGetGradient at h1
    rw [hg] at h1
    obtain ⟨r, e0, h1⟩ := py_bind_ok.1 h1
    cases e0
    obtain ⟨U, hU, h1⟩ := py_bind_ok.1 h1
    obtain ⟨tg, e0, h1⟩ := py_bind_ok.1 h1
    cases e0
    obtain ⟨g', hg', h1⟩ := py_bind_ok.1 h1
    cases h1
    obtain ⟨_, e0, hU⟩ := py_bind_ok.1 hU
    cases e0
    obtain ⟨dt, e0, hU⟩ := py_bind_ok.1 hU
    obtain ⟨U', u1, -, u3, -⟩ := TE.store_ok (expm := NormedSpace.exp) (A := (0 : CMat 2)) (B := [exCtl]) (dt := dt) (n := 2)
      (drive := complexRows [[0, 0]]) (by
        intro k hk
        obtain rfl : k = 0 := by simpa using hk
        exact ⟨_, rfl, le_rfl⟩) [0, 0] (by simp)
    have e1 : U = U' := Except.ok.inj (hU.symm.trans u1)
    subst e1
    have hP : ∀ t < 2, TE.P NormedSpace.exp (complexRows [[0, 0]]) 0 [exCtl] dt t = 1 := by
      intro t ht
      have hz : amplitude (complexRows [[0, 0]]) 0 t = 0 := by
        have : t = 0 ∨ t = 1 := by omega
        rcases this with rfl | rfl <;> simp [amplitude, complexRows]
      unfold TE.P hamiltonian
      rw [show (∑ k : Fin [exCtl].length, amplitude (complexRows [[0, 0]]) k t • [exCtl][k])
          = ∑ k : Fin 1, amplitude (complexRows [[0, 0]]) k t • [exCtl][k] from rfl, Fin.sum_univ_one]
      simp [hz]
    obtain ⟨g2, rho', corho', k1, -, -, -, -, k6, k7⟩ := TE.gradient_ok (cast := id) (transfer := true) (Bm := exCtl)
      (tg := [0, 2]) (tend := 2) (V := fun _ => 1) (n := 2) rfl (fun t ht => by rw [u3 t ht, hP t ht])
      (rho := grapeRhoInit id 2 exInit) (corho := grapeCorhoInit id 2 exTarget) (r0 := exInit) (c0 := exTarget)
      (by simp [grapeRhoInit]) (by simp [grapeCorhoInit]) (by simp [grapeRhoInit]) (by simp [grapeCorhoInit])
    have e2 := Except.ok.inj (hg'.symm.trans k1)
    have e3 : exTargetᴴ = exTarget := by
      ext i j; fin_cases i <;> fin_cases j <;> simp [exTarget]
    have hent : ∀ t < 2, g2[t]? = some (-1 : ℝ) := by
      intro t ht
      rw [k7 t ht, if_pos rfl]
      have b1 : TE.bwd id true (fun _ => (1 : CMat 2)) 2 exTarget (2 - t) = exTarget := by
        have : t = 0 ∨ t = 1 := by omega
        rcases this with rfl | rfl <;> simp [TE.bwd, TE.bstep]
      have b2 : TE.fwd id true (fun _ => (1 : CMat 2)) exInit t = exInit := by
        have : t = 0 ∨ t = 1 := by omega
        rcases this with rfl | rfl <;> simp [TE.fwd, TE.fstep]
      rw [b1, b2, e3]
      congr 1
      simp only [commutator, exTarget, exInit, exCtl, Matrix.mul_fin_two, Matrix.smul_mul, Matrix.trace_smul]
      simp [Matrix.trace_fin_two]
      try norm_num
    rw [e2]
    show g2 = [-1, -1]
    refine List.ext_getElem? fun t => ?_
    by_cases ht : t < 2
    · rw [hent t ht]
      have : t = 0 ∨ t = 1 := by omega
      rcases this with rfl | rfl <;> rfl
    · rw [List.getElem?_eq_none (by omega), List.getElem?_eq_none (by simp; omega)]
  refine ⟨c, c', _, hc, hg, rest, ?_, ?_⟩
  · rw [← hg']; exact h1
  · obtain ⟨gt, s, E, k1, k2, k3, k4⟩ := h2 0 (by norm_num [exScaled])
    rw [hg'] at k1
    cases k1
    cases k2
    refine ⟨E, k3, ?_⟩
    refine k4.neg.congr_deriv ?_
    norm_num

/-- The hypotheses of `C86_derivative_of_parameters_partial` are met by the example with the scaling function `1`. -/
example : ∃ c c' o, ControlsReach exRealFns [exScaled 1] [exDuration] [] c ∧ FixedTimes [exDuration] ∧
    (exScaled 1).ScalesBy (List.replicate (exScaled 1).binsNumber 1) ∧ c.getControls exRealFns [0, 0] = .ok (c', o) ∧
    o.pulses = [[0, 0]] ∧ (∀ y ∈ ([0, 0] : List ℝ), min (exScaled 1).lowerLimit (exScaled 1).upperLimit < y ∧
      y < max (exScaled 1).lowerLimit (exScaled 1).upperLimit) ∧ exCtlᴴ = exCtl ∧ (0 : CMat 2) * exCtl = exCtl * 0 := by
  obtain ⟨c, c', hc, hg, hn⟩ := exScaled_controls 1
  refine ⟨c, c', _, .create hc, ?_, .inl rfl, hg, rfl, ?_, ?_, by simp⟩
  · intro d hd; obtain rfl := List.mem_singleton.1 hd; rfl
  · intro y hy; simp at hy; subst hy; norm_num [exScaled]
  · ext i j; fin_cases i <;> fin_cases j <;> simp [exCtl]

/-- The hypotheses of `C86_wrong_number_of_entries` are met: two pulses with two bins each, four control parameters and two
entries. -/
example : ∃ c rest, ControlsReach exRealFns [exScaled 1, exScaled 1] [exDuration] [] c ∧ grapeSlices c = .ok 2 ∧ c.number = 4 ∧
    grapeGetGradient exRealFns (fun _ => .ok [1, 1]) id false exCtl 2 c (grapeRhoInit id 2 exInit)
      (grapeCorhoInit id 2 exTarget) [0, 0, 0, 0] = .ok ([0, 0], rest) := by
  have h1 : mkPulse exRealFns (-1) (exScaled 1) = .ok (exScaledPulse 1) := by
    unfold mkPulse exScaled exScaledPulse
    norm_num [basisParams, basisScale, basisSuper, ctrlIndices, zeros, List.range_succ, List.replicate]
  have h1' : mkPulse exRealFns 1 (exScaled 1) = .ok { exScaledPulse 1 with ctrlList := [2, 3], lastIndex := 3 } := by
    unfold mkPulse exScaled exScaledPulse
    norm_num [basisParams, basisScale, basisSuper, ctrlIndices, zeros, List.range_succ, List.replicate]
    exact ⟨rfl, rfl⟩
  obtain ⟨t, h2, h3, h4⟩ : ∃ t, mkTime exDuration = .ok t ∧ t.isOptimization = false ∧ t.getTime = 2 := ⟨_, rfl, rfl, rfl⟩
  let p' : Pulse ℝ := { exScaledPulse 1 with ctrlList := [2, 3], lastIndex := 3 }
  have hp' : p'.getPulse exRealFns [0, 0] 2 = .ok (p'.setInputs [0, 0] 2, [0, 0]) := by
    obtain ⟨u, hu, h⟩ := py_bind_ok.1 (exScaled_pulse 1)
    rw [py_pure_ok] at h
    obtain ⟨_, rfl⟩ := Prod.mk.inj h
    exact py_bind_ok.2 ⟨_, hu, rfl⟩
  have hg : (⟨[exScaledPulse 1, p'], [], [("t", t)]⟩ : Controls ℝ).getControls exRealFns [0, 0, 0, 0] =
      .ok (⟨[(exScaledPulse 1).setInputs [0, 0] 2, p'.setInputs [0, 0] 2], [], [("t", t)]⟩, ⟨[[0, 0], [0, 0]], [[0, 2], [0, 2]], []⟩) := by
    refine py_bind_ok.2 ⟨[("t", t)], ?_, py_bind_ok.2 ⟨[((exScaledPulse 1).setInputs [0, 0] 2, [0, 0]), (p'.setInputs [0, 0] 2, [0, 0])],
      ?_, py_bind_ok.2 ⟨[], rfl, ?_⟩⟩⟩
    · unfold setTimes
      rw [mapM_ok]
      refine .cons ?_ .nil
      simp only [h3]
      rfl
    · rw [mapM_ok]
      refine .cons (py_bind_ok.2 ⟨[0, 0], rfl, py_bind_ok.2 ⟨t, rfl, ?_⟩⟩)
        (.cons (py_bind_ok.2 ⟨[0, 0], rfl, py_bind_ok.2 ⟨t, rfl, ?_⟩⟩) .nil)
      · rw [h4]; exact exScaled_pulse 1
      · rw [h4]; exact hp'
    · rw [py_pure_ok]
      simp [Pulse.setInputs, linspace0, exScaledPulse, List.range_succ, p']
  obtain ⟨rho, corho, hgr⟩ := C57_other_system_type_has_zero_gradient (cast := id) (B := exCtl) (n := 2) (tg := [0, 2]) (tend := 2)
    (U := [1, 1]) (V := fun _ => (1 : CMat 2)) rfl (by
      intro t ht
      have : t = 0 ∨ t = 1 := by omega
      rcases this with rfl | rfl <;> rfl) exInit exTarget
  refine ⟨⟨[exScaledPulse 1, p'], [], [("t", t)]⟩, _, .create ?_, rfl, rfl,
    py_bind_ok.2 ⟨_, hg, py_bind_ok.2 ⟨_, rfl, py_bind_ok.2 ⟨_, rfl, py_bind_ok.2 ⟨_, hgr, rfl⟩⟩⟩⟩⟩
  exact py_bind_ok.2 ⟨([exScaledPulse 1, p'], 3), py_bind_ok.2 ⟨_, h1, py_bind_ok.2 ⟨([p'], 3), py_bind_ok.2 ⟨_, h1', rfl⟩, rfl⟩⟩,
    py_bind_ok.2 ⟨_, py_bind_ok.2 ⟨_, h2, rfl⟩, rfl⟩⟩

end entries
end QuOCS

/-
C16, C17, C18, C19: number of samples, time grid, base pulse, shaping options.
-/
import Verif.Props.Limits

set_option linter.unusedSectionVars false

namespace QuOCS

section
variable {K : Type*} [Field K] [LinearOrder K] [IsStrictOrderedRing K]

theorem initialGuess_def (p : Pulse K) :
    ∃ l : List K, p.initialGuess = p.limited l := by
  unfold Pulse.initialGuess
  split
  · exact ⟨_, rfl⟩
  · exact ⟨_, rfl⟩

theorem bop_length_right {f : K → K → K} {a b r : List K} (h : bop f a b = .ok r) (h1 : b.length ≠ 1) :
    r.length = b.length := by
  rcases bop_length h with ⟨h2, h3⟩ | ⟨_, h3⟩ | ⟨h2, _⟩
  · rw [h3, h2]
  · exact h3
  · exact absurd h2 h1

theorem bop_length_left {f : K → K → K} {a b r : List K} (h : bop f a b = .ok r) (h1 : a.length ≠ 1) :
    r.length = a.length := by
  rcases bop_length h with ⟨_, h3⟩ | ⟨h2, _⟩ | ⟨_, h3⟩
  · exact h3
  · exact absurd h2 h1
  · exact h3

theorem applyStep_length {M : MathFns K} {p : Pulse K} (hlu : p.lower ≤ p.upper) (hs : ScalingKeepsLength p.scaling)
    {s : Shaping} {u v : List K} (hu : u.length ≠ 1) (h : p.applyStep M u s = .ok v) : v.length = u.length := by
  cases s with
  | addInitialGuess =>
    simp only [Pulse.applyStep, Pulse.addInitialGuess] at h
    obtain ⟨g, _, h⟩ := py_bind_ok.1 h
    exact bop_length_right h hu
  | addBasePulse => exact bop_length_left h hu
  | addNewUpdatePulse =>
    simp only [Pulse.applyStep] at h
    obtain ⟨g, _, h⟩ := py_bind_ok.1 h
    exact bop_length_left h hu
  | scalePulse =>
    simp only [Pulse.applyStep, Pulse.scale] at h
    split at h
    · exact bop_length_right h hu
    · rename_i f hf
      simp only [Except.ok.injEq] at h
      subst h
      exact hs f hf _ _
    · exact bop_length_right h hu
  | limitPulse => exact limited_length h hlu

theorem foldlM_steps_length {M : MathFns K} {p : Pulse K} (hlu : p.lower ≤ p.upper)
    (hs : ScalingKeepsLength p.scaling) (l : List Shaping) {u v : List K} (hu : u.length ≠ 1)
    (h : l.foldlM (fun u s => p.applyStep M u s) u = .ok v) : v.length = u.length := by
  induction l generalizing u with
  | nil => simp only [List.foldlM_nil] at h; rw [py_pure_ok] at h; rw [h]
  | cons s l ih =>
    simp only [List.foldlM_cons] at h
    obtain ⟨w, hw, h⟩ := py_bind_ok.1 h
    have hl := applyStep_length hlu hs hu hw
    rw [ih (by rw [hl]; exact hu) h, hl]

/-- **C16.** For every shaping list a delivered pulse has exactly `bins_number` samples, and so has its time grid; the
grid is equally spaced from `0` to the duration.

Hypotheses: more than one bin (with a single bin NumPy broadcasting lets a longer guess array change the length, see
`C16_single_bin_can_grow`), and a two-argument scaling function returns as many samples as it gets. -/
theorem C16_pulse_and_grid_have_bins_samples {M : MathFns K} {d : PulseDict K} {p q : Pulse K} {x u : List K} {T : K}
    (hr : PulseReach M d p) (hb : 2 ≤ d.binsNumber) (hs : ScalingKeepsLength d.scaling)
    (h : p.getPulse M x T = .ok (q, u)) :
    u.length = d.binsNumber ∧ q.timeGrid.length = d.binsNumber ∧
    q.timeGrid[0]? = some 0 ∧ q.timeGrid[d.binsNumber - 1]? = some T ∧
    (∀ (i : ℕ) (a b : K), q.timeGrid[i]? = some a → q.timeGrid[i + 1]? = some b →
      b - a = T / ((d.binsNumber - 1 : ℕ) : K)) := by
  obtain ⟨hlo, hup, _, _, hbins, hsc, _⟩ := hr.fields
  unfold Pulse.getPulse at h
  obtain ⟨v, hv, h⟩ := py_bind_ok.1 h
  rw [py_pure_ok] at h
  obtain ⟨rfl, rfl⟩ := Prod.mk.inj h
  have hlu : (p.setInputs x T).lower ≤ (p.setInputs x T).upper := by simp [Pulse.setInputs, hlo, hup]
  have hz : (zeros (p.setInputs x T).binsNumber : List K).length = d.binsNumber := by
    simp [zeros_length, Pulse.setInputs, hbins]
  have hl := foldlM_steps_length hlu (by simpa [Pulse.setInputs, hsc] using hs) _ (by rw [hz]; omega) hv
  have hn : ((d.binsNumber - 1 : ℕ) : K) ≠ 0 := by
    rw [Nat.cast_ne_zero]; omega
  refine ⟨by rw [hl, hz], by simp [Pulse.setInputs, hbins, linspace0], ?_, ?_, ?_⟩
  · simp [Pulse.setInputs, hbins, linspace0, show 0 < d.binsNumber by omega]
  · simp only [Pulse.setInputs, hbins, linspace0, List.getElem?_map,
      List.getElem?_range (show d.binsNumber - 1 < d.binsNumber by omega), Option.map_some]
    rw [mul_div_cancel₀ _ hn]
  · intro i a b ha hb'
    simp only [Pulse.setInputs, hbins, linspace0, List.getElem?_map, Option.map_eq_some_iff] at ha hb'
    obtain ⟨i1, h1, rfl⟩ := ha
    obtain ⟨i2, h2, rfl⟩ := hb'
    obtain ⟨_, rfl⟩ := List.getElem?_eq_some_iff.1 h1
    obtain ⟨_, rfl⟩ := List.getElem?_eq_some_iff.1 h2
    simp only [List.getElem_range]
    push_cast
    ring

/-- **C16** (violation for one bin). A pulse with one bin and a guess given as a list of two samples is delivered with
two samples, while its time grid has one. -/
theorem C16_single_bin_can_grow :
    ∃ (d : PulseDict ℚ) (p q : Pulse ℚ) (u : List ℚ), PulseReach exFns d p ∧ d.binsNumber = 1 ∧
      p.getPulse exFns [0, 0] 1 = .ok (q, u) ∧ u.length = 2 ∧ q.timeGrid.length = 1 := by
  let d : PulseDict ℚ := { exDict with binsNumber := 1, shrink := false, guess := .array [1, 1], basis := .fourier 1 }
  have h : (do let p ← mkPulse exFns (-1) d; let r ← p.getPulse exFns [0, 0] 1; pure (r.2, r.1.timeGrid))
      = (.ok ([1, 1], [0]) : Py (List ℚ × List ℚ)) := by decide +kernel
  obtain ⟨p, h1, h⟩ := py_bind_ok.1 h
  obtain ⟨⟨q, u⟩, h2, h⟩ := py_bind_ok.1 h
  obtain ⟨e1, e2⟩ := Prod.mk.inj (py_pure_ok.1 h)
  simp only at e1 e2
  exact ⟨d, p, q, u, .create h1, rfl, h2, by simp [e1], by simp [e2]⟩

/-- The hypotheses of C16 are met by a reachable pulse. -/
example : ∃ p q u, PulseReach exFns exDict p ∧ 2 ≤ exDict.binsNumber ∧ ScalingKeepsLength exDict.scaling ∧
    p.getPulse exFns [1, 0, -3, 1] 2 = .ok (q, u) := by
  have h : (do let p ← exReached; let r ← p.getPulse exFns [1, 0, -3, 1] 2; pure r.2)
      = (.ok [2, 1 / 2, -1] : Py (List ℚ)) := by decide +kernel
  obtain ⟨p, h1, h⟩ := py_bind_ok.1 h
  obtain ⟨⟨q, u⟩, h2, h⟩ := py_bind_ok.1 h
  exact ⟨p, q, u, exReached_reach h1, by decide, by intro f hf; simp [exDict] at hf, h2⟩

/-! ### C17 -/

theorem BaseHist.reach {M : MathFns K} {d : PulseDict K} {p : Pulse K} {us : List (List K)}
    (h : BaseHist M d p us) : PulseReach M d p := by
  induction h with
  | create h => exact .create h
  | inputs x T _ ih => exact .inputs x T ih
  | get _ h ih => exact .get ih h
  | bare _ h ih => exact .bare ih h
  | draw _ h ih => exact .draw ih h
  | index mi _ ih => exact .index mi ih
  | base _ _ h ih => exact .base ih h

/-- **C17.** After any number of super-iterations, sample `i` of the accumulated base pulse is the sum of sample `i`
of all finished updates; with `overwrite_base_pulse` it is the last update. -/
theorem C17_base_pulse_accumulates {M : MathFns K} {d : PulseDict K} {p : Pulse K} {us : List (List K)}
    (h : BaseHist M d p us) (hlen : ∀ u ∈ us, u.length = d.binsNumber) :
    p.basePulse.length = d.binsNumber ∧
    (d.overwrite = false → ∀ i < d.binsNumber, p.basePulse[i]? = some (us.map (fun u => u.getD i 0)).sum) ∧
    (d.overwrite = true → us ≠ [] → us.getLast? = some p.basePulse) := by
  induction h with
  | create h =>
    unfold mkPulse at h
    simp only at h
    split at h
    · simp at h
    · simp only [Except.ok.injEq] at h
      subst h
      refine ⟨by simp [zeros], ?_, by simp⟩
      intro _ i hi
      simp [zeros, hi]
  | inputs x T _ ih => exact ih hlen
  | get _ h ih =>
    unfold Pulse.getPulse at h
    obtain ⟨u, _, h⟩ := py_bind_ok.1 h
    rw [py_pure_ok] at h
    obtain ⟨rfl, rfl⟩ := Prod.mk.inj h
    exact ih hlen
  | bare _ h ih =>
    unfold Pulse.getBarePulse at h
    obtain ⟨u, _, h⟩ := py_bind_ok.1 h
    rw [py_pure_ok] at h
    obtain ⟨rfl, rfl⟩ := Prod.mk.inj h
    exact ih hlen
  | draw _ h ih =>
    unfold Pulse.drawSuper at h
    obtain ⟨u, _, h⟩ := py_bind_ok.1 h
    rw [py_pure_ok] at h; subst h; exact ih hlen
  | index mi _ ih => exact ih hlen
  | @base p q q' us x u T hp hb h ih =>
    obtain ⟨ihl, ih1, ih2⟩ := ih (fun v hv => hlen v (by simp [hv]))
    have hu : u.length = d.binsNumber := hlen u (by simp)
    unfold Pulse.getBarePulse at hb
    obtain ⟨u', hu', hb⟩ := py_bind_ok.1 hb
    rw [py_pure_ok] at hb
    obtain ⟨rfl, rfl⟩ := Prod.mk.inj hb
    unfold Pulse.setBasePulse at h
    obtain ⟨u'', hu'', h⟩ := py_bind_ok.1 h
    rw [hu'] at hu''
    cases hu''
    have hov : (p.setInputs x T).overwrite = d.overwrite := hp.reach.fields.2.2.2.2.2.2.2.1
    rw [hov] at h
    split at h
    · rename_i ho
      rw [py_pure_ok] at h; subst h
      refine ⟨hu, by simp [ho], fun _ _ => by simp⟩
    · rename_i ho
      obtain ⟨b, hb, h⟩ := py_bind_ok.1 h
      rw [py_pure_ok] at h; subst h
      have hbl : (p.setInputs x T).basePulse.length = u'.length := by
        rw [hu]; exact ihl
      rw [iadd_eq hbl] at hb
      cases hb
      refine ⟨by simp only [List.length_zipWith, hu]; simp [hbl, hu], ?_, by simp [ho]⟩
      intro ho' i hi
      have h1 := ih1 ho' i hi
      have h1' : (p.setInputs x T).basePulse[i]? = some (us.map (fun u => u.getD i 0)).sum := h1
      have h2 : u'[i]? = some u'[i] := by simp [hu, hi]
      rw [List.getElem?_zipWith, h1', h2]
      simp [List.getD_eq_getElem?_getD, h2]

/-- The hypotheses of C17 are met after two super-iterations with different frequencies. -/
example : ∃ p u v, BaseHist exFns exDict p [u, v] ∧ (∀ w ∈ [u, v], w.length = exDict.binsNumber) ∧
    u ≠ v ∧ p.basePulse = List.zipWith (· + ·) u v := by
  let prog : Py (Pulse ℚ × Pulse ℚ × Pulse ℚ × Pulse ℚ) := do
    let p ← mkPulse exFns (-1) exDict
    let p1 ← p.drawSuper [1 / 2, 1 / 4]
    let p2 ← p1.setBasePulse exFns [0, 1, 0, 0] 2
    let p3 ← p2.drawSuper [0, 1]
    let p4 ← p3.setBasePulse exFns [1, 1, 2, 0] 2
    pure (p1, p2, p3, p4)
  have h : (do
      let (p1, _, p3, p4) ← prog
      let a ← p1.getBarePulse exFns [0, 1, 0, 0] 2
      let b ← p3.getBarePulse exFns [1, 1, 2, 0] 2
      pure (a.2, b.2, p4.basePulse)) = (.ok ([1, -2, -5], [1, 25, 49], [2, 23, 44]) : Py _) := by decide +kernel
  obtain ⟨⟨p1, p2, p3, p4⟩, h0, h⟩ := py_bind_ok.1 h
  obtain ⟨⟨q1, u⟩, h1, h⟩ := py_bind_ok.1 h
  obtain ⟨⟨q2, v⟩, h2, h⟩ := py_bind_ok.1 h
  rw [py_pure_ok] at h
  simp only [Prod.mk.injEq] at h
  obtain ⟨rfl, rfl, hb⟩ := h
  obtain ⟨p, k1, h0⟩ := py_bind_ok.1 h0
  obtain ⟨p1', k2, h0⟩ := py_bind_ok.1 h0
  obtain ⟨p2', k3, h0⟩ := py_bind_ok.1 h0
  obtain ⟨p3', k4, h0⟩ := py_bind_ok.1 h0
  obtain ⟨p4', k5, h0⟩ := py_bind_ok.1 h0
  rw [py_pure_ok] at h0
  simp only [Prod.mk.injEq] at h0
  obtain ⟨rfl, rfl, rfl, rfl⟩ := h0
  refine ⟨p4', _, _, .base (.draw (.base (.draw (.create k1) k2) h1 k3) k4) h2 k5, by simp [exDict], by decide, ?_⟩
  rw [hb]; decide +kernel

/-! ### C18 -/

/-- What the user's list of shaping-option names means, written without reference to the code's dispatch table:
the options act one after the other, starting from the zero pulse, unknown names do nothing. -/
def shapingMeaning (M : MathFns K) (p : Pulse K) : List String → Py (List K) → Py (List K)
  | [], acc => acc
  | name :: rest, acc =>
      shapingMeaning M p rest (do
        let u ← acc
        if name = "add_initial_guess" then bop (· + ·) (← p.initialGuess) u
        else if name = "add_base_pulse" then bop (· + ·) u p.basePulse
        else if name = "add_new_update_pulse" then bop (· + ·) u (← p.shaped M)
        else if name = "scale_pulse" then p.scale u
        else if name = "limit_pulse" then p.limited u
        else pure u)

theorem foldlM_eq_meaning (M : MathFns K) (p : Pulse K) (names : List String) (acc : Py (List K)) :
    (do let u ← acc; (names.filterMap shapingOfName).foldlM (fun u s => p.applyStep M u s) u)
      = shapingMeaning M p names acc := by
  induction names generalizing acc with
  | nil => cases acc <;> rfl
  | cons name rest ih =>
    simp only [shapingMeaning]
    rw [← ih]
    cases acc with
    | error e => rfl
    | ok u =>
      simp only [bind, Except.bind]
      by_cases h1 : name = "add_initial_guess"
      · subst h1
        simp [shapingOfName, Pulse.applyStep, Pulse.addInitialGuess, bind, Except.bind]
      by_cases h2 : name = "add_base_pulse"
      · subst h2
        simp [shapingOfName, Pulse.applyStep, bind, Except.bind]
      by_cases h3 : name = "add_new_update_pulse"
      · subst h3
        simp [shapingOfName, Pulse.applyStep, bind, Except.bind]
      by_cases h4 : name = "scale_pulse"
      · subst h4
        simp [shapingOfName, Pulse.applyStep, bind, Except.bind]
      by_cases h5 : name = "limit_pulse"
      · subst h5
        simp [shapingOfName, Pulse.applyStep, bind, Except.bind]
      · simp [h1, h2, h3, h4, h5, shapingOfName, pure, Except.pure]

/-- **C18.** The delivered pulse is obtained by applying the named options in the listed order to the zero pulse;
names that are not one of the five documented ones have no effect. -/
theorem C18_shaping_in_listed_order {M : MathFns K} {d : PulseDict K} {p : Pulse K} (hr : PulseReach M d p)
    {names : List String} (hn : d.shapingOptions = some names) (x : List K) (T : K) :
    p.getPulse M x T = (do
      let u ← shapingMeaning M (p.setInputs x T) names (.ok (zeros d.binsNumber))
      pure (p.setInputs x T, u)) := by
  obtain ⟨_, _, _, hs, hb, _⟩ := hr.fields
  rw [← foldlM_eq_meaning]
  simp only [Pulse.getPulse, Pulse.build, Pulse.setInputs, hs, hn, shapingOptions, hb]
  rfl

/-- **C18** (unknown names): inserting a name outside the documented list anywhere changes nothing. -/
theorem C18_unknown_option_ignored {M : MathFns K} {d : PulseDict K} (mi : ℤ) (pre post : List String) (bad : String)
    (hbad : bad ∉ knownShapingNames) :
    mkPulse M mi { d with shapingOptions := some (pre ++ bad :: post) }
      = mkPulse M mi { d with shapingOptions := some (pre ++ post) } := by
  have : shapingOfName bad = none := by
    simp only [knownShapingNames, List.mem_cons, List.not_mem_nil, or_false, not_or] at hbad
    simp [shapingOfName, hbad]
  simp [mkPulse, shapingOptions, this]

/-- **C18** (default order): without a list the options are guess, base, update, scale, limit. -/
theorem C18_default_order {M : MathFns K} {d : PulseDict K} (mi : ℤ) (h : d.shapingOptions = none) :
    mkPulse M mi d = mkPulse M mi { d with
      shapingOptions := some (["add_initial_guess", "add_base_pulse", "add_new_update_pulse", "scale_pulse",
        "limit_pulse"]) } := by
  simp [mkPulse, shapingOptions, shapingOfName, h]

/-- Order matters, so C18 is not vacuous: two orders of the same options deliver different pulses. -/
example :
    let d1 := { exDict with shapingOptions := some ["add_new_update_pulse", "typo", "limit_pulse", "add_initial_guess"] }
    let d2 := { exDict with shapingOptions := some ["add_new_update_pulse", "add_initial_guess", "limit_pulse"] }
    "typo" ∉ knownShapingNames ∧
    (do let p ← mkPulse exFns (-1) d1; let r ← p.getPulse exFns [0, 3, 0, 0] 2; pure r.2) = (.ok [2, 3, 4] : Py (List ℚ)) ∧
    (do let p ← mkPulse exFns (-1) d2; let r ← p.getPulse exFns [0, 3, 0, 0] 2; pure r.2) = (.ok [2, 2, 2] : Py (List ℚ)) := by
  decide +kernel

/-! ### C19 -/

/-- The documented order for boundary enforcement. -/
def boundaryOrder : List String :=
  ["add_base_pulse", "add_new_update_pulse", "scale_pulse", "add_initial_guess", "limit_pulse"]

/-- **C19.** With the documented order and cut limits: at every sample `i` where the scaling array is `0`, the
delivered pulse is the initial guess cut to the limits, whatever the update, the base pulse and the history are. -/
theorem C19_boundary_enforced {M : MathFns K} {d : PulseDict K} {p q : Pulse K} {x u : List K} {T : K}
    (hr : PulseReach M d p) (ho : d.shapingOptions = some boundaryOrder) (hcut : d.shrink = false)
    (hb : 2 ≤ d.binsNumber)
    {sc g : List K} (hsc : d.scaling = .array sc ∨ ∃ f, d.scaling = .callable f ∧ f q.timeGrid = sc)
    (hg : d.guess = .array g ∨ ∃ f, d.guess = .callable f ∧ f q.timeGrid = g)
    (hscl : sc.length = d.binsNumber) (hgl : g.length = d.binsNumber)
    (h : p.getPulse M x T = .ok (q, u)) (i : ℕ) (hi : sc[i]? = some 0) :
    ∃ gi, g[i]? = some gi ∧
      u[i]? = some (max (min gi (max d.lowerLimit d.upperLimit)) (min d.lowerLimit d.upperLimit)) := by
  have hfields := (PulseReach.inputs x T hr).fields
  obtain ⟨hlo, hup, hsh, hshape, hbins, hscal, hgu, _⟩ := hfields
  unfold Pulse.getPulse at h
  obtain ⟨v, hv, h⟩ := py_bind_ok.1 h
  rw [py_pure_ok] at h
  obtain ⟨rfl, rfl⟩ := Prod.mk.inj h
  set p' := p.setInputs x T
  have hlu : p'.lower ≤ p'.upper := by simp [hlo, hup]
  unfold Pulse.build at hv
  have hord : shapingOptions (some boundaryOrder)
      = [.addBasePulse, .addNewUpdatePulse, .scalePulse, .addInitialGuess, .limitPulse] := by decide
  rw [hshape, ho, hord] at hv
  simp only [List.foldlM_cons, List.foldlM_nil, bind_pure] at hv
  obtain ⟨u1, hu1, hv⟩ := py_bind_ok.1 hv
  obtain ⟨u2, hu2, hv⟩ := py_bind_ok.1 hv
  obtain ⟨u3, hu3, hv⟩ := py_bind_ok.1 hv
  obtain ⟨u4, hu4, hv⟩ := py_bind_ok.1 hv
  have hskl : ScalingKeepsLength p'.scaling := by
    rw [hscal]
    rcases hsc with h | ⟨f, h, _⟩ <;> (rw [h]; intro f' hf'; simp at hf')
  have hz : (zeros p'.binsNumber : List K).length = d.binsNumber := by simp [zeros, hbins]
  have l1 := applyStep_length hlu hskl (by rw [hz]; omega) hu1
  have l2 := applyStep_length hlu hskl (by rw [l1, hz]; omega) hu2
  have l3 := applyStep_length hlu hskl (by rw [l2, l1, hz]; omega) hu3
  have l2' : u2.length = d.binsNumber := by rw [l2, l1, hz]
  have l3' : u3.length = d.binsNumber := by rw [l3, l2']
  -- scaling
  have e3 : u3 = List.zipWith (· * ·) sc u2 := by
    simp only [Pulse.applyStep, Pulse.scale, hscal] at hu3
    rcases hsc with h | ⟨f, h, hf⟩
    · rw [h] at hu3
      simp only at hu3
      rw [bop_eq (by rw [hscl, l2'])] at hu3
      exact (Except.ok.inj hu3).symm
    · rw [h] at hu3
      simp only at hu3
      rw [hf, bop_eq (by rw [hscl, l2'])] at hu3
      exact (Except.ok.inj hu3).symm
  have e4 : u4 = List.zipWith (· + ·) (g.map (cutSample p'.lower p'.upper)) u3 := by
    simp only [Pulse.applyStep, Pulse.addInitialGuess, Pulse.initialGuess, hgu, Pulse.limited, hsh, hcut] at hu4
    rcases hg with h | ⟨f, h, hf⟩
    · rw [h] at hu4
      simp only [Bool.false_eq_true, if_false] at hu4
      obtain ⟨g', hg', hu4⟩ := py_bind_ok.1 hu4
      cases hg'
      rw [bop_eq (by simp [hgl, l3'])] at hu4
      exact (Except.ok.inj hu4).symm
    · rw [h] at hu4
      simp only [Bool.false_eq_true, if_false, hf] at hu4
      obtain ⟨g', hg', hu4⟩ := py_bind_ok.1 hu4
      cases hg'
      rw [bop_eq (by simp [hgl, l3'])] at hu4
      exact (Except.ok.inj hu4).symm
  have e5 : v = u4.map (cutSample p'.lower p'.upper) := by
    simp only [Pulse.applyStep, Pulse.limited, hsh, hcut] at hv
    simpa using hv.symm
  have hilt : i < d.binsNumber := by
    obtain ⟨h, _⟩ := List.getElem?_eq_some_iff.1 hi
    omega
  have hgi : g[i]? = some g[i] := by simp [hgl, hilt]
  have hu2i : u2[i]? = some u2[i] := by simp [l2', hilt]
  refine ⟨g[i], hgi, ?_⟩
  rw [e5, e4]
  simp only [e3]
  simp only [List.getElem?_map, List.getElem?_zipWith, hgi, hi, hu2i, Option.map_some, zero_mul, add_zero]
  rw [← hlo, ← hup]
  congr 1
  obtain ⟨h1, h2⟩ := cutSample_mem hlu g[i]
  exact cutSample_id h1 h2

/-- The hypotheses of C19 are met with a scaling window that vanishes at both ends. -/
example :
    let d := { exDict with shapingOptions := some boundaryOrder, shrink := false, scaling := .array [0, 1, 0] }
    (do let p ← mkPulse exFns (-1) d; let r ← p.getPulse exFns [5, 3, 1, 7] 2; pure r.2) = (.ok [0, 2, 2] : Py (List ℚ)) := by
  decide +kernel

end
end QuOCS

/-
Property C85: the second documented way to keep the values at the ends of a pulse
(Documentation/Enforcing_Pulse_Boundaries_at_Beginning_and_End.md, last paragraph): limit the scaled update first, add the
initial guess afterwards; "In this case you can also set shrink_ampl_lim: True".
-/
import Verif.Props.Shaping

set_option linter.unusedSectionVars false
set_option linter.unusedVariables false

namespace QuOCS

section
variable {K : Type*} [Field K] [LinearOrder K] [IsStrictOrderedRing K]

/-- The second documented order: the pulse is limited before the guess is added. -/
def limitFirstOrder : List String :=
  ["add_base_pulse", "add_new_update_pulse", "scale_pulse", "limit_pulse", "add_initial_guess"]

/-- The steps of `limitFirstOrder` before the limits. -/
def scaledOnlyOrder : List String := ["add_base_pulse", "add_new_update_pulse", "scale_pulse"]

theorem shrinkCorrection_nonneg {a b : K} (ha : 0 ≤ a) (hb : 0 ≤ b) : 0 ≤ shrinkCorrection a b := by
  unfold shrinkCorrection
  split
  · exact zero_le_one
  · exact div_nonneg ha hb

/-- Shrinking keeps a sample that is `0` in a pulse that lies on one side of `0`. -/
theorem shrinkPulse_zero {lb ub : K} (hl : lb ≤ 0) (hup : 0 ≤ ub) {u v : List K} (h : shrinkPulse lb ub u = .ok v)
    (hs : (∀ x ∈ u, 0 ≤ x) ∨ ∀ x ∈ u, x ≤ 0) {i : ℕ} (hi : u[i]? = some 0) : v[i]? = some 0 := by
  have hc : cutSample lb ub 0 = 0 := cutSample_id hl hup
  have h0 : (0 : K) ∈ u := List.mem_of_getElem? hi
  unfold shrinkPulse at h
  obtain ⟨M, hM, h⟩ := py_bind_ok.1 h
  obtain ⟨m, hm, h⟩ := py_bind_ok.1 h
  obtain ⟨hMm, hMle⟩ := amax_ok hM
  obtain ⟨hmm, hmle⟩ := amin_ok hm
  split at h
  · rw [py_pure_ok] at h
    rw [← h, List.getElem?_map, hi, Option.map_some, hc]
  · obtain ⟨M', hM', h⟩ := py_bind_ok.1 h
    obtain ⟨m', hm', h⟩ := py_bind_ok.1 h
    obtain ⟨hMm', hMle'⟩ := amax_ok hM'
    obtain ⟨hmm', hmle'⟩ := amin_ok hm'
    rw [py_pure_ok] at h
    rcases hs with hs | hs
    · have e : m = 0 := le_antisymm (hmle 0 h0) (hs m hmm)
      subst e
      have hn : ¬ m' < lb := by
        apply not_lt.2
        refine le_trans hl ?_
        split at hmm'
        · obtain ⟨x, hx, rfl⟩ := List.mem_map.1 hmm'
          have := mul_nonneg (hs x hx) (shrinkCorrection_nonneg (abs_nonneg (ub - 0)) (abs_nonneg (M - 0)))
          simpa using this
        · exact hs m' hmm'
      rw [if_neg hn] at h
      rw [← h]
      split
      · rw [List.getElem?_map, hi, Option.map_some]; simp
      · exact hi
    · have e : M = 0 := le_antisymm (hs M hMm) (hMle 0 h0)
      subst e
      have hn : ¬ (0 : K) > ub := not_lt.2 hup
      simp only [if_neg hn] at h hMm' hMle' hmm'
      have e' : M' = 0 := le_antisymm (hs M' hMm') (hMle' 0 h0)
      subst e'
      rw [← h]
      split
      · rw [List.getElem?_map, hi, Option.map_some]; simp
      · exact hi

/-- Limiting keeps a sample that is `0`: in cut mode, when the pulse fits, or when it lies on one side of `0`. -/
theorem limited_zero {p : Pulse K} {u v : List K} (hl : p.lower ≤ 0) (hup : 0 ≤ p.upper) (h : p.limited u = .ok v)
    (hs : p.shrink = false ∨ (∀ x ∈ u, p.lower ≤ x ∧ x ≤ p.upper) ∨ (∀ x ∈ u, 0 ≤ x) ∨ ∀ x ∈ u, x ≤ 0) {i : ℕ}
    (hi : u[i]? = some 0) : v[i]? = some 0 := by
  have hc : cutSample p.lower p.upper 0 = 0 := cutSample_id hl hup
  cases hsh : p.shrink with
  | false =>
    simp only [Pulse.limited, hsh, Bool.false_eq_true, if_false, Except.ok.injEq] at h
    rw [← h, List.getElem?_map, hi, Option.map_some, hc]
  | true =>
    simp only [Pulse.limited, hsh, if_true] at h
    rw [hsh] at hs
    rcases hs with hs | hs | hs
    · cases hs
    · obtain ⟨_, _, _, _, _, _, hid, _⟩ := shrinkPulse_spec (le_trans hl hup) h
      rw [hid hs]; exact hi
    · exact shrinkPulse_zero hl hup h hs hi

/-- A pulse inside the limits is not changed by limiting it. -/
theorem limited_fits {p : Pulse K} {u v : List K} (hlu : p.lower ≤ p.upper) (h : p.limited u = .ok v)
    (hf : ∀ x ∈ u, p.lower ≤ x ∧ x ≤ p.upper) : v = u := by
  cases hsh : p.shrink with
  | false =>
    simp only [Pulse.limited, hsh, Bool.false_eq_true, if_false, Except.ok.injEq] at h
    rw [← h]
    conv_rhs => rw [← List.map_id u]
    exact List.map_congr_left fun x hx => cutSample_id (hf x hx).1 (hf x hx).2
  | true =>
    simp only [Pulse.limited, hsh, if_true] at h
    obtain ⟨_, _, _, _, _, _, hid, _⟩ := shrinkPulse_spec hlu h
    exact hid hf

/-- What both C85 theorems share. -/
theorem limitFirst_zero {M : MathFns K} {d : PulseDict K} {p q : Pulse K} {x u : List K} {T : K}
    (hr : PulseReach M d p) (ho : d.shapingOptions = some limitFirstOrder) (hb : 2 ≤ d.binsNumber)
    (h0 : d.lowerLimit ≤ 0) (h1 : 0 ≤ d.upperLimit)
    {sc g : List K} (hsc : d.scaling = .array sc ∨ ∃ f, d.scaling = .callable f ∧ f q.timeGrid = sc)
    (hg : d.guess = .array g ∨ ∃ f, d.guess = .callable f ∧ f q.timeGrid = g)
    (hscl : sc.length = d.binsNumber) (hgl : g.length = d.binsNumber)
    (hfit : ∀ y ∈ g, d.lowerLimit ≤ y ∧ y ≤ d.upperLimit)
    (h : p.getPulse M x T = .ok (q, u))
    (hs : d.shrink = false ∨ ∃ q' w, ({ p with shaping := shapingOptions (some scaledOnlyOrder) } : Pulse K).getPulse M x T
        = .ok (q', w) ∧ ((∀ y ∈ w, d.lowerLimit ≤ y ∧ y ≤ d.upperLimit) ∨ (∀ y ∈ w, 0 ≤ y) ∨ ∀ y ∈ w, y ≤ 0))
    {i : ℕ} (hi : sc[i]? = some 0) : u[i]? = g[i]? := by
  obtain ⟨hlo, hup, hsh, hshape, hbins, hscal, hgu, _⟩ := (PulseReach.inputs x T hr).fields
  have hll : d.lowerLimit ≤ d.upperLimit := le_trans h0 h1
  rw [min_eq_left hll] at hlo
  rw [max_eq_right hll] at hup
  unfold Pulse.getPulse at h
  obtain ⟨v, hv, h⟩ := py_bind_ok.1 h
  rw [py_pure_ok] at h
  obtain ⟨rfl, rfl⟩ := Prod.mk.inj h
  set p' := p.setInputs x T with hp'
  have hlu : p'.lower ≤ p'.upper := by rw [hlo, hup]; exact hll
  unfold Pulse.build at hv
  have hord : shapingOptions (some limitFirstOrder)
      = [.addBasePulse, .addNewUpdatePulse, .scalePulse, .limitPulse, .addInitialGuess] := by decide
  have hord3 : shapingOptions (some scaledOnlyOrder) = [.addBasePulse, .addNewUpdatePulse, .scalePulse] := by decide
  rw [hshape, ho, hord] at hv
  simp only [List.foldlM_cons, List.foldlM_nil, bind_pure] at hv
  obtain ⟨u1, hu1, hv⟩ := py_bind_ok.1 hv
  obtain ⟨u2, hu2, hv⟩ := py_bind_ok.1 hv
  obtain ⟨u3, hu3, hv⟩ := py_bind_ok.1 hv
  obtain ⟨u4, hu4, hv⟩ := py_bind_ok.1 hv
  have hskl : ScalingKeepsLength p'.scaling := by
    rw [hscal]
    rcases hsc with h | ⟨f, h, _⟩ <;> (rw [h]; intro f' hf'; simp at hf')
  have hz : (zeros p'.binsNumber : List K).length = d.binsNumber := by simp [zeros, hbins]
  have l1 := applyStep_length hlu hskl (by rw [hz]; omega) hu1
  have l2 := applyStep_length hlu hskl (by rw [l1, hz]; omega) hu2
  have l3 := applyStep_length hlu hskl (by rw [l2, l1, hz]; omega) hu3
  have l2' : u2.length = d.binsNumber := by rw [l2, l1, hz]
  have l3' : u3.length = d.binsNumber := by rw [l3, l2']
  have l4' : u4.length = d.binsNumber := by rw [applyStep_length hlu hskl (by rw [l3']; omega) hu4, l3']
  have e3 : u3 = List.zipWith (· * ·) sc u2 := by
    simp only [Pulse.applyStep, Pulse.scale, hscal] at hu3
    rcases hsc with h | ⟨f, h, hf⟩
    · rw [h] at hu3
      simp only at hu3
      rw [bop_eq (by rw [hscl, l2'])] at hu3
      exact (Except.ok.inj hu3).symm
    · rw [h] at hu3
      simp only at hu3
      rw [hf, bop_eq (by rw [hscl, l2'])] at hu3
      exact (Except.ok.inj hu3).symm
  have hilt : i < d.binsNumber := by
    obtain ⟨h, _⟩ := List.getElem?_eq_some_iff.1 hi
    omega
  have hgi : g[i]? = some g[i] := by simp [hgl, hilt]
  have hu2i : u2[i]? = some u2[i] := by simp [l2', hilt]
  have hu3i : u3[i]? = some 0 := by
    rw [e3, List.getElem?_zipWith, hi, hu2i]; simp
  have hu4i : u4[i]? = some 0 := by
    simp only [Pulse.applyStep] at hu4
    refine limited_zero (by rw [hlo]; exact h0) (by rw [hup]; exact h1) hu4 ?_ hu3i
    rcases hs with hs | ⟨q', w, hw, hs⟩
    · left; rw [hsh]; exact hs
    · right
      have : w = u3 := by
        unfold Pulse.getPulse at hw
        obtain ⟨w', hw', hw⟩ := py_bind_ok.1 hw
        rw [py_pure_ok] at hw
        obtain ⟨_, rfl⟩ := Prod.mk.inj hw
        unfold Pulse.build at hw'
        have hsh3 : (({ p with shaping := shapingOptions (some scaledOnlyOrder) } : Pulse K).setInputs x T).shaping
            = [.addBasePulse, .addNewUpdatePulse, .scalePulse] := hord3
        rw [hsh3] at hw'
        simp only [List.foldlM_cons, List.foldlM_nil, bind_pure] at hw'
        obtain ⟨w1, hw1, hw'⟩ := py_bind_ok.1 hw'
        obtain ⟨w2, hw2, hw'⟩ := py_bind_ok.1 hw'
        have a1 : w1 = u1 := Except.ok.inj (hw1.symm.trans hu1)
        subst a1
        have a2 : w2 = u2 := Except.ok.inj (hw2.symm.trans hu2)
        subst a2
        exact Except.ok.inj (hw'.symm.trans hu3)
      rw [hlo, hup, ← this]
      exact hs
  simp only [Pulse.applyStep, Pulse.addInitialGuess, Pulse.initialGuess, hgu] at hv
  have fin : ∀ g', p'.limited g = .ok g' → bop (· + ·) g' u4 = .ok v → v[i]? = g[i]? := by
    intro g' hg' hv
    have eg := limited_fits hlu hg' (by rw [hlo, hup]; exact hfit)
    subst eg
    rw [bop_eq (by rw [hgl, l4'])] at hv
    rw [← Except.ok.inj hv, List.getElem?_zipWith, hgi, hu4i]
    simp
  rcases hg with h | ⟨f, h, hf⟩
  · rw [h] at hv
    obtain ⟨g', hg', hv⟩ := py_bind_ok.1 hv
    exact fin g' hg' hv
  · rw [h] at hv
    obtain ⟨g', hg', hv⟩ := py_bind_ok.1 hv
    simp only [hf] at hg'
    exact fin g' hg' hv

/-- **C85**, cut limits. With the documented order "limit first, then add the guess", limits around `0` and a guess inside
the limits: at every sample where the scaling is `0` the delivered pulse has exactly the value of the initial guess,
whatever the update, the base pulse and the history are. -/
theorem C85_boundary_kept_cut {M : MathFns K} {d : PulseDict K} {p q : Pulse K} {x u : List K} {T : K}
    (hr : PulseReach M d p) (ho : d.shapingOptions = some limitFirstOrder) (hcut : d.shrink = false)
    (hb : 2 ≤ d.binsNumber) (h0 : d.lowerLimit ≤ 0) (h1 : 0 ≤ d.upperLimit)
    {sc g : List K} (hsc : d.scaling = .array sc ∨ ∃ f, d.scaling = .callable f ∧ f q.timeGrid = sc)
    (hg : d.guess = .array g ∨ ∃ f, d.guess = .callable f ∧ f q.timeGrid = g)
    (hscl : sc.length = d.binsNumber) (hgl : g.length = d.binsNumber)
    (hfit : ∀ y ∈ g, d.lowerLimit ≤ y ∧ y ≤ d.upperLimit)
    (h : p.getPulse M x T = .ok (q, u)) (i : ℕ) (hi : sc[i]? = some 0) : u[i]? = g[i]? :=
  limitFirst_zero hr ho hb h0 h1 hsc hg hscl hgl hfit h (.inl hcut) hi

/-- **C85**, with `shrink_ampl_lim: True`. The values at the zeros of the scaling are kept when the scaled update (the pulse
the same settings deliver without the last two shaping options) already fits the limits, or lies on one side of `0`.
Missing: scaled updates with both signs that exceed a limit; `C85_shrink_moves_boundary` shows that the value is then not
kept. -/
theorem C85_boundary_kept_shrink_partial {M : MathFns K} {d : PulseDict K} {p q q' : Pulse K} {x u w : List K} {T : K}
    (hr : PulseReach M d p) (ho : d.shapingOptions = some limitFirstOrder)
    (hb : 2 ≤ d.binsNumber) (h0 : d.lowerLimit ≤ 0) (h1 : 0 ≤ d.upperLimit)
    {sc g : List K} (hsc : d.scaling = .array sc ∨ ∃ f, d.scaling = .callable f ∧ f q.timeGrid = sc)
    (hg : d.guess = .array g ∨ ∃ f, d.guess = .callable f ∧ f q.timeGrid = g)
    (hscl : sc.length = d.binsNumber) (hgl : g.length = d.binsNumber)
    (hfit : ∀ y ∈ g, d.lowerLimit ≤ y ∧ y ≤ d.upperLimit)
    (h : p.getPulse M x T = .ok (q, u))
    (hw : ({ p with shaping := shapingOptions (some scaledOnlyOrder) } : Pulse K).getPulse M x T = .ok (q', w))
    (hone : (∀ y ∈ w, d.lowerLimit ≤ y ∧ y ≤ d.upperLimit) ∨ (∀ y ∈ w, 0 ≤ y) ∨ ∀ y ∈ w, y ≤ 0)
    (i : ℕ) (hi : sc[i]? = some 0) : u[i]? = g[i]? :=
  limitFirst_zero hr ho hb h0 h1 hsc hg hscl hgl hfit h (.inr ⟨q', w, hw, hone⟩) hi

end

/-! ### Concrete cases -/

/-- Limits `±1`, a guess from `1/2` to `1/4` inside the limits, a scaling that vanishes at both ends, shrinking. -/
def exBoundary : PulseDict ℚ :=
  { exDict with
    lowerLimit := -1, upperLimit := 1, binsNumber := 4, basis := .piecewise, guess := .array [1 / 2, 0, 0, 1 / 4]
    scaling := .array [0, 1, 1, 0], shapingOptions := some limitFirstOrder }

/-- The pulse delivered by a fresh object. -/
def exBoundaryRun (d : PulseDict ℚ) (x : List ℚ) : Py (List ℚ) := do
  let p ← mkPulse exFns (-1) d
  let r ← p.getPulse exFns x 3
  pure r.2

/-- The hypotheses of `C85_boundary_kept_cut` are met and the limits act: the update has samples `3` and `-2`. -/
example : exBoundaryRun { exBoundary with shrink := false } [1, 3, -2, 1] = .ok [1 / 2, 1, -1, 1 / 4] := by decide +kernel

/-- The hypotheses of `C85_boundary_kept_shrink_partial` are met by a one-sided update that is shrunk. -/
example : exBoundaryRun exBoundary [1, 3, 2, 1] = .ok [1 / 2, 1, 2 / 3, 1 / 4] ∧
    exBoundaryRun { exBoundary with shapingOptions := some scaledOnlyOrder } [1, 3, 2, 1] = .ok [0, 3, 2, 0] := by
  decide +kernel

/-- **C85 is violated with `shrink_ampl_lim: True`**: an update with both signs that exceeds a limit is shrunk towards its
smallest value, not towards `0`, and the samples where the scaling is `0` move. Here the guess starts at `1/2` and ends at
`1/4`, the scaling vanishes at both ends, and the delivered pulse starts at `3/14` and ends at `-1/28`. -/
theorem C85_shrink_moves_boundary :
    ∃ (d : PulseDict ℚ) (p q : Pulse ℚ) (x u : List ℚ) (g : List ℚ),
      PulseReach exFns d p ∧ d.shapingOptions = some limitFirstOrder ∧ d.shrink = true ∧ d.scaling = .array [0, 1, 1, 0] ∧
      d.guess = .array g ∧ (∀ y ∈ g, d.lowerLimit ≤ y ∧ y ≤ d.upperLimit) ∧ d.lowerLimit ≤ 0 ∧ 0 ≤ d.upperLimit ∧
      p.getPulse exFns x 3 = .ok (q, u) ∧ u[0]? ≠ g[0]? ∧ u[3]? ≠ g[3]? := by
  have h : exBoundaryRun exBoundary [1, 3, -1 / 2, 1] = .ok [3 / 14, 1, -1 / 2, -1 / 28] := by decide +kernel
  unfold exBoundaryRun at h
  obtain ⟨p, h1, h⟩ := py_bind_ok.1 h
  obtain ⟨⟨q, u⟩, h2, h⟩ := py_bind_ok.1 h
  rw [py_pure_ok] at h
  simp only at h
  refine ⟨exBoundary, p, q, _, u, [1 / 2, 0, 0, 1 / 4], .create h1, rfl, rfl, rfl, rfl, ?_, ?_, ?_, h2, ?_, ?_⟩
  · decide +kernel
  · decide +kernel
  · decide +kernel
  · rw [h]; decide +kernel
  · rw [h]; decide +kernel

/-- **C85 needs the guess to fit the limits**: with the order "limit first, then add the guess" the guess itself is limited
before it is added. Without any update the guess `[4, 0, 0, 2]` with limits `±1` is delivered shrunk, so the pulse does not
start and end at the values of the guess although the scaling vanishes there. -/
theorem C85_guess_beyond_limits_moves_boundary :
    ∃ (d : PulseDict ℚ) (p q : Pulse ℚ) (x u : List ℚ),
      PulseReach exFns d p ∧ d.shapingOptions = some limitFirstOrder ∧ d.scaling = .array [0, 1, 1, 0] ∧
      d.guess = .array [4, 0, 0, 2] ∧ p.getPulse exFns x 3 = .ok (q, u) ∧ u = [1, 0, 0, 1 / 2] := by
  have h : exBoundaryRun { exBoundary with guess := .array [4, 0, 0, 2] } [0, 0, 0, 0] = .ok [1, 0, 0, 1 / 2] := by
    decide +kernel
  unfold exBoundaryRun at h
  obtain ⟨p, h1, h⟩ := py_bind_ok.1 h
  obtain ⟨⟨q, u⟩, h2, h⟩ := py_bind_ok.1 h
  rw [py_pure_ok] at h
  simp only at h
  exact ⟨_, p, q, _, u, .create h1, rfl, rfl, rfl, h2, h⟩

end QuOCS

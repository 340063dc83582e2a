/-
C13, C14, C15: amplitude limits of pulses.
-/
import Verif.Spec.Pulse
import Verif.Lemmas.Pulse

set_option linter.unusedSectionVars false

namespace QuOCS

section
variable {K : Type*} [Field K] [LinearOrder K] [IsStrictOrderedRing K]

/-- The limits, mode and shaping list of a reachable pulse are those of the user's dictionary. -/
theorem PulseReach.fields {M : MathFns K} {d : PulseDict K} {p : Pulse K} (h : PulseReach M d p) :
    p.lower = min d.lowerLimit d.upperLimit ∧ p.upper = max d.lowerLimit d.upperLimit ∧ p.shrink = d.shrink ∧
      p.shaping = shapingOptions d.shapingOptions ∧ p.binsNumber = d.binsNumber ∧ p.scaling = d.scaling ∧
      p.guess = d.guess ∧ p.overwrite = d.overwrite ∧ p.basis = d.basis := by
  induction h with
  | create h =>
    unfold mkPulse at h
    simp only at h
    split at h
    · simp at h
    · simp only [Except.ok.injEq] at h
      subst h
      by_cases hlt : d.upperLimit < d.lowerLimit
      · simp [hlt, hlt.le]
      · simp [hlt, not_lt.1 hlt]
  | inputs x T _ ih => exact ih
  | get _ h ih =>
    unfold Pulse.getPulse at h
    obtain ⟨u, _, h⟩ := py_bind_ok.1 h
    rw [py_pure_ok] at h
    obtain ⟨rfl, rfl⟩ := Prod.mk.inj h
    exact ih
  | bare _ h ih =>
    unfold Pulse.getBarePulse at h
    obtain ⟨u, _, h⟩ := py_bind_ok.1 h
    rw [py_pure_ok] at h
    obtain ⟨rfl, rfl⟩ := Prod.mk.inj h
    exact ih
  | base _ h ih =>
    unfold Pulse.setBasePulse at h
    obtain ⟨u, _, h⟩ := py_bind_ok.1 h
    split at h
    · rw [py_pure_ok] at h; subst h; exact ih
    · obtain ⟨b, _, h⟩ := py_bind_ok.1 h
      rw [py_pure_ok] at h; subst h; exact ih
  | draw _ h ih =>
    unfold Pulse.drawSuper at h
    obtain ⟨u, _, h⟩ := py_bind_ok.1 h
    rw [py_pure_ok] at h; subst h; exact ih
  | index mi _ ih => exact ih

theorem shaping_limitLast {d : PulseDict K} (h : LimitLast d) :
    ∃ pre, shapingOptions d.shapingOptions = pre ++ [.limitPulse] := by
  rcases h with h | ⟨pre, h⟩
  · exact ⟨[.addInitialGuess, .addBasePulse, .addNewUpdatePulse, .scalePulse], by simp [h, shapingOptions]⟩
  · exact ⟨pre.filterMap shapingOfName, by simp [h, shapingOptions, shapingOfName]⟩

/-- **C13.** Whatever happened to the pulse object before, and whatever the search vector `x` and the duration `T` are,
a pulse delivered by `get_pulse` lies within the (ordered) amplitude limits, in cut and in shrink mode. -/
theorem C13_delivered_pulse_within_limits {M : MathFns K} {d : PulseDict K} {p q : Pulse K} {x u : List K} {T : K}
    (hr : PulseReach M d p) (hl : LimitLast d) (h : p.getPulse M x T = .ok (q, u)) :
    ∀ s ∈ u, min d.lowerLimit d.upperLimit ≤ s ∧ s ≤ max d.lowerLimit d.upperLimit := by
  obtain ⟨hlo, hup, _, hs, _⟩ := hr.fields
  unfold Pulse.getPulse at h
  obtain ⟨v, hv, h⟩ := py_bind_ok.1 h
  rw [py_pure_ok] at h
  obtain ⟨rfl, rfl⟩ := Prod.mk.inj h
  obtain ⟨pre, hpre⟩ := shaping_limitLast hl
  unfold Pulse.build at hv
  simp only [Pulse.setInputs, hs, hpre, List.foldlM_append] at hv
  obtain ⟨w, _, hv⟩ := py_bind_ok.1 hv
  simp only [List.foldlM_cons, List.foldlM_nil, Pulse.applyStep, bind_pure] at hv
  have := limited_mem hv (by simp [hlo, hup])
  simpa [hlo, hup] using this

/-- **C14.** Cut mode: a sample inside the limits is unchanged, a sample below (above) becomes the lower (upper)
limit, and cutting twice is cutting once. -/
theorem C14_cut_only_outside {M : MathFns K} {d : PulseDict K} {p : Pulse K} {u v : List K}
    (hr : PulseReach M d p) (hcut : d.shrink = false) (h : p.limited u = .ok v) :
    v.length = u.length ∧
    (∀ (i : ℕ) (x y : K), u[i]? = some x → v[i]? = some y →
      (min d.lowerLimit d.upperLimit ≤ x → x ≤ max d.lowerLimit d.upperLimit → y = x) ∧
      (x < min d.lowerLimit d.upperLimit → y = min d.lowerLimit d.upperLimit) ∧
      (max d.lowerLimit d.upperLimit < x → y = max d.lowerLimit d.upperLimit)) ∧
    p.limited v = .ok v := by
  obtain ⟨hlo, hup, hsh, _⟩ := hr.fields
  have hlu : p.lower ≤ p.upper := by simp [hlo, hup]
  rw [← hlo, ← hup]
  rw [hcut] at hsh
  simp only [Pulse.limited, hsh, Bool.false_eq_true, if_false, Except.ok.injEq] at h ⊢
  subst h
  refine ⟨by simp, ?_, ?_⟩
  · intro i x y hx hy
    simp only [List.getElem?_map, hx, Option.map_some, Option.some.injEq] at hy
    subst hy
    refine ⟨fun h1 h2 => cutSample_id h1 h2, fun h1 => ?_, fun h1 => ?_⟩
    · simp [cutSample, le_trans h1.le hlu, h1.le]
    · simp [cutSample, h1.le, hlu]
  · rw [List.map_map]
    apply List.map_congr_left
    intro x _
    obtain ⟨h1, h2⟩ := cutSample_mem hlu x
    exact cutSample_id h1 h2

/-- **C15.** Shrink mode: the limited pulse is the image of the pulse under one affine map with slope in `[0, 1]`
(hence the order of samples is never swapped and equal samples stay equal), it fits the limits, a pulse that already
fits is unchanged, and the slope is positive (no two different samples are merged) unless the pulse lies completely
on one side of the limits or the limits coincide. -/
theorem C15_shrink_preserves_shape {M : MathFns K} {d : PulseDict K} {p : Pulse K} {u v : List K}
    (hr : PulseReach M d p) (hshrink : d.shrink = true) (h : p.limited u = .ok v) :
    (∃ a b : K, 0 ≤ a ∧ a ≤ 1 ∧ v = u.map (fun x => a * x + b) ∧
      ((∃ x ∈ u, min d.lowerLimit d.upperLimit < x) → (∃ x ∈ u, x < max d.lowerLimit d.upperLimit) →
        d.lowerLimit ≠ d.upperLimit → 0 < a)) ∧
    (∀ y ∈ v, min d.lowerLimit d.upperLimit ≤ y ∧ y ≤ max d.lowerLimit d.upperLimit) ∧
    ((∀ x ∈ u, min d.lowerLimit d.upperLimit ≤ x ∧ x ≤ max d.lowerLimit d.upperLimit) → v = u) := by
  obtain ⟨hlo, hup, hsh, _⟩ := hr.fields
  have hlu : p.lower ≤ p.upper := by simp [hlo, hup]
  have hmem := limited_mem h hlu
  rw [← hlo, ← hup]
  rw [hshrink] at hsh
  simp only [Pulse.limited, hsh, if_true] at h
  obtain ⟨a, b, h0, h1, h2, h3, h4, h5⟩ := shrinkPulse_spec hlu h
  refine ⟨⟨a, b, h0, h1, h2, fun k1 k2 k3 => h5 k1 k2 ?_⟩, hmem, h4⟩
  rw [hlo, hup]
  rcases lt_or_gt_of_ne k3 with k | k
  · simp [k, k.le]
  · simp [k, k.le]

/-- Shrinking a non-empty pulse never fails. -/
theorem C15_shrink_total {p : Pulse K} (u : List K) (hu : u ≠ []) : ∃ v, p.limited u = .ok v := by
  unfold Pulse.limited
  split
  · exact shrinkPulse_exists hu
  · exact ⟨_, rfl⟩

end

/-! ### Concrete instances -/

/-- Elementary functions used in the concrete examples (rational stand-ins). -/
def exFns : MathFns ℚ := { sin := id, cos := fun x => 1 - x, arccos := id, erf := id, pi := 3, sqrt2 := 7 / 5 }

/-- A pulse with swapped limits, a Fourier basis with two frequencies, a guess beyond the limits. -/
def exDict : PulseDict ℚ :=
  { pulseName := "p", timeName := "t", binsNumber := 3, lowerLimit := 2, upperLimit := -1, amplitudeVariation := 1
    shrink := true, guess := .callable (fun t => t.map (fun s => 5 * s)), scaling := .callable (fun t => t.map (fun _ => 1))
    shapingOptions := none, overwrite := false, basis := .fourier 2, wLower := 0, wUpper := 4 }

example : LimitLast exDict := Or.inl rfl

/-- A pulse object after one super-iteration (construction, random draw, base update). -/
def exReached : Py (Pulse ℚ) := do
  let p ← mkPulse exFns (-1) exDict
  let p ← p.drawSuper [1 / 2, 1 / 4]
  p.setBasePulse exFns [0, 1, 0, 0] 2

theorem exReached_reach {p : Pulse ℚ} (h : exReached = .ok p) : PulseReach exFns exDict p := by
  obtain ⟨p1, h1, h⟩ := py_bind_ok.1 h
  obtain ⟨p2, h2, h⟩ := py_bind_ok.1 h
  exact .base (.draw (.create h1) h2) h

/-- The hypotheses of C13 are met by a pulse that went through a super-iteration, and the delivered pulse is a
non-constant pulse that touches both limits. -/
example : ∃ p q u, PulseReach exFns exDict p ∧ p.getPulse exFns [1, 0, -3, 1] 2 = .ok (q, u) ∧
    u = [2, 1 / 2, -1] := by
  have h : (do let p ← exReached; let r ← p.getPulse exFns [1, 0, -3, 1] 2; pure r.2) = (.ok [2, 1 / 2, -1] : Py (List ℚ)) := by
    decide +kernel
  obtain ⟨p, h1, h⟩ := py_bind_ok.1 h
  obtain ⟨⟨q, u⟩, h2, h⟩ := py_bind_ok.1 h
  exact ⟨p, q, u, exReached_reach h1, h2, py_pure_ok.1 h⟩

/-- The hypotheses of C14 (and a sample in each of the three cases). -/
example : ∃ p, PulseReach exFns { exDict with shrink := false } p ∧ p.limited [-4, 1, 9] = .ok [-1, 1, 2] := by
  refine ⟨_, .create (mi := -1) rfl, by decide +kernel⟩

/-- The hypotheses of C15 with a pulse beyond both limits. -/
example : ∃ p, PulseReach exFns exDict p ∧ p.limited [-4, 1, 9] = .ok [-1, 2 / 13, 2] := by
  refine ⟨_, .create (mi := -1) rfl, by decide +kernel⟩

end QuOCS

/-
Properties of the controls object: C20 (slots), C21 (start point and sizes), C22 (parameter limits),
C23 (independence), and C13 for all delivered pulses.
-/
import Verif.Lemmas.Controls
import Verif.Props.Shaping

set_option linter.unusedSectionVars false

namespace QuOCS

section
variable {K : Type*} [Field K] [LinearOrder K] [IsStrictOrderedRing K]
variable {M : MathFns K} {pd : List (PulseDict K)} {td : List (TimeDict K)} {rd : List (ParamDict K)} {c : Controls K}

/-- **C20.** In every reachable controls object the slot lists of all controls, concatenated in order, are exactly
`0, 1, ..., n-1`, where `n` is the reported number of control parameters; every pulse owns as many slots as its basis
declares and every parameter owns one. -/
theorem C20_slots_partition (hr : ControlsReach M pd td rd c) :
    c.slots.flatten = List.range c.number ∧
    c.slots.map List.length = pd.map (·.declared) ++ rd.map (fun _ => 1) := by
  have h := CInv.of_reach hr
  constructor
  · unfold Controls.slots Controls.number
    rw [List.flatten_append, PChain_flatten h.pchain, QChain_flatten h.qchain, List.range_eq_range']
    have : (c.params.map (fun _ => 1)).sum = c.params.length := by simp
    rw [this]
    have := List.range'_append_1 (s := 0) (m := (c.pulses.map (·.nParams)).sum) (n := c.params.length)
    simpa using this
  · unfold Controls.slots
    rw [List.map_append, List.map_map, List.map_map]
    congr 1
    · have hl : ∀ (k : ℕ) (ps : List (Pulse K)) , PChain k ps →
          ps.map (List.length ∘ (·.ctrlList)) = ps.map (·.nParams) := by
        intro k ps
        induction ps generalizing k with
        | nil => intro _; rfl
        | cons p ps ih =>
          rintro ⟨h1, _, h3⟩
          simp only [List.map_cons, Function.comp, h1, List.length_range']
          congr 1
          exact ih _ h3
      rw [hl 0 _ h.pchain]
      exact forall2_map_eq h.reach (fun d p hp => hp.w_length.2.1)
    · have hl : ∀ (k : ℕ) (ps : List (Param K)), QChain k ps →
          ps.map (List.length ∘ (·.ctrlList)) = ps.map (fun _ => 1) := by
        intro k ps
        induction ps generalizing k with
        | nil => intro _; rfl
        | cons p ps ih =>
          rintro ⟨h1, _, h3⟩
          simp only [List.map_cons, Function.comp, h1]
          congr 1
          exact ih _ h3
      rw [hl _ _ h.qchain]
      exact forall2_map_eq h.params (fun d p hp => rfl)

/-- **C20** (consequence). No slot belongs to two different controls. -/
theorem C20_no_shared_slot (hr : ControlsReach M pd td rd c) :
    c.slots.flatten.Nodup ∧ c.slots.Pairwise List.Disjoint := by
  have h : c.slots.flatten.Nodup := by rw [(C20_slots_partition hr).1]; exact List.nodup_range
  exact ⟨h, (List.nodup_flatten.1 h).2⟩

/-- **C21** (start point). The mean vector has one entry per slot: zero for every pulse coefficient and the current
value for every parameter, in slot order. -/
theorem C21_start_point (hr : ControlsReach M pd td rd c) :
    c.mean = .ok (zeros (pd.map (·.declared)).sum ++ c.params.map (·.value)) := by
  have h := CInv.of_reach hr
  unfold Controls.mean Controls.number
  have hs : (c.params.map (fun _ => 1)).sum = c.params.length := by simp
  rw [hs]
  have h1 := scatter_pulses (K := K) (fun p => p.offsetCoeffs) [] c.params.length h.pchain (by
    intro p hp
    obtain ⟨d, _, hd⟩ := forall2_right_mem h.reach hp
    rw [hd.coeffs.2]; simp [zeros])
  simp only [List.nil_append] at h1
  rw [h1]
  simp only [bind, Except.bind]
  have hl : (c.pulses.map (fun p => p.offsetCoeffs)).flatten = zeros (pd.map (·.declared)).sum := by
    have e : c.pulses.map (fun p => p.offsetCoeffs) = pd.map (fun d => zeros d.declared) :=
      forall2_map_eq h.reach (fun d p hp => by rw [hp.coeffs.2, hp.w_length.2.1]; rfl)
    rw [e]
    clear h1 e h hs hr
    induction pd with
    | nil => rfl
    | cons d pd ih => simp only [List.map_cons, List.flatten_cons, List.sum_cons, zeros_add, ih]
  rw [hl]
  have hn : (c.pulses.map (·.nParams)) = pd.map (·.declared) :=
    forall2_map_eq h.reach (fun d p hp => hp.w_length.2.1)
  refine scatter_params (K := K) (fun p => p.value) _ ?_
  have := h.qchain
  rw [hn] at this
  simpa [zeros] using this

/-- **C21** (start point at creation). The search starts at zero coefficients and the user's initial values. -/
theorem C21_initial_start_point (hc : mkControls M pd td rd = .ok c) :
    c.mean = .ok (zeros (pd.map (·.declared)).sum ++ rd.map (·.initialValue)) := by
  rw [C21_start_point (.create hc)]
  unfold mkControls at hc
  obtain ⟨⟨ps, mi⟩, h1, hc⟩ := py_bind_ok.1 hc
  obtain ⟨ts, h2, hc⟩ := py_bind_ok.1 hc
  rw [py_pure_ok] at hc
  subst hc
  obtain ⟨i1, i2, i3⟩ := mkPulses_inv (k := 0) h1
  simp only [Nat.cast_zero, zero_add] at i3
  subst i3
  rw [(mkParams_inv (K := K) (k := (ps.map (·.nParams)).sum) rd).2.2]

/-- **C21** (start sizes). If no time is optimized, the vector of start sizes has one entry per slot: the start size of
the pulse owning the slot, respectively the amplitude variation of the parameter owning it. -/
theorem C21_start_sizes_partial (hr : ControlsReach M pd td rd c) (hf : FixedTimes td) :
    c.sigma = .ok ((pd.map (fun d => List.replicate d.declared (d.startSize M))).flatten
      ++ rd.map (·.amplitudeVariation)) := by
  have h := CInv.of_reach hr
  unfold Controls.sigma Controls.number
  have hs : (c.params.map (fun _ => 1)).sum = c.params.length := by simp
  rw [hs]
  have hsc : ∀ d p, PulseReach M d p → p.scaleCoeffs = List.replicate d.declared (d.startSize M) := by
    intro d p hp
    rw [hp.coeffs.1, hp.w_length.2.1]
    unfold basisScale PulseDict.startSize PulseDict.declared
    cases d.basis <;> rfl
  have h1 := scatter_pulses (K := K) (fun p => p.scaleCoeffs) [] c.params.length h.pchain (by
    intro p hp
    obtain ⟨d, _, hd⟩ := forall2_right_mem h.reach hp
    rw [hsc d p hd, hd.w_length.2.1]; simp [PulseDict.declared])
  simp only [List.nil_append] at h1
  rw [h1]
  simp only [bind, Except.bind]
  have e : c.pulses.map (fun p => p.scaleCoeffs) = pd.map (fun d => List.replicate d.declared (d.startSize M)) :=
    forall2_map_eq h.reach (fun d p hp => hsc d p hp)
  have hlen : (c.pulses.map (fun p => p.scaleCoeffs)).flatten.length = (c.pulses.map (·.nParams)).sum := by
    rw [List.length_flatten, List.map_map]
    congr 1
    apply List.map_congr_left
    intro p hp
    obtain ⟨d, _, hd⟩ := forall2_right_mem h.reach hp
    simp only [Function.comp]
    rw [hsc d p hd, hd.w_length.2.1]; simp [PulseDict.declared]
  have h2 := scatter_params (K := K) (ps := c.params) (fun p => p.amplitudeVariation)
    (c.pulses.map (fun p => p.scaleCoeffs)).flatten (by rw [hlen]; exact h.qchain)
  rw [h2]
  simp only
  have e2 : c.params.map (fun p => p.amplitudeVariation) = rd.map (·.amplitudeVariation) :=
    forall2_map_eq h.params (fun d p hp => hp.2.2.2)
  rw [e2, e]
  have ht : ∀ (ts : List (String × TimeObj K)) (s : List K), (∀ t ∈ ts, t.2.isOptimization = false) →
      ts.foldlM (fun s t => if t.2.isOptimization then scatter s t.2.alpha.ctrlList [t.2.alpha.amplitudeVariation]
        else pure s) s = (.ok s : Py (List K)) := by
    intro ts
    induction ts with
    | nil => intro s _; rfl
    | cons t ts ih =>
      intro s hts
      simp only [List.foldlM_cons, hts t (by simp), Bool.false_eq_true, if_false, pure_bind]
      exact ih s (fun u hu => hts u (by simp [hu]))
  exact ht _ _ (h.fixed hf)

/-- **C22.** Every parameter delivered to the figure of merit is its slot of the search vector limited to the user's
range: it lies in the range (if the range is not empty), and a value inside the range is delivered unchanged. -/
theorem C22_parameters_within_limits {c' : Controls K} {x : List K} {o : ControlsOut K}
    (hr : ControlsReach M pd td rd c) (h : c.getControls M x = .ok (c', o)) :
    o.parameters.length = rd.length ∧
    ∀ (j : ℕ) (d : ParamDict K), rd[j]? = some d → ∃ y v, x[(pd.map (·.declared)).sum + j]? = some y ∧
      o.parameters[j]? = some v ∧ (d.lower ≤ d.upper → d.lower ≤ v ∧ v ≤ d.upper) ∧
      (d.lower ≤ y → y ≤ d.upper → v = y) ∧ (d.lower ≤ d.upper → y < d.lower → v = d.lower) ∧
      (d.upper < y → v = d.upper) := by
  have hi := CInv.of_reach hr
  obtain ⟨ts, h1, h2, h3, h4, h5, h6, h7⟩ := getControls_parts h
  have hn : (c.pulses.map (·.nParams)) = pd.map (·.declared) :=
    forall2_map_eq hi.reach (fun d p hp => hp.w_length.2.1)
  have hq := hi.qchain
  rw [hn] at hq
  rw [h7]
  have hp := hi.params
  generalize (pd.map (·.declared)).sum = k at hq ⊢
  generalize c.params = ps at *
  generalize c'.params = qs at *
  clear h7 h3 h4 h5 hi hn h hr h1 h2
  induction hp generalizing qs k with
  | nil =>
    cases h6
    exact ⟨rfl, by intro j d h; simp at h⟩
  | @cons d p rd ps hd _ ih =>
    cases h6 with
    | @cons _ q _ qs hq1 hq2 =>
      obtain ⟨c1, c2, c3⟩ := hq
      obtain ⟨i1, i2⟩ := ih (k + 1) c3 qs hq2
      refine ⟨by simpa using i1, ?_⟩
      intro j e he
      cases j with
      | succ j =>
        obtain ⟨y, v, a1, a2⟩ := i2 j e (by simpa using he)
        refine ⟨y, v, ?_, ?_⟩
        · rw [← a1]; congr 1; omega
        · simpa using a2
      | zero =>
        simp only [List.getElem?_cons_zero, Option.some.injEq] at he
        subst he
        obtain ⟨v, hv, hq1⟩ := hq1
        rw [c1] at hv
        unfold gather at hv
        rw [mapM_ok] at hv
        cases hv with
        | @cons _ y _ _ hy hv =>
          cases hv
          unfold Param.setParameter at hq1
          obtain ⟨z, hz, hq1⟩ := py_bind_ok.1 hq1
          rw [py_pure_ok] at hq1
          subst hq1
          have hz : y = z := by simpa [getIdx] using hz
          subst hz
          refine ⟨y, _, by simpa using getIdx_ok.1 hy, rfl, ?_⟩
          obtain ⟨_, e1, e2, _⟩ := hd
          simp only [Param.checkLimits, e1, e2]
          refine ⟨fun hle => ⟨le_min (le_max_left _ _) hle, min_le_right _ _⟩, fun a b => ?_, fun a b => ?_, fun a => ?_⟩
          · rw [max_eq_right a, min_eq_left b]
          · rw [max_eq_left b.le, min_eq_left a]
          · rw [min_eq_right]; exact le_trans a.le (le_max_right _ _)

theorem gather_congr {x x' : List K} {idx : List ℕ} (h : ∀ i ∈ idx, x[i]? = x'[i]?) : gather x idx = gather x' idx := by
  unfold gather
  induction idx with
  | nil => rfl
  | cons i idx ih =>
    simp only [List.mapM_cons]
    have : getIdx x i = getIdx x' i := by unfold getIdx; rw [h i (by simp)]
    rw [this, ih (fun j hj => h j (by simp [hj]))]

/-- **C23.** If no time is optimized, a control only depends on its own slots: two search vectors that agree on the
slots of pulse `j` (parameter `j`) deliver the same pulse and time grid `j` (parameter `j`). -/
theorem C23_control_depends_on_own_slots_partial {c1 c2 : Controls K} {x x' : List K} {o o' : ControlsOut K}
    (hr : ControlsReach M pd td rd c) (hf : FixedTimes td)
    (h : c.getControls M x = .ok (c1, o)) (h' : c.getControls M x' = .ok (c2, o')) :
    (∀ (j : ℕ) (p : Pulse K), c.pulses[j]? = some p → (∀ s ∈ p.ctrlList, x[s]? = x'[s]?) →
      o.pulses[j]? = o'.pulses[j]? ∧ o.timegrids[j]? = o'.timegrids[j]?) ∧
    (∀ (j : ℕ) (p : Param K), c.params[j]? = some p → (∀ s ∈ p.ctrlList, x[s]? = x'[s]?) →
      o.parameters[j]? = o'.parameters[j]?) := by
  have hi := CInv.of_reach hr
  obtain ⟨ts, h1, h2, h3, h4, h5, h6, h7⟩ := getControls_parts h
  obtain ⟨ts', k1, k2, k3, k4, k5, k6, k7⟩ := getControls_parts h'
  have fix : ∀ (x : List K) (ts ts' : List (String × TimeObj K)), (∀ t ∈ ts, t.2.isOptimization = false) →
      setTimes x ts = .ok ts' → ts' = ts := by
    intro x ts ts' ht hs
    have := setTimes_keeps hs
    clear hs
    induction this with
    | nil => rfl
    | cons a _ ih => rw [a.2.2 (ht _ (by simp)), ih (fun t h => ht t (by simp [h]))]
  have e1 := fix _ _ _ (hi.fixed hf) h1
  have e2 := fix _ _ _ (hi.fixed hf) k1
  subst e1
  constructor
  · intro j p hp hs
    have l3 := h3.length_eq
    have m3 := k3.length_eq
    have hj : j < c.pulses.length := (List.getElem?_eq_some_iff.1 hp).1
    have hj1 : j < (c1.pulses.zip o.pulses).length := by omega
    have hj2 : j < (c2.pulses.zip o'.pulses).length := by omega
    have hp' : c.pulses[j] = p := (List.getElem?_eq_some_iff.1 hp).2
    obtain ⟨v, t, g1, g2, g3⟩ := (List.forall₂_iff_get.1 h3).2 j hj hj1
    obtain ⟨v', t', g1', g2', g3'⟩ := (List.forall₂_iff_get.1 k3).2 j hj hj2
    simp only [List.get_eq_getElem, hp'] at g1 g2 g3 g1' g2' g3'
    rw [gather_congr hs, g1'] at g1
    simp only [Except.ok.injEq] at g1
    subst g1
    rw [e2, g2] at g2'
    simp only [Except.ok.injEq] at g2'
    subst g2'
    rw [g3] at g3'
    simp only [Except.ok.injEq, List.getElem_zip, Prod.mk.injEq] at g3'
    obtain ⟨a1, a2⟩ := g3'
    simp only [List.length_zip] at hj1 hj2
    rw [List.getElem?_eq_getElem (by omega), List.getElem?_eq_getElem (by omega), a2, h5, k5]
    refine ⟨rfl, ?_⟩
    rw [List.getElem?_map, List.getElem?_map, List.getElem?_eq_getElem (by omega), List.getElem?_eq_getElem (by omega), a1]
  · intro j p hp hs
    have hj : j < c.params.length := (List.getElem?_eq_some_iff.1 hp).1
    have hp' : c.params[j] = p := (List.getElem?_eq_some_iff.1 hp).2
    have l3 := h6.length_eq
    have m3 := k6.length_eq
    obtain ⟨v, g1, g3⟩ := (List.forall₂_iff_get.1 h6).2 j hj (by omega)
    obtain ⟨v', g1', g3'⟩ := (List.forall₂_iff_get.1 k6).2 j hj (by omega)
    simp only [List.get_eq_getElem, hp'] at g1 g3 g1' g3'
    rw [gather_congr hs, g1'] at g1
    simp only [Except.ok.injEq] at g1
    subst g1
    rw [g3] at g3'
    simp only [Except.ok.injEq] at g3'
    rw [h7, k7, List.getElem?_map, List.getElem?_map, List.getElem?_eq_getElem (by omega),
      List.getElem?_eq_getElem (by omega), g3']

/-- **C13** for the whole set of controls: every sample of every pulse delivered to the figure of merit respects the
limits of its pulse. -/
theorem C13_all_delivered_pulses_within_limits {c' : Controls K} {x : List K} {o : ControlsOut K}
    (hr : ControlsReach M pd td rd c) (h : c.getControls M x = .ok (c', o)) :
    List.Forall₂ (fun d u => LimitLast d → ∀ s ∈ u, min d.lowerLimit d.upperLimit ≤ s ∧
      s ≤ max d.lowerLimit d.upperLimit) pd o.pulses := by
  have hi := CInv.of_reach hr
  obtain ⟨ts, h1, h2, h3, h4, h5, h6, h7⟩ := getControls_parts h
  have e : (c'.pulses.zip o.pulses).map Prod.snd = o.pulses := by
    rw [List.map_snd_zip]; omega
  rw [← e, List.forall₂_map_right_iff]
  refine forall2_comp hi.reach h3 ?_
  rintro d p ⟨q, u⟩ hd ⟨v, t, _, _, hg⟩ hl
  exact C13_delivered_pulse_within_limits hd hl hg

/-- **C16** for the whole set of controls: every delivered pulse and its time grid have `bins_number` samples. -/
theorem C16_all_delivered_pulses_have_bins_samples {c' : Controls K} {x : List K} {o : ControlsOut K}
    (hr : ControlsReach M pd td rd c) (h : c.getControls M x = .ok (c', o)) :
    List.Forall₂ (fun d (r : List K × List K) => 2 ≤ d.binsNumber → ScalingKeepsLength d.scaling →
      r.1.length = d.binsNumber ∧ r.2.length = d.binsNumber) pd (o.pulses.zip o.timegrids) := by
  have hi := CInv.of_reach hr
  obtain ⟨ts, h1, h2, h3, h4, h5, h6, h7⟩ := getControls_parts h
  have e : o.pulses.zip o.timegrids = (c'.pulses.zip o.pulses).map (fun r => (r.2, r.1.timeGrid)) := by
    rw [h5]
    apply List.ext_getElem
    · simp; omega
    · intro i a b
      simp
  rw [e, List.forall₂_map_right_iff]
  refine forall2_comp hi.reach h3 ?_
  rintro d p ⟨q, u⟩ hd ⟨v, t, _, _, hg⟩ h2 hk
  have := C16_pulse_and_grid_have_bins_samples hd h2 hk hg
  exact ⟨this.1, this.2.1⟩

end

/-! ### Concrete instances -/

/-- Two pulses, one time, two parameters. -/
def exPd : List (PulseDict ℚ) := [exDict, { exDict with pulseName := "q", basis := .sigmoid 1 (1/10) 1 }]
def exTd : List (TimeDict ℚ) :=
  [{ name := "t", initialValue := 2, isOptimization := false, lower := 1, upper := 3, amplitudeVariation := 1 }]
def exRd : List (ParamDict ℚ) :=
  [{ name := "a", initialValue := 1, lower := 0, upper := 2, amplitudeVariation := 1/2 },
   { name := "b", initialValue := 5, lower := 4, upper := 6, amplitudeVariation := 1/4 }]

/-- A controls object after a super-iteration. -/
def exControls : Py (Controls ℚ) := do
  let c ← mkControls exFns exPd exTd exRd
  let c ← c.selectBasis (fun _ => [1/2, 1/4])
  c.updateBase exFns [0, 1, 0, 0, 1, 1, 1, 7]

theorem exControls_reach {c : Controls ℚ} (h : exControls = .ok c) : ControlsReach exFns exPd exTd exRd c := by
  obtain ⟨c1, h1, h⟩ := py_bind_ok.1 h
  obtain ⟨c2, h2, h⟩ := py_bind_ok.1 h
  exact .base (.select (.create h1) h2) h

example : FixedTimes exTd := by intro d hd; simp [exTd] at hd; subst hd; rfl

/-- The hypotheses of C20-C23 are met by an object after a super-iteration; its slots and a delivered set. -/
example : ∃ c c' o, ControlsReach exFns exPd exTd exRd c ∧ c.getControls exFns [1, 0, -3, 1, 1, 0, 3, 5] = .ok (c', o) ∧
    c.slots = [[0, 1, 2, 3], [4, 5], [6], [7]] ∧ o.parameters = [2, 5] ∧ o.pulses.length = 2 := by
  have h : (do let c ← exControls; let r ← c.getControls exFns [1, 0, -3, 1, 1, 0, 3, 5]
               pure (c.slots, r.2.parameters, r.2.pulses.length))
      = (.ok ([[0, 1, 2, 3], [4, 5], [6], [7]], [2, 5], 2) : Py _) := by decide +kernel
  obtain ⟨c, h1, h⟩ := py_bind_ok.1 h
  obtain ⟨⟨c', o⟩, h2, h⟩ := py_bind_ok.1 h
  have h3 := py_pure_ok.1 h
  simp only [Prod.mk.injEq] at h3
  exact ⟨c, c', o, exControls_reach h1, h2, h3.1, h3.2.1, h3.2.2⟩

/-- The same time, now optimized. -/
def exTdOpt : List (TimeDict ℚ) :=
  [{ name := "t", initialValue := 2, isOptimization := true, lower := 1, upper := 3, amplitudeVariation := 1 }]

/-- **C21** is violated with an optimized time: the time overwrites the start size of slot 0, which belongs to the
first pulse (its own start size is `5/7`). -/
theorem C21_optimized_time_overwrites_first_size :
    (do let c ← mkControls exFns exPd exTdOpt exRd; c.sigma)
      = (.ok [1 / 2, 5 / 7, 5 / 7, 5 / 7, 1, 1, 1 / 2, 1 / 4] : Py (List ℚ)) ∧
    exDict.startSize exFns = 5 / 7 := by
  constructor <;> decide +kernel

/-- **C20** is violated with an optimized time: the slot of the time is slot 0 of the first pulse. -/
theorem C20_optimized_time_shares_slot_zero :
    (do let c ← mkControls exFns exPd exTdOpt exRd
        pure (c.times.map (fun t => t.2.alpha.ctrlList), c.slots, c.number))
      = (.ok ([[0]], [[0, 1, 2, 3], [4, 5], [6], [7]], 8) : Py _) := by decide +kernel

/-- **C23** is violated with an optimized time: changing only slot 0, owned by the first pulse, changes the time grid
of the second pulse. -/
theorem C23_optimized_time_couples_controls :
    (do let c ← mkControls exFns exPd exTdOpt exRd
        let r ← c.getControls exFns [0, 0, 0, 0, 0, 0, 1, 5]
        let r' ← c.getControls exFns [1, 0, 0, 0, 0, 0, 1, 5]
        pure (r.2.timegrids[1]?, r'.2.timegrids[1]?))
      = (.ok (some [0, 1, 2], some [0, 3 / 2, 3]) : Py (Option (List ℚ) × Option (List ℚ))) := by decide +kernel

end QuOCS

/-
The controls object during a super-iteration of dCRAB, in terms of the documented formulas.
-/
import Verif.Spec.Dcrab
import Verif.Lemmas.System
import Verif.Props.BasisFormulas
import Verif.Props.Controls

set_option linter.unusedSectionVars false
set_option linter.unusedVariables false

namespace QuOCS

section
variable {K : Type*} [Field K] [LinearOrder K] [IsStrictOrderedRing K] {M : MathFns K}

theorem PulseReach.wLimits {d : PulseDict K} {p : Pulse K} (h : PulseReach M d p) : p.wLower = d.wLower ∧ p.wUpper = d.wUpper := by
  induction h with
  | create h =>
    unfold mkPulse at h
    simp only at h
    split at h
    · simp at h
    · simp only [Except.ok.injEq] at h; subst h; exact ⟨rfl, rfl⟩
  | inputs x T _ ih => exact ih
  | get _ h ih =>
    unfold Pulse.getPulse at h
    obtain ⟨u, _, h⟩ := py_bind_ok.1 h
    rw [py_pure_ok] at h
    obtain ⟨rfl, rfl⟩ := Prod.mk.inj h
    exact ih
  | bare _ h ih =>
    unfold Pulse.getBarePulse at h
    obtain ⟨u, _, h⟩ := py_bind_ok.1 h
    rw [py_pure_ok] at h
    obtain ⟨rfl, rfl⟩ := Prod.mk.inj h
    exact ih
  | base _ h ih =>
    unfold Pulse.setBasePulse at h
    obtain ⟨u, _, h⟩ := py_bind_ok.1 h
    split at h
    · rw [py_pure_ok] at h; subst h; exact ih
    · obtain ⟨b, _, h⟩ := py_bind_ok.1 h
      rw [py_pure_ok] at h; subst h; exact ih
  | draw _ h ih =>
    unfold Pulse.drawSuper at h
    obtain ⟨u, _, h⟩ := py_bind_ok.1 h
    rw [py_pure_ok] at h; subst h; exact ih
  | index _ _ ih => exact ih

theorem PChain_get {k : ℕ} {ps : List (Pulse K)} (h : PChain k ps) {i : ℕ} {p : Pulse K} (hp : ps[i]? = some p) :
    p.ctrlList = List.range' (k + ((ps.map (·.nParams)).take i).sum) p.nParams := by
  induction ps generalizing k i with
  | nil => simp at hp
  | cons q ps ih =>
    obtain ⟨h1, h2, h3⟩ := h
    cases i with
    | zero => simp at hp; subst hp; simpa using h1
    | succ i =>
      have := ih h3 (i := i) (by simpa using hp)
      rw [this]
      simp only [List.map_cons, List.take_succ_cons, List.sum_cons]
      congr 1
      omega

theorem gather_slice {x v : List K} {k m : ℕ} (h : gather x (List.range' k m) = .ok v) : v = (x.drop k).take m ∧ v.length = m := by
  unfold gather at h
  rw [mapM_ok, List.forall₂_iff_get] at h
  obtain ⟨h1, h2⟩ := h
  simp only [List.length_range'] at h1
  refine ⟨?_, h1.symm⟩
  apply List.ext_getElem?
  intro i
  by_cases hi : i < m
  · have := h2 i (by simpa using hi) (by omega)
    rw [getIdx_ok] at this
    simp only [List.get_eq_getElem, List.getElem_range', one_mul] at this
    rw [List.getElem?_take, if_pos hi, List.getElem?_drop, this]
    exact List.getElem?_eq_getElem (by omega)
  · rw [List.getElem?_eq_none (by omega), List.getElem?_take, if_neg hi]

/-- What a new basis does to the pulse with index `i`. -/
theorem select_fold {pd : List (PulseDict K)} {td : List (TimeDict K)} {rd : List (ParamDict K)} {r : ℕ → List K} (l : List ℕ)
    {c c' : Controls K} (h : CInv M pd td rd c) (hs : l.foldlM (fun c i => c.selectBasisAt r i) c = .ok c') :
    c'.pulses.length = c.pulses.length ∧ ∀ (i : ℕ) (p : Pulse K), c.pulses[i]? = some p → ∃ w, c'.pulses[i]? = some { p with w := w } ∧
      (i ∈ l → p.basis.isChopped = true → uniformDraw p.wLower p.wUpper (basisSuper p.basis) (r i) = .ok w) ∧
      (i ∉ l → w = p.w) := by
  induction l generalizing c with
  | nil =>
    rw [List.foldlM_nil, py_pure_ok] at hs
    subst hs
    exact ⟨rfl, fun i p hp => ⟨p.w, hp, by simp, by simp⟩⟩
  | cons a l ih =>
    rw [List.foldlM_cons] at hs
    obtain ⟨c1, h1, hs⟩ := py_bind_ok.1 hs
    obtain ⟨i1, i2⟩ := ih (h.selectAt h1) hs
    have step : c1.pulses.length = c.pulses.length ∧ ∀ (i : ℕ) (p : Pulse K), c.pulses[i]? = some p → ∃ w, c1.pulses[i]? = some { p with w := w } ∧
        (i = a → p.basis.isChopped = true → uniformDraw p.wLower p.wUpper (basisSuper p.basis) (r i) = .ok w) ∧
        (i ≠ a → w = p.w) := by
      unfold Controls.selectBasisAt at h1
      split at h1
      · rename_i hn
        cases h1
        exact ⟨rfl, fun i p hp => ⟨p.w, hp, fun e => by (subst e; rw [hn] at hp; cases hp), fun _ => rfl⟩⟩
      · rename_i p hp
        split at h1
        · obtain ⟨p', hp', h1⟩ := py_bind_ok.1 h1
          rw [py_pure_ok] at h1
          have hd : ∃ w, uniformDraw p.wLower p.wUpper (basisSuper p.basis) (r a) = .ok w ∧ p' = { p with w := w } := by
            unfold Pulse.drawSuper at hp'
            obtain ⟨u, hu, hp'⟩ := py_bind_ok.1 hp'
            rw [py_pure_ok] at hp'
            exact ⟨u, hu, hp'.symm⟩
          have hcI : CInv M pd td rd { c with pulses := c.pulses.set a p' } := by
            refine ⟨forall2_set h.reach a hp (fun d hd => .draw hd hp'), ?_, ?_, h.params, h.fixed⟩
            · exact PChain_congr (map_set_same hp (Pulse.drawSuper_slot hp')) h.pchain
            · have := nParams_of_slotData (map_set_same hp (Pulse.drawSuper_slot hp'))
              simp only [this]
              exact h.qchain
          rw [Controls.reindex_id hcI] at h1
          subst h1
          obtain ⟨w, hw, rfl⟩ := hd
          refine ⟨by simp, fun i q hq => ?_⟩
          by_cases hi : i = a
          · subst hi
            rw [hp] at hq
            cases hq
            refine ⟨w, ?_, fun _ _ => hw, fun h => absurd rfl h⟩
            have := (List.getElem?_eq_some_iff.1 hp).1
            simp [this]
          · refine ⟨q.w, ?_, fun h => absurd h hi, fun _ => rfl⟩
            simp only [List.getElem?_set]
            rw [if_neg (fun e => hi e.symm)]
            exact hq
        · rename_i hc
          cases h1
          refine ⟨rfl, fun i q hq => ⟨q.w, hq, fun e hc' => ?_, fun _ => rfl⟩⟩
          subst e
          rw [hp] at hq
          cases hq
          exact absurd hc' hc
    obtain ⟨s1, s2⟩ := step
    refine ⟨i1.trans s1, fun i p hp => ?_⟩
    obtain ⟨w, h2, h3, h4⟩ := s2 i p hp
    obtain ⟨w', h5, h6, h7⟩ := i2 i _ h2
    refine ⟨w', h5, fun hi hc => ?_, fun hi => ?_⟩
    · by_cases hil : i ∈ l
      · exact h6 hil hc
      · rcases List.mem_cons.1 hi with rfl | hi
        · rw [h7 hil]; exact h3 rfl hc
        · exact absurd hi hil
    · rw [h7 (fun h => hi (by simp [h]))]
      exact h4 (fun h => hi (by simp [h]))

end

section
variable {M : MathFns ℝ} {d : PulseDict ℝ} {p : Pulse ℝ} {td : List (TimeDict ℝ)}

theorem DcrabPulse.number (h : DcrabPulse d) : coefficientNumber d = basisParams d.binsNumber d.basis := by
  unfold coefficientNumber
  rcases h.basis with ⟨n, e⟩ | ⟨n, e⟩ | ⟨n, m, e⟩ | ⟨n, o, s, e⟩ | e <;> rw [e] <;> rfl

theorem DcrabPulse.super (h : DcrabPulse d) : frequencyNumber d = basisSuper d.basis := by
  unfold frequencyNumber
  rcases h.basis with ⟨n, e⟩ | ⟨n, e⟩ | ⟨n, m, e⟩ | ⟨n, o, s, e⟩ | e <;> rw [e] <;> rfl

theorem uniformDraw_drawn (h : DcrabPulse d) {r w : List ℝ} (hw : uniformDraw d.wLower d.wUpper (basisSuper d.basis) r = .ok w) :
    DrawnWith d r w := by
  unfold uniformDraw at hw
  rw [mapM_ok, List.forall₂_iff_get] at hw
  obtain ⟨h1, h2⟩ := hw
  simp only [List.length_range] at h1
  unfold DrawnWith
  rw [h.super]
  refine ⟨h1.symm, fun j hj => ?_⟩
  have := h2 j (by simpa using hj) (by omega)
  obtain ⟨y, hy, this⟩ := py_bind_ok.1 this
  rw [py_pure_ok] at this
  simp only [List.get_eq_getElem, List.getElem_range] at this hy
  refine ⟨y, getIdx_ok.1 hy, ?_⟩
  rw [List.getElem?_eq_getElem (by omega), ← this]
  congr 1
  ring

theorem shaped_update (hM : M.Standard) (hd : DcrabPulse d) (hr : PulseReach M d p) (hu : UsablePulse td d) {X up : List ℝ} {T : ℝ}
    (hX : X.length = coefficientNumber d) (h : (p.setInputs X T).shaped M = .ok up) : IsUpdate d p.w X T up := by
  have hlen : up.length = d.binsNumber := by
    obtain ⟨u, h1, h2⟩ := shaped_exists hr hu (x := X) (by rw [hX, hd.number, hr.w_length.2.1]) T
    rw [h] at h1; cases h1; exact h2
  have bare : ∀ {q u}, p.getBarePulse M X T = .ok (q, u) → u = up := by
    intro q u hb
    unfold Pulse.getBarePulse at hb
    obtain ⟨v, h3, hb⟩ := py_bind_ok.1 hb
    rw [py_pure_ok] at hb
    obtain ⟨_, rfl⟩ := Prod.mk.inj hb
    rw [h] at h3; cases h3; rfl
  unfold coefficientNumber at hX
  refine ⟨hlen, fun j hj => ?_⟩
  rcases hd.basis with ⟨n, e⟩ | ⟨n, e⟩ | ⟨n, m, e⟩ | ⟨n, o, s, e⟩ | e
  · rw [e] at hX
    obtain ⟨q, u, h1, h2, h3⟩ := C87_fourier hM hr e hX T
    obtain rfl := bare h1
    exact ⟨_, h3 j hj, by simp only [e]⟩
  · rw [e] at hX
    refine ⟨_, List.getElem?_eq_getElem (by omega), ?_⟩
    simp only [e]
    intro hT h2b
    obtain ⟨q, u, h1, h2, h3⟩ := C87_chebyshev hM hr e hX hT h2b
    obtain rfl := bare h1
    obtain ⟨y, h4, h5⟩ := h3 j hj
    rw [List.getElem?_eq_getElem (by omega)] at h4
    cases h4
    exact h5
  · rw [e] at hX
    obtain ⟨q, u, h1, h2, h3⟩ := C87_sinc hM hr e hX T
    obtain rfl := bare h1
    obtain ⟨y, h4, h5⟩ := h3 j hj
    exact ⟨y, h4, by simp only [e]; exact h5⟩
  · rw [e] at hX
    obtain ⟨q, u, h1, h2, h3⟩ := C87_sigmoid hM hr e hX T
    obtain rfl := bare h1
    exact ⟨_, h3 j hj, by simp only [e]⟩
  · rw [e] at hX
    obtain ⟨q, u, h1, h2, h3⟩ := C87_piecewise hr e hX T
    obtain rfl := bare h1
    refine ⟨_, List.getElem?_eq_getElem (by omega), ?_⟩
    simp only [e]
    rw [← h3 j hj]
    exact List.getElem?_eq_getElem (by omega)

theorem bop_samples {f : ℝ → ℝ → ℝ} {a b r : List ℝ} {n : ℕ} (ha : Fits n a) (hb : b.length = n) (h : bop f a b = .ok r) :
    r.length = n ∧ ∀ j < n, ∃ v y, SampleIs n a j v ∧ b[j]? = some y ∧ r[j]? = some (f v y) := by
  by_cases hl : a.length = b.length
  · rw [bop_eq hl] at h
    cases h
    refine ⟨by simp [hl, hb], fun j hj => ⟨a[j]'(by omega), b[j]'(by omega), .inl ⟨by omega, by simp⟩, by simp, ?_⟩⟩
    rw [List.getElem?_zipWith]
    simp [show j < a.length by omega, show j < b.length by omega]
  · have h1 : a.length = 1 := by rcases ha with h' | h' <;> omega
    obtain ⟨x, rfl⟩ := List.length_eq_one_iff.1 h1
    unfold bop at h
    rw [if_neg hl, if_pos h1] at h
    cases h
    exact ⟨by simp [hb], fun j hj => ⟨x, b[j]'(by omega), .inr rfl, by simp, by simp [show j < b.length by omega]⟩⟩

theorem bop_same {f : ℝ → ℝ → ℝ} {a b r : List ℝ} {n : ℕ} (ha : a.length = n) (hb : b.length = n) (h : bop f a b = .ok r) :
    r.length = n ∧ ∀ j < n, ∃ v y, a[j]? = some v ∧ b[j]? = some y ∧ r[j]? = some (f v y) := by
  have hl : a.length = b.length := by omega
  rw [bop_eq hl] at h
  cases h
  refine ⟨by simp [hl, hb], fun j hj => ⟨a[j]'(by omega), b[j]'(by omega), by simp, by simp, ?_⟩⟩
  rw [List.getElem?_zipWith]
  simp [show j < a.length by omega, show j < b.length by omega]

theorem SampleIs.of_map {n j : ℕ} {f : ℝ → ℝ} {l : List ℝ} {v : ℝ} (h : SampleIs n (l.map f) j v) : ∃ v0, SampleIs n l j v0 ∧ v = f v0 := by
  rcases h with ⟨h1, h2⟩ | h
  · rw [List.getElem?_map, Option.map_eq_some_iff] at h2
    obtain ⟨v0, h2, rfl⟩ := h2
    exact ⟨v0, .inl ⟨by simpa using h1, h2⟩, rfl⟩
  · obtain ⟨v0, rfl⟩ : ∃ v0, l = [v0] := List.length_eq_one_iff.1 (by have := congrArg List.length h; simpa using this)
    exact ⟨v0, .inr rfl, by simpa using h.symm⟩

/-- The delivered pulse. -/
theorem getPulse_shows (hM : M.Standard) (hd : DcrabPulse d) (hr : PulseReach M d p) (hu : UsablePulse td d)
    (hb : p.basePulse.length = p.binsNumber) {X u : List ℝ} {T : ℝ} {q : Pulse ℝ} (hX : X.length = coefficientNumber d)
    (h : p.getPulse M X T = .ok (q, u)) : q.w = p.w ∧ q.basePulse = p.basePulse ∧ IsPulse d T p.w p.basePulse X u := by
  obtain ⟨hlo, hup, hsh, hshape, hbins, hscal, hguess, _, hbas⟩ := hr.fields
  unfold Pulse.getPulse at h
  obtain ⟨u', hb', h⟩ := py_bind_ok.1 h
  cases h
  refine ⟨rfl, rfl, ?_⟩
  set p' := p.setInputs X T with hp'
  have hcut : ∀ v, cutSample p.lower p.upper v = cutOff d v := by
    intro v
    unfold cutSample cutOff
    rw [hlo, hup, max_comm]
  have hlim : ∀ w, p'.limited w = .ok (w.map (cutOff d)) := by
    intro w
    unfold Pulse.limited
    rw [show p'.shrink = false from hsh.trans hd.cut]
    show Except.ok (w.map (cutSample p.lower p.upper)) = _
    congr 2
    funext v
    exact hcut v
  have hgrid : p'.timeGrid = sampleTimes T d.binsNumber := by
    show linspace0 T p.binsNumber = _
    rw [hbins]; rfl
  have hgl : (sampleTimes T d.binsNumber).length = d.binsNumber := by simp [sampleTimes]
  unfold Pulse.build at hb'
  rw [show p'.shaping = [.addInitialGuess, .addBasePulse, .addNewUpdatePulse, .scalePulse, .limitPulse] by
    show p.shaping = _; rw [hshape, hd.shaping]; rfl] at hb'
  simp only [List.foldlM_cons, List.foldlM_nil] at hb'
  obtain ⟨u1, a1, hb'⟩ := py_bind_ok.1 hb'
  obtain ⟨u2, a2, hb'⟩ := py_bind_ok.1 hb'
  obtain ⟨u3, a3, hb'⟩ := py_bind_ok.1 hb'
  obtain ⟨u4, a4, hb'⟩ := py_bind_ok.1 hb'
  obtain ⟨u5, a5, hb'⟩ := py_bind_ok.1 hb'
  rw [py_pure_ok] at hb'
  subst hb'
  -- the guess
  have g1 : u1.length = d.binsNumber ∧ ∀ j < d.binsNumber, ∃ g, GuessIs d T j g ∧ u1[j]? = some (cutOff d g) := by
    simp only [Pulse.applyStep, Pulse.addInitialGuess] at a1
    obtain ⟨gl, hgl', a1⟩ := py_bind_ok.1 a1
    have key : ∀ l : List ℝ, Fits d.binsNumber l → p'.limited l = .ok gl → u1.length = d.binsNumber ∧
        ∀ j < d.binsNumber, ∃ g, SampleIs d.binsNumber l j g ∧ u1[j]? = some (cutOff d g) := by
      intro l hl e
      rw [hlim] at e
      cases e
      obtain ⟨k1, k2⟩ := bop_samples (n := d.binsNumber) (by unfold Fits at hl ⊢; simpa using hl)
        (by show (zeros p.binsNumber : List ℝ).length = _; simp [zeros, hbins]) a1
      refine ⟨k1, fun j hj => ?_⟩
      obtain ⟨v, y, k3, k4, k5⟩ := k2 j hj
      obtain ⟨v0, k6, rfl⟩ := k3.of_map
      have : y = 0 := by
        have k4 : (zeros p.binsNumber : List ℝ)[j]? = some y := k4
        unfold zeros at k4
        rw [List.getElem?_replicate] at k4
        split at k4
        · cases k4; rfl
        · cases k4
      exact ⟨v0, k6, by rw [k5, this, add_zero]⟩
    have hgu := hu.guess
    unfold Pulse.initialGuess at hgl'
    rw [show p'.guess = d.guess from hguess] at hgl'
    unfold GuessIs
    rcases hg : d.guess with f | l
    · rw [hg] at hgu hgl'
      dsimp only at hgl'
      rw [hgrid] at hgl'
      exact key _ (hgu _ hgl) hgl'
    · rw [hg] at hgu hgl'
      exact key _ hgu hgl'
  have g2 := bop_same (f := (· + ·)) g1.1 (show p'.basePulse.length = d.binsNumber from hb.trans hbins) a2
  simp only [Pulse.applyStep] at a3
  obtain ⟨up, hup', a3⟩ := py_bind_ok.1 a3
  have hisup := shaped_update hM hd hr hu hX hup'
  have g3 := bop_same (f := (· + ·)) g2.1 hisup.1 a3
  have g4 : u4.length = d.binsNumber ∧ ∀ j < d.binsNumber, ∃ s y, ScalingIs d T j s ∧ u3[j]? = some y ∧ u4[j]? = some (s * y) := by
    simp only [Pulse.applyStep, Pulse.scale] at a4
    rw [show p'.scaling = d.scaling from hscal] at a4
    have hsc := hu.scaling
    unfold ScalingIs
    rcases hg : d.scaling with f | f | l
    · rw [hg] at hsc a4
      dsimp only at a4
      rw [hgrid] at a4
      exact bop_samples (hsc _ hgl) g3.1 a4
    · exact absurd hg (hd.scaling f)
    · rw [hg] at hsc a4
      exact bop_samples hsc g3.1 a4
  have g5 : u5 = u4.map (cutOff d) := by
    have := (hlim u4).symm.trans a5
    cases this; rfl
  refine ⟨up, hisup, by rw [g5, List.length_map, g4.1], fun j hj => ?_⟩
  obtain ⟨g, e1, e2⟩ := g1.2 j hj
  obtain ⟨v2, b2, e3, e4, e5⟩ := g2.2 j hj
  obtain ⟨v3, b3, e6, e7, e8⟩ := g3.2 j hj
  obtain ⟨s, v4, e9, e10, e11⟩ := g4.2 j hj
  rw [e2] at e3; cases e3
  rw [e5] at e6; cases e6
  rw [e8] at e10; cases e10
  exact ⟨g, s, b2, b3, e1, e9, e4, e7, by rw [g5, List.getElem?_map, e11]; rfl⟩

/-- The next base pulse. -/
theorem setBase_next (hM : M.Standard) (hd : DcrabPulse d) (hr : PulseReach M d p) (hu : UsablePulse td d)
    (hb : p.basePulse.length = p.binsNumber) {X : List ℝ} {T : ℝ} {q : Pulse ℝ} (hX : X.length = coefficientNumber d)
    (h : p.setBasePulse M X T = .ok q) : ∃ up, IsUpdate d p.w X T up ∧ q.basePulse.length = d.binsNumber ∧
      ∀ j < d.binsNumber, ∃ bj y, p.basePulse[j]? = some bj ∧ up[j]? = some y ∧
        q.basePulse[j]? = some (if d.overwrite then y else bj + y) := by
  obtain ⟨_, _, _, _, hbins, _, _, how, _⟩ := hr.fields
  unfold Pulse.setBasePulse at h
  obtain ⟨up, hup, h⟩ := py_bind_ok.1 h
  have hisup := shaped_update hM hd hr hu hX hup
  refine ⟨up, hisup, ?_⟩
  have hbl : p.basePulse.length = d.binsNumber := hb.trans hbins
  rw [show (p.setInputs X T).overwrite = d.overwrite from how] at h
  cases ho : d.overwrite with
  | true =>
    rw [ho, if_pos rfl, py_pure_ok] at h
    subst h
    refine ⟨hisup.1, fun j hj => ?_⟩
    obtain ⟨y, hy, _⟩ := hisup.2 j hj
    exact ⟨p.basePulse[j]'(by omega), y, by simp, hy, hy⟩
  | false =>
    rw [ho, if_neg (by simp)] at h
    obtain ⟨b, h1, h⟩ := py_bind_ok.1 h
    rw [py_pure_ok] at h
    subst h
    have hl : (p.setInputs X T).basePulse.length = up.length := by rw [hisup.1]; exact hbl
    rw [iadd_eq hl] at h1
    cases h1
    refine ⟨by simp [hl, hisup.1], fun j hj => ?_⟩
    obtain ⟨y, hy, _⟩ := hisup.2 j hj
    refine ⟨p.basePulse[j]'(by omega), y, by simp, hy, ?_⟩
    show (List.zipWith (· + ·) p.basePulse up)[j]? = _
    rw [List.getElem?_zipWith, hy]
    simp [show j < p.basePulse.length by omega]

end

/-! ### All pulses -/

section
variable {M : MathFns ℝ} {pd : List (PulseDict ℝ)} {td : List (TimeDict ℝ)} {rd : List (ParamDict ℝ)} {c : Controls ℝ} {T : String → ℝ}

theorem forall2_left {α β : Type*} {R : α → β → Prop} {l : List α} {r : List β} (h : List.Forall₂ R l r) {i : ℕ} {a : α}
    (ha : l[i]? = some a) : ∃ b, r[i]? = some b ∧ R a b := by
  induction h generalizing i with
  | nil => simp at ha
  | cons h1 h2 ih =>
    cases i with
    | zero => simp at ha; subst ha; exact ⟨_, rfl, h1⟩
    | succ i => exact ih (by simpa using ha)

theorem forall2_both {α β : Type*} {R : α → β → Prop} {l : List α} {r : List β} (h : List.Forall₂ R l r) {i : ℕ} {a : α} {b : β}
    (ha : l[i]? = some a) (hb : r[i]? = some b) : R a b := by
  obtain ⟨b', h1, h2⟩ := forall2_left h ha
  rw [hb] at h1; cases h1; exact h2

theorem lastNamed_mem {td : List (TimeDict ℝ)} {n : String} {t : TimeDict ℝ} (h : lastNamed td n = some t) : t ∈ td ∧ t.name = n := by
  unfold lastNamed at h
  have h1 := List.mem_of_find?_eq_some h
  have h2 := List.find?_some h
  exact ⟨by simpa using h1, by simpa using h2⟩

/-- The coefficients of a pulse. -/
theorem coefficients_gather (hpd : ∀ d ∈ pd, DcrabPulse d) (hi : CInv M pd td rd c) {i : ℕ} {d : PulseDict ℝ} {p : Pulse ℝ}
    (hd : pd[i]? = some d) (hp : c.pulses[i]? = some p) {x v : List ℝ} (h : gather x p.ctrlList = .ok v) :
    v = coefficientsOf pd i x ∧ v.length = coefficientNumber d := by
  have e : c.pulses.map (·.nParams) = pd.map coefficientNumber := by
    have : List.Forall₂ (fun d p => p.nParams = coefficientNumber d) pd c.pulses := by
      rw [List.forall₂_iff_get]
      refine ⟨hi.reach.length_eq, fun j h1 h2 => ?_⟩
      have := (List.forall₂_iff_get.1 hi.reach).2 j h1 h2
      rw [this.w_length.2.1, (hpd _ (List.get_mem _ _)).number]
    exact forall2_map_eq this fun _ _ h => h
  have hR := forall2_both hi.reach hd hp
  rw [PChain_get hi.pchain hp, zero_add, e] at h
  obtain ⟨h1, h2⟩ := gather_slice h
  have hn : p.nParams = coefficientNumber d := by rw [hR.w_length.2.1, (hpd d (List.mem_of_getElem? hd)).number]
  refine ⟨?_, by rw [h2, hn]⟩
  rw [h1, hn]
  unfold coefficientsOf
  congr 1
  · simp [List.getD, hd]
  · rw [← List.map_take]

theorem duration_fixed (hT : DurationsAre td T) (hr : ControlsReach M pd td rd c) {x : List ℝ} {ts : List (String × TimeObj ℝ)}
    (hs : setTimes x c.times = .ok ts) {n : String} {t : TimeObj ℝ} (ht : dictGet ts n = .ok t) : t.getTime = T n := by
  obtain ⟨d, h1, h2⟩ := (TimesOf.of_reach hr).set hs n t (dictGet_ok ht)
  obtain ⟨h3, h4⟩ := lastNamed_mem h1
  obtain ⟨h5, h6⟩ := hT d h3
  unfold TimeObj.getTime
  rw [h2.opt, h5, if_neg (by simp), h2.time, ← h6, h4]

theorem Ready.shows (hM : M.Standard) (hpd : ∀ d ∈ pd, DcrabPulse d) (hu : Usable pd td rd) (hT : DurationsAre td T)
    (h : Ready M pd td rd c) {x : List ℝ} {c' : Controls ℝ} {o : ControlsOut ℝ} (hg : c.getControls M x = .ok (c', o)) :
    c'.pulses.map (fun p => (p.w, p.basePulse)) = c.pulses.map (fun p => (p.w, p.basePulse)) ∧
      CallShows pd T (c.pulses.map (·.w)) (c.pulses.map (·.basePulse)) x o := by
  have hi := CInv.of_reach h.reach
  obtain ⟨ts, h1, h2, h3, h4, _⟩ := getControls_parts hg
  have key : ∀ (i : ℕ) (d : PulseDict ℝ) (p : Pulse ℝ) (r : Pulse ℝ × List ℝ), pd[i]? = some d → c.pulses[i]? = some p →
      (c'.pulses.zip o.pulses)[i]? = some r → r.1.w = p.w ∧ r.1.basePulse = p.basePulse ∧
        IsPulse d (T d.timeName) p.w p.basePulse (coefficientsOf pd i x) r.2 := by
    intro i d p r hd hp hr
    obtain ⟨v, t, k1, k2, k3⟩ := forall2_both h3 hp hr
    have hR := forall2_both hi.reach hd hp
    have hmem := List.mem_of_getElem? hd
    obtain ⟨k4, k5⟩ := coefficients_gather hpd hi hd hp k1
    have k6 := duration_fixed hT h.reach h1 k2
    rw [hR.timeName_eq] at k6
    rw [← k4, ← k6]
    exact getPulse_shows hM (hpd d hmem) hR (hu.pulses d hmem) (h.base p (List.mem_of_getElem? hp)) k5 k3
  have hlen : c'.pulses.length = c.pulses.length := by
    have := h3.length_eq
    rw [List.length_zip, h4, Nat.min_self] at this
    exact this.symm
  have hlp := hi.reach.length_eq
  refine ⟨?_, by rw [h4, hlen, hlp], fun i d w b u hd hw hb hu' => ?_⟩
  · apply List.ext_getElem
    · simp [hlen]
    · intro i q1 q2
      simp only [List.length_map] at q1 q2
      obtain ⟨k1, k2, _⟩ := key i (pd[i]'(by omega)) (c.pulses[i]) (c'.pulses[i], o.pulses[i]'(by omega)) (by simp) (by simp)
        (by simp [q1, show i < o.pulses.length by omega])
      simp only [List.getElem_map]
      rw [k1, k2]
  · rw [List.getElem?_map, Option.map_eq_some_iff] at hw hb
    obtain ⟨p, hp, rfl⟩ := hw
    obtain ⟨p', hp', rfl⟩ := hb
    rw [hp] at hp'; cases hp'
    have hlt := (List.getElem?_eq_some_iff.1 hu').1
    exact (key i d p (c'.pulses[i]'(by omega), u) hd hp (by
      rw [List.getElem?_zip_eq_some]; exact ⟨List.getElem?_eq_getElem _, hu'⟩)).2.2

theorem Ready.next (hM : M.Standard) (hpd : ∀ d ∈ pd, DcrabPulse d) (hu : Usable pd td rd) (hT : DurationsAre td T)
    (h : Ready M pd td rd c) {x : List ℝ} {c' : Controls ℝ} (hg : c.updateBase M x = .ok c') :
    NextBase pd T (c.pulses.map (·.w)) (c.pulses.map (·.basePulse)) x (c'.pulses.map (·.basePulse)) := by
  have hi := CInv.of_reach h.reach
  have hlp := hi.reach.length_eq
  unfold Controls.updateBase at hg
  obtain ⟨ts, h1, hg⟩ := py_bind_ok.1 hg
  obtain ⟨ps, h2, hg⟩ := py_bind_ok.1 hg
  obtain ⟨qs, h3, hg⟩ := py_bind_ok.1 hg
  rw [py_pure_ok] at hg
  subst hg
  rw [mapM_ok] at h2
  refine ⟨by simp [← h2.length_eq, hlp], fun i d w b b' hd hw hb hb' => ?_⟩
  rw [List.getElem?_map, Option.map_eq_some_iff] at hw hb hb'
  obtain ⟨p, hp, rfl⟩ := hw
  obtain ⟨p', hp', rfl⟩ := hb
  obtain ⟨q, hq, rfl⟩ := hb'
  rw [hp] at hp'; cases hp'
  have k := forall2_both h2 hp hq
  obtain ⟨v, k1, k⟩ := py_bind_ok.1 k
  obtain ⟨t, k2, k3⟩ := py_bind_ok.1 k
  have hR := forall2_both hi.reach hd hp
  have hmem := List.mem_of_getElem? hd
  obtain ⟨k4, k5⟩ := coefficients_gather hpd hi hd hp k1
  have k6 := duration_fixed hT h.reach h1 k2
  rw [hR.timeName_eq] at k6
  rw [← k4, ← k6]
  exact setBase_next hM (hpd d hmem) hR (hu.pulses d hmem) (h.base p (List.mem_of_getElem? hp)) k5 k3

theorem Ready.drawn (hpd : ∀ d ∈ pd, DcrabPulse d) (h : Ready M pd td rd c) {r : ℕ → List ℝ} {c' : Controls ℝ}
    (hs : c.selectBasis r = .ok c') :
    NewFrequencies pd r (c'.pulses.map (·.w)) ∧ c'.pulses.map (·.basePulse) = c.pulses.map (·.basePulse) := by
  have hi := CInv.of_reach h.reach
  have hlp := hi.reach.length_eq
  obtain ⟨h1, h2⟩ := select_fold _ hi hs
  refine ⟨⟨by simp [h1, hlp], fun i d w hd hw hb => ?_⟩, ?_⟩
  · rw [List.getElem?_map, Option.map_eq_some_iff] at hw
    obtain ⟨q, hq, rfl⟩ := hw
    obtain ⟨p, hp, hR⟩ := forall2_left hi.reach hd
    obtain ⟨w, k1, k2, _⟩ := h2 i p hp
    rw [hq] at k1
    cases k1
    have hbas := hR.fields.2.2.2.2.2.2.2.2
    have k3 := k2 (by simpa using (List.getElem?_eq_some_iff.1 hp).1) (by
      rw [hbas]; unfold Basis.isChopped; split
      · exact absurd ‹_› hb
      · rfl)
    rw [hR.wLimits.1, hR.wLimits.2, hbas] at k3
    exact uniformDraw_drawn (hpd d (List.mem_of_getElem? hd)) k3
  · apply List.ext_getElem
    · simp [h1]
    · intro i q1 q2
      simp only [List.length_map] at q1 q2
      obtain ⟨w, k1, _⟩ := h2 i c.pulses[i] (by simp)
      rw [List.getElem?_eq_getElem q1] at k1
      simp only [List.getElem_map, Option.some.inj k1]

theorem Ready.mean_zero (hpd : ∀ d ∈ pd, DcrabPulse d) (h : Ready M pd td rd c) {v : List ℝ} (hm : c.mean = .ok v) : NoUpdate pd v := by
  rw [C21_start_point h.reach] at hm
  cases hm
  intro i d hd
  have hdec : pd.map (·.declared) = pd.map coefficientNumber := by
    apply List.map_congr_left
    intro d hd
    rw [(hpd d hd).number]; rfl
  rw [hdec]
  unfold coefficientsOf
  have hsum : ((pd.take i).map coefficientNumber).sum + coefficientNumber d ≤ (pd.map coefficientNumber).sum := by
    have hlt := (List.getElem?_eq_some_iff.1 hd).1
    have e := congrArg (fun l : List (PulseDict ℝ) => (l.map coefficientNumber).sum) (List.take_append_drop (i + 1) pd)
    simp only [List.map_append, List.sum_append] at e
    rw [List.take_add_one, hd] at e
    simp only [Option.toList, List.map_append, List.map_cons, List.map_nil, List.sum_append, List.sum_cons, List.sum_nil] at e
    omega
  have hg : (pd.map coefficientNumber).getD i 0 = coefficientNumber d := by simp [List.getD, hd]
  rw [hg, List.drop_append_of_le_length (by rw [zeros_length]; omega),
    List.take_append_of_le_length (by rw [List.length_drop, zeros_length]; omega)]
  simp only [zeros, List.drop_replicate, List.take_replicate]
  congr 1
  omega

end
end QuOCS

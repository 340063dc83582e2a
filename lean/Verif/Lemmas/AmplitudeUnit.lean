/-
Controls objects whose pulses have other units.
-/
import Verif.Spec.AmplitudeUnit
import Verif.Lemmas.RecoordControls
import Verif.Lemmas.TimeUnit

set_option linter.unusedSectionVars false
set_option linter.unusedVariables false

namespace QuOCS

section
variable {K : Type} [Field K] [LinearOrder K] [IsStrictOrderedRing K] {β : K}

/-- the pulse object in the new unit -/
def Pulse.inAmplitude (β : K) (p : Pulse K) : Pulse K :=
  { p with lower := β * p.lower, upper := β * p.upper, amplitudeVariation := β * p.amplitudeVariation, guess := p.guess.inAmplitude β
           scaling := p.scaling.inAmplitude β, scaleCoeffs := samplesInUnit β p.scaleCoeffs, offsetCoeffs := samplesInUnit β p.offsetCoeffs
           basePulse := samplesInUnit β p.basePulse, params := samplesInUnit β p.params }

/-- the controls object in the new units -/
def Controls.inAmplitudes (bs : List K) (c : Controls K) : Controls K := { c with pulses := List.zipWith Pulse.inAmplitude bs c.pulses }

theorem samples_back (hβ : 0 < β) (t : List K) : (samplesInUnit β t).map (· / β) = t := timesInUnit_back hβ t

theorem amax_unit (hβ : 0 < β) (u : List K) : amax (samplesInUnit β u) = (amax u).map (β * ·) := by
  rcases u with _ | ⟨x, xs⟩
  · rfl
  show Except.ok ((xs.map (β * ·)).foldl max (β * x)) = Except.ok (β * xs.foldl max x)
  congr 1
  induction xs generalizing x with
  | nil => rfl
  | cons y xs ih =>
    rw [List.map_cons, List.foldl_cons, List.foldl_cons, ← ih, mul_max_of_nonneg _ _ hβ.le]

theorem amin_unit (hβ : 0 < β) (u : List K) : amin (samplesInUnit β u) = (amin u).map (β * ·) := by
  rcases u with _ | ⟨x, xs⟩
  · rfl
  show Except.ok ((xs.map (β * ·)).foldl min (β * x)) = Except.ok (β * xs.foldl min x)
  congr 1
  induction xs generalizing x with
  | nil => rfl
  | cons y xs ih =>
    rw [List.map_cons, List.foldl_cons, List.foldl_cons, ← ih, mul_min_of_nonneg _ _ hβ.le]

theorem cut_unit (hβ : 0 < β) (lo up x : K) : cutSample (β * lo) (β * up) (β * x) = β * cutSample lo up x := by
  unfold cutSample
  rw [mul_max_of_nonneg _ _ hβ.le, mul_min_of_nonneg _ _ hβ.le]

theorem cuts_unit (hβ : 0 < β) (lo up : K) (u : List K) :
    (samplesInUnit β u).map (cutSample (β * lo) (β * up)) = samplesInUnit β (u.map (cutSample lo up)) := by
  unfold samplesInUnit
  rw [List.map_map, List.map_map]
  exact List.map_congr_left fun x _ => cut_unit hβ lo up x

theorem correction_unit (hβ : 0 < β) (a b : K) : shrinkCorrection (β * a) (β * b) = shrinkCorrection a b := by
  unfold shrinkCorrection
  rw [mul_div_mul_left _ _ hβ.ne']

theorem abs_unit (hβ : 0 < β) (a b : K) : |β * a - β * b| = β * |a - b| := by
  rw [← mul_sub, abs_mul, abs_of_pos hβ]

theorem shrink_unit (hβ : 0 < β) (lo up : K) (u : List K) :
    shrinkPulse (β * lo) (β * up) (samplesInUnit β u) = (shrinkPulse lo up u).map (samplesInUnit β) := by
  have hle : ∀ a b : K, β * a ≤ β * b ↔ a ≤ b := fun a b => mul_le_mul_iff_right₀ hβ
  have hlt : ∀ a b : K, β * a < β * b ↔ a < b := fun a b => mul_lt_mul_iff_right₀ hβ
  have hrow : ∀ (m c : K) (l : List K), (samplesInUnit β l).map (fun x => (x - β * m) * c + β * m) =
      samplesInUnit β (l.map fun x => (x - m) * c + m) := fun m c l => by
    unfold samplesInUnit
    rw [List.map_map, List.map_map]
    exact List.map_congr_left fun x _ => by
      show (β * x - β * m) * c + β * m = β * ((x - m) * c + m)
      ring
  unfold shrinkPulse
  rw [amax_unit hβ, amin_unit hβ]
  rcases amax u with er | mx
  · rfl
  rcases amin u with er | mn
  · rfl
  simp only [bind, Except.bind, Except.map, ge_iff_le, gt_iff_lt, hle, hlt, abs_unit hβ, correction_unit hβ]
  by_cases h0 : up ≤ mx ∧ up ≤ mn ∨ mx ≤ lo ∧ mn ≤ lo
  · rw [if_pos h0, if_pos h0, cuts_unit hβ]
    rfl
  rw [if_neg h0, if_neg h0]
  have hui : (if up < mx then (samplesInUnit β u).map (fun x => (x - β * mn) * shrinkCorrection |up - mn| |mx - mn| + β * mn)
        else samplesInUnit β u) =
      samplesInUnit β (if up < mx then u.map (fun x => (x - mn) * shrinkCorrection |up - mn| |mx - mn| + mn) else u) := by
    split
    · exact hrow ..
    · rfl
  rw [hui]
  generalize (if up < mx then u.map (fun x => (x - mn) * shrinkCorrection |up - mn| |mx - mn| + mn) else u) = v
  rw [amax_unit hβ, amin_unit hβ]
  rcases amax v with er | mx'
  · rfl
  rcases amin v with er | mn'
  · rfl
  simp only [Except.map, hlt, abs_unit hβ, correction_unit hβ]
  show Except.ok _ = Except.ok _
  split
  · rw [hrow]
  · rfl

theorem limited_amp (hβ : 0 < β) (p : Pulse K) (u : List K) :
    (p.inAmplitude β).limited (samplesInUnit β u) = (p.limited u).map (samplesInUnit β) := by
  unfold Pulse.limited
  show (if p.shrink = true then shrinkPulse (β * p.lower) (β * p.upper) (samplesInUnit β u)
    else .ok ((samplesInUnit β u).map (cutSample (β * p.lower) (β * p.upper)))) = _
  split
  · exact shrink_unit hβ ..
  · rw [cuts_unit hβ]
    rfl

theorem initialGuess_amp (hβ : 0 < β) (p : Pulse K) : (p.inAmplitude β).initialGuess = p.initialGuess.map (samplesInUnit β) := by
  unfold Pulse.initialGuess
  show (match p.guess.inAmplitude β with
    | .callable f => (p.inAmplitude β).limited (f p.timeGrid)
    | .array l => (p.inAmplitude β).limited l) = _
  rcases p.guess with f | l
  · exact limited_amp hβ p _
  · exact limited_amp hβ p _

theorem bop_amp (a b : List K) : bop (· + ·) (samplesInUnit β a) (samplesInUnit β b) = (bop (· + ·) a b).map (samplesInUnit β) :=
  bop_add_unit a b

theorem bop_sub_amp (a b : List K) : bop (· - ·) (samplesInUnit β a) (samplesInUnit β b) = (bop (· - ·) a b).map (samplesInUnit β) := by
  unfold bop samplesInUnit
  simp only [List.length_map]
  split
  · show Except.ok _ = Except.ok (List.map _ _)
    rw [List.zipWith_map, List.map_zipWith]
    simp only [mul_sub]
  · split
    · rcases a with _ | ⟨x, _ | ⟨y, a⟩⟩
      · rfl
      · show Except.ok _ = Except.ok _
        simp only [List.map_map, Function.comp_def, mul_sub]
      · rfl
    · split
      · rcases b with _ | ⟨x, _ | ⟨y, b⟩⟩
        · rfl
        · show Except.ok _ = Except.ok _
          simp only [List.map_map, Function.comp_def, mul_sub]
        · rfl
      · rfl

theorem bop_mul_amp (a b : List K) : bop (· * ·) a (samplesInUnit β b) = (bop (· * ·) a b).map (samplesInUnit β) := by
  unfold bop samplesInUnit
  simp only [List.length_map]
  have e : ∀ x y : K, x * (β * y) = β * (x * y) := fun x y => by ring
  split
  · show Except.ok _ = Except.ok (List.map _ _)
    rw [List.zipWith_map_right, List.map_zipWith]
    simp only [e]
  · split
    · rcases a with _ | ⟨x, _ | ⟨y, a⟩⟩
      · rfl
      · show Except.ok _ = Except.ok _
        simp only [List.map_map, Function.comp_def, e]
      · rfl
    · split
      · rcases b with _ | ⟨x, _ | ⟨y, b⟩⟩
        · rfl
        · show Except.ok _ = Except.ok _
          simp only [List.map_map, Function.comp_def, e]
        · rfl
      · rfl

theorem addInitialGuess_amp (hβ : 0 < β) (p : Pulse K) (u : List K) :
    (p.inAmplitude β).addInitialGuess (samplesInUnit β u) = (p.addInitialGuess u).map (samplesInUnit β) := by
  unfold Pulse.addInitialGuess
  rw [initialGuess_amp hβ]
  rcases p.initialGuess with er | g
  · rfl
  exact bop_amp g u

theorem scale_amp (hβ : 0 < β) (p : Pulse K) (u : List K) :
    (p.inAmplitude β).scale (samplesInUnit β u) = (p.scale u).map (samplesInUnit β) := by
  unfold Pulse.scale
  show (match p.scaling.inAmplitude β with
    | .callable f => bop (· * ·) (f p.timeGrid) (samplesInUnit β u)
    | .callable2 f => .ok (f p.timeGrid (samplesInUnit β u))
    | .array l => bop (· * ·) l (samplesInUnit β u)) = _
  rcases p.scaling with f | f | l
  · exact bop_mul_amp _ _
  · show Except.ok (samplesInUnit β (f _ _)) = Except.ok _
    rw [samples_back hβ]
  · exact bop_mul_amp _ _

theorem sumTerms_amp {n : ℕ} {f f' : ℕ → Py (List K)} (h : ∀ i, f' i = (f i).map (samplesInUnit β)) (init : List K) :
    sumTerms (samplesInUnit β init) n f' = (sumTerms init n f).map (samplesInUnit β) := by
  unfold sumTerms
  generalize List.range n = l
  induction l generalizing init with
  | nil => rfl
  | cons i l ih =>
    rw [List.foldlM_cons, List.foldlM_cons, h]
    rcases f i with er | t
    · rfl
    show (iadd (samplesInUnit β init) (samplesInUnit β t) >>= _) = Except.map _ (iadd init t >>= _)
    rw [show iadd (samplesInUnit β init) (samplesInUnit β t) = (iadd init t).map (samplesInUnit β) from iadd_unit init t]
    rcases iadd init t with er | s
    · rfl
    exact ih s

theorem sumTerms_zeros_amp {n : ℕ} {f f' : ℕ → Py (List K)} (h : ∀ i, f' i = (f i).map (samplesInUnit β)) (bins : ℕ) :
    sumTerms (zeros bins) n f' = (sumTerms (zeros bins) n f).map (samplesInUnit β) := by
  rw [← sumTerms_amp h, show samplesInUnit β (zeros bins) = zeros bins from zeros_unit bins]

theorem getIdx_amp (xx : List K) (i : ℕ) : getIdx (samplesInUnit β xx) i = (getIdx xx i).map (β * ·) := getIdx_map _ _ _

theorem row_amp {f g : K → K} (h : ∀ s, g s = β * f s) (t : List K) : t.map g = samplesInUnit β (t.map f) := by
  unfold samplesInUnit
  rw [List.map_map]
  exact List.map_congr_left fun s _ => h s

theorem fourierTerm_amp (M : MathFns K) (w xx t : List K) (T : K) (i : ℕ) :
    fourierTerm M w (samplesInUnit β xx) t T i = (fourierTerm M w xx t T i).map (samplesInUnit β) := by
  unfold fourierTerm
  rw [getIdx_amp, getIdx_amp]
  rcases getIdx xx (2 * i) with er | a
  · rfl
  rcases getIdx xx (2 * i + 1) with er | b
  · rfl
  rcases getIdx w i with er | wi
  · rfl
  exact congrArg Except.ok (row_amp (fun s => by ring) t)

theorem sincTerm_amp (M : MathFns K) (bm : K) (w xx t : List K) (T : K) (i : ℕ) :
    sincTerm M bm w (samplesInUnit β xx) t T i = (sincTerm M bm w xx t T i).map (samplesInUnit β) := by
  unfold sincTerm
  rw [getIdx_amp]
  rcases getIdx xx i with er | a
  · rfl
  rcases getIdx w i with er | wi
  · rfl
  exact congrArg Except.ok (row_amp (fun s => by ring) t)

theorem sum_amp (xx : List K) : (samplesInUnit β xx).sum = β * xx.sum := by
  unfold samplesInUnit
  rw [List.sum_map_mul_left]
  simp

theorem sigmoidShape_amp (M : MathFns K) (n : ℕ) (o s : K) (bins : ℕ) (w xx t : List K) (T : K) :
    sigmoidShape M n o s bins w (samplesInUnit β xx) t T = (sigmoidShape M n o s bins w xx t T).map (samplesInUnit β) := by
  unfold sigmoidShape
  rw [sumTerms_zeros_amp (β := β) (f := fun i => do
    let a ← getIdx xx (i + 1)
    let wi ← getIdx w i
    pure (t.map (fun r => a / 2 * sigStep M s wi r))) (fun i => by
      rw [getIdx_amp]
      rcases getIdx xx (i + 1) with er | a
      · rfl
      rcases getIdx w i with er | wi
      · rfl
      exact congrArg Except.ok (row_amp (fun s => by ring) t))]
  rcases sumTerms (zeros bins) n _ with er | p
  · rfl
  simp only [bind, Except.bind, Except.map]
  rw [getIdx_amp, sum_amp]
  rcases getIdx xx 0 with er | a0
  · rfl
  simp only [Except.map]
  rw [row_amp (β := β) (f := fun r => a0 / 2 * sigStep M s o r) (g := fun r => β * a0 / 2 * sigStep M s o r) (fun r => by ring) t,
    row_amp (β := β) (g := fun r => -(β * xx.sum) / 2 * sigStep M s (T - o) r) (f := fun r => -xx.sum / 2 * sigStep M s (T - o) r) (fun r => by ring) t,
    show iadd (samplesInUnit β p) (samplesInUnit β (t.map fun r => a0 / 2 * sigStep M s o r)) = _ from iadd_unit _ _]
  rcases iadd p (t.map fun r => a0 / 2 * sigStep M s o r) with er | q
  · rfl
  exact iadd_unit _ _

theorem sigmoidBuild_amp (M : MathFns K) (n : ℕ) (o s : K) (cl : Bool) (bins : ℕ) (A taus sigmas t : List K) (T : K) :
    sigmoidBuild M n o s cl bins (samplesInUnit β A) taus sigmas t T = (sigmoidBuild M n o s cl bins A taus sigmas t T).map (samplesInUnit β) := by
  unfold sigmoidBuild
  rw [sumTerms_zeros_amp (β := β) (f := fun i => do
    let a ← getIdx A (i + 1)
    let ti ← getIdx taus i
    let si ← getIdx sigmas i
    pure (t.map (fun r => a / 2 * sigStep M si ti r))) (fun i => by
      rw [getIdx_amp]
      rcases getIdx A (i + 1) with er | a
      · rfl
      rcases getIdx taus i with er | ti
      · rfl
      rcases getIdx sigmas i with er | si
      · rfl
      exact congrArg Except.ok (row_amp (fun s => by ring) t))]
  rcases sumTerms (zeros bins) n _ with er | p
  · rfl
  simp only [bind, Except.bind, Except.map]
  rw [getIdx_amp, sum_amp]
  rcases getIdx A 0 with er | a0
  · rfl
  simp only [Except.map]
  rw [row_amp (β := β) (f := fun r => a0 / 2 * sigStep M s o r) (g := fun r => β * a0 / 2 * sigStep M s o r) (fun r => by ring) t,
    row_amp (β := β) (g := fun r => -(β * A.sum) / 2 * sigStep M s (T - o) r) (f := fun r => -A.sum / 2 * sigStep M s (T - o) r) (fun r => by ring) t,
    show iadd (samplesInUnit β p) (samplesInUnit β (t.map fun r => a0 / 2 * sigStep M s o r)) = _ from iadd_unit _ _]
  rcases iadd p (t.map fun r => a0 / 2 * sigStep M s o r) with er | q
  · rfl
  cases cl
  · rfl
  · exact iadd_unit _ _

theorem take_amp (h : ℕ) (xx : List K) : (samplesInUnit β xx).take h = samplesInUnit β (xx.take h) := by
  unfold samplesInUnit
  rw [List.map_take]

theorem drop_amp (h : ℕ) (xx : List K) : (samplesInUnit β xx).drop h = samplesInUnit β (xx.drop h) := by
  unfold samplesInUnit
  rw [List.map_drop]

theorem length_amp (xx : List K) : (samplesInUnit β xx).length = xx.length := by simp [samplesInUnit]

theorem ratio_amp (hβ : 0 < β) (tv av : K) (l : List K) :
    (samplesInUnit β l).map (fun x => x * tv / (β * av)) = l.map fun x => x * tv / av := by
  unfold samplesInUnit
  rw [List.map_map]
  exact List.map_congr_left fun x _ => by
    show β * x * tv / (β * av) = _
    rw [mul_assoc, mul_div_mul_left _ _ hβ.ne']

theorem absRatio_amp (hβ : 0 < β) (sv av : K) (l : List K) :
    (samplesInUnit β l).map (fun x => |x| * sv / (β * av)) = l.map fun x => |x| * sv / av := by
  unfold samplesInUnit
  rw [List.map_map]
  exact List.map_congr_left fun x _ => by
    show |β * x| * sv / (β * av) = _
    rw [abs_mul, abs_of_pos hβ, mul_assoc, mul_div_mul_left _ _ hβ.ne']

theorem sigmoidTimeDepShape_amp (hβ : 0 < β) (M : MathFns K) (n : ℕ) (o s tv av : K) (bins : ℕ) (w xx t : List K) (T : K) :
    sigmoidTimeDepShape M n o s tv (β * av) bins w (samplesInUnit β xx) t T =
      (sigmoidTimeDepShape M n o s tv av bins w xx t T).map (samplesInUnit β) := by
  unfold sigmoidTimeDepShape
  dsimp only
  rw [length_amp, drop_amp, take_amp, ratio_amp hβ]
  rcases bop (· + ·) w (List.map (fun x => x * tv / av) (List.drop ((xx.length + 1) / 2) xx)) with er | ts
  · rfl
  simp only [bind, Except.bind]
  rcases rescaleTaus o T ts with er | ts'
  · rfl
  exact sigmoidBuild_amp ..

theorem sigmoidAllParasShape_amp (hβ : 0 < β) (M : MathFns K) (n : ℕ) (o s tv sv av : K) (bins : ℕ) (w xx t : List K) (T : K) :
    sigmoidAllParasShape M n o s tv sv (β * av) bins w (samplesInUnit β xx) t T =
      (sigmoidAllParasShape M n o s tv sv av bins w xx t T).map (samplesInUnit β) := by
  unfold sigmoidAllParasShape
  dsimp only
  rw [drop_amp, drop_amp, take_amp, take_amp, ratio_amp hβ, ratio_amp hβ, absRatio_amp hβ, absRatio_amp hβ]
  have hA : (if (decide (tv > 1 / 10 ^ 10) || decide (sv > 1 / 10 ^ 10)) = true then samplesInUnit β (xx.take (w.length + 1)) else samplesInUnit β xx) =
      samplesInUnit β (if (decide (tv > 1 / 10 ^ 10) || decide (sv > 1 / 10 ^ 10)) = true then xx.take (w.length + 1) else xx) := by
    split <;> rfl
  rw [hA]
  generalize (if (decide (tv > 1 / 10 ^ 10) || decide (sv > 1 / 10 ^ 10)) = true then List.take (w.length + 1) xx else xx) = A
  generalize (if decide (tv > 1 / 10 ^ 10) = true then
      if decide (sv > 1 / 10 ^ 10) = true then List.map (fun x => x * tv / av) (List.take w.length (List.drop (w.length + 1) xx))
      else List.map (fun x => x * tv / av) (List.drop (w.length + 1) xx) else zeros w.length) = dt
  generalize (if decide (tv > 1 / 10 ^ 10) = true then
      if decide (sv > 1 / 10 ^ 10) = true then List.map (fun x => |x| * sv / av) (List.drop (2 * w.length + 1) xx) else zeros w.length
      else if decide (sv > 1 / 10 ^ 10) = true then List.map (fun x => |x| * sv / av) (List.drop (w.length + 1) xx) else zeros w.length) = ds
  have hrest : ∀ taus : List K, (do
        let sigmas ← limitSigmas M o s T (decide (sv > 1 / 10 ^ 10) && decide (o ≥ 1 / 10 ^ 10)) taus ds
        sigmoidBuild M n o s (decide (o ≥ 1 / 10 ^ 10)) bins (samplesInUnit β A) taus sigmas t T) =
      (do
        let sigmas ← limitSigmas M o s T (decide (sv > 1 / 10 ^ 10) && decide (o ≥ 1 / 10 ^ 10)) taus ds
        sigmoidBuild M n o s (decide (o ≥ 1 / 10 ^ 10)) bins A taus sigmas t T : Py (List K)).map (samplesInUnit β) := fun taus => by
    rcases limitSigmas M o s T (decide (sv > 1 / 10 ^ 10) && decide (o ≥ 1 / 10 ^ 10)) taus ds with er | sg
    · rfl
    exact sigmoidBuild_amp ..
  split
  · rcases iadd w dt with er | ts
    · rfl
    simp only [bind, Except.bind]
    rcases rescaleTaus o T ts with er | ts'
    · rfl
    exact hrest ts'
  · exact hrest w

variable (M : MathFns K)

theorem shaped_amp (hβ : 0 < β) (p : Pulse K) (h : p.basis.Homogeneous β) : (p.inAmplitude β).shaped M = (p.shaped M).map (samplesInUnit β) := by
  have hg := initialGuess_amp hβ p
  have ha := addInitialGuess_amp hβ p
  have hl := limited_amp hβ p
  unfold Pulse.shaped
  rw [show (p.inAmplitude β).basis = p.basis from rfl]
  cases hb : p.basis with
  | fourier n => exact sumTerms_zeros_amp (fun i => fourierTerm_amp M _ _ _ _ i) _
  | chebyshev n => rw [hb] at h; exact h.elim
  | sinc n bm => exact sumTerms_zeros_amp (fun i => sincTerm_amp M bm _ _ _ _ i) _
  | walsh n =>
    dsimp only
    rw [show sumTerms (zeros (p.inAmplitude β).binsNumber) n
        (fourierTerm M (p.inAmplitude β).w (p.inAmplitude β).params (p.inAmplitude β).timeGrid (p.inAmplitude β).finalTime) = _ from
      sumTerms_zeros_amp (fun i => fourierTerm_amp M p.w p.params p.timeGrid p.finalTime i) p.binsNumber]
    rcases sumTerms (zeros p.binsNumber) n (fourierTerm M p.w p.params p.timeGrid p.finalTime) with er | u
    · rfl
    simp only [bind, Except.bind, Except.map]
    rw [ha u]
    rcases p.addInitialGuess u with er | v
    · rfl
    simp only [Except.map]
    rw [hl v]
    rcases p.limited v with er | x
    · rfl
    simp only [Except.map]
    rw [hg]
    rcases p.initialGuess with er | g
    · rfl
    exact bop_sub_amp _ _
  | piecewise => rfl
  | sigmoid n o s => exact sigmoidShape_amp ..
  | sigmoidTimeDep n o s tv => exact sigmoidTimeDepShape_amp hβ ..
  | sigmoidSigmas n o s sv => rw [hb] at h; exact h.elim
  | sigmoidAllParas n o s tv sv => exact sigmoidAllParasShape_amp hβ ..
  | custom n m f => rw [hb] at h; exact h _ _ _ _

theorem applyStep_amp (hβ : 0 < β) (p : Pulse K) (h : p.basis.Homogeneous β) (u : List K) (s : Shaping) :
    (p.inAmplitude β).applyStep M (samplesInUnit β u) s = (p.applyStep M u s).map (samplesInUnit β) := by
  cases s with
  | addInitialGuess => exact addInitialGuess_amp hβ p u
  | addBasePulse => exact bop_amp u p.basePulse
  | addNewUpdatePulse =>
    unfold Pulse.applyStep
    dsimp only
    rw [shaped_amp M hβ p h]
    rcases p.shaped M with er | v
    · rfl
    exact bop_amp u v
  | scalePulse => exact scale_amp hβ p u
  | limitPulse => exact limited_amp hβ p u

theorem build_amp (hβ : 0 < β) (p : Pulse K) (h : p.basis.Homogeneous β) : (p.inAmplitude β).build M = (p.build M).map (samplesInUnit β) := by
  unfold Pulse.build
  rw [show (p.inAmplitude β).shaping = p.shaping from rfl,
    show (zeros (p.inAmplitude β).binsNumber : List K) = samplesInUnit β (zeros p.binsNumber) from (zeros_unit _).symm]
  generalize (zeros p.binsNumber : List K) = u
  induction p.shaping generalizing u with
  | nil => rfl
  | cons s ss ih =>
    rw [List.foldlM_cons, List.foldlM_cons, applyStep_amp M hβ p h]
    rcases p.applyStep M u s with er | v
    · rfl
    exact ih v

theorem setInputs_amp (p : Pulse K) (x : List K) (T : K) :
    (p.inAmplitude β).setInputs (samplesInUnit β x) T = (p.setInputs x T).inAmplitude β := rfl

theorem getPulse_amp (hβ : 0 < β) (p : Pulse K) (h : p.basis.Homogeneous β) (x : List K) (T : K) :
    (p.inAmplitude β).getPulse M (samplesInUnit β x) T = (p.getPulse M x T).map fun r => (r.1.inAmplitude β, samplesInUnit β r.2) := by
  unfold Pulse.getPulse
  dsimp only
  rw [setInputs_amp, build_amp M hβ _ (show (p.setInputs x T).basis.Homogeneous β from h)]
  rcases (p.setInputs x T).build M with er | u <;> rfl

theorem setBasePulse_amp (hβ : 0 < β) (p : Pulse K) (h : p.basis.Homogeneous β) (x : List K) (T : K) :
    (p.inAmplitude β).setBasePulse M (samplesInUnit β x) T = (p.setBasePulse M x T).map (Pulse.inAmplitude β) := by
  unfold Pulse.setBasePulse
  dsimp only
  rw [setInputs_amp, shaped_amp M hβ _ (show (p.setInputs x T).basis.Homogeneous β from h)]
  rcases (p.setInputs x T).shaped M with er | u
  · rfl
  simp only [bind, Except.bind, Except.map]
  rw [show ((p.setInputs x T).inAmplitude β).overwrite = (p.setInputs x T).overwrite from rfl,
    show iadd ((p.setInputs x T).inAmplitude β).basePulse (samplesInUnit β u) = (iadd (p.setInputs x T).basePulse u).map (samplesInUnit β) from
      iadd_unit _ _]
  split
  · rfl
  · rcases iadd (p.setInputs x T).basePulse u with er | b <;> rfl

theorem drawSuper_amp (p : Pulse K) (rnd : List K) : (p.inAmplitude β).drawSuper rnd = (p.drawSuper rnd).map (Pulse.inAmplitude β) := by
  unfold Pulse.drawSuper
  show (uniformDraw p.wLower p.wUpper (basisSuper p.basis) rnd >>= _) = Except.map _ (uniformDraw p.wLower p.wUpper (basisSuper p.basis) rnd >>= _)
  rcases uniformDraw p.wLower p.wUpper (basisSuper p.basis) rnd with er | w <;> rfl

theorem basisScale_amp (av : K) (n : ℕ) (b : Basis K) : basisScale M (β * av) n b = samplesInUnit β (basisScale M av n b) := by
  unfold samplesInUnit
  cases b <;> simp [basisScale, mul_div_assoc]

theorem mkPulse_amp (hβ : 0 < β) (mi : ℤ) (d : PulseDict K) : mkPulse M mi (d.inAmplitude β) = (mkPulse M mi d).map (Pulse.inAmplitude β) := by
  unfold mkPulse
  dsimp only
  rw [show basisParams (d.inAmplitude β).binsNumber (d.inAmplitude β).basis = basisParams d.binsNumber d.basis from rfl,
    show basisScale M (d.inAmplitude β).amplitudeVariation (basisParams d.binsNumber d.basis) (d.inAmplitude β).basis = _ from basisScale_amp M ..]
  have hl : (if (d.inAmplitude β).lowerLimit > (d.inAmplitude β).upperLimit then ((d.inAmplitude β).upperLimit, (d.inAmplitude β).lowerLimit)
      else ((d.inAmplitude β).lowerLimit, (d.inAmplitude β).upperLimit)) =
      (β * (if d.lowerLimit > d.upperLimit then (d.upperLimit, d.lowerLimit) else (d.lowerLimit, d.upperLimit)).1,
       β * (if d.lowerLimit > d.upperLimit then (d.upperLimit, d.lowerLimit) else (d.lowerLimit, d.upperLimit)).2) := by
    show (if β * d.lowerLimit > β * d.upperLimit then (β * d.upperLimit, β * d.lowerLimit) else (β * d.lowerLimit, β * d.upperLimit)) = _
    simp only [gt_iff_lt, mul_lt_mul_iff_right₀ hβ]
    split <;> rfl
  rw [hl]
  split
  · rfl
  · show Except.ok _ = Except.ok _
    unfold Pulse.inAmplitude
    dsimp only
    rw [show samplesInUnit β (zeros (basisParams d.binsNumber d.basis)) = zeros (basisParams d.binsNumber d.basis) from zeros_unit _,
      show samplesInUnit β (zeros d.binsNumber) = zeros d.binsNumber from zeros_unit _]
    rfl

theorem mkPulses_amp (bs : List K) (hb : ∀ b ∈ bs, 0 < b) (pd : List (PulseDict K)) (hl : bs.length = pd.length) : ∀ mi,
    mkPulses M mi (pulsesInAmplitudes bs pd) = (mkPulses M mi pd).map fun r => (List.zipWith Pulse.inAmplitude bs r.1, r.2) := by
  unfold pulsesInAmplitudes
  induction bs generalizing pd with
  | nil =>
    obtain rfl := List.length_eq_zero_iff.1 hl.symm
    intro mi; rfl
  | cons b bs ih =>
    intro mi
    rcases pd with _ | ⟨d, pd⟩
    · cases hl
    show (mkPulse M mi (d.inAmplitude b) >>= _) = Except.map _ (mkPulse M mi d >>= _)
    rw [mkPulse_amp M (hb b List.mem_cons_self)]
    rcases mkPulse M mi d with er | p
    · rfl
    show (mkPulses M p.lastIndex (List.zipWith _ bs pd) >>= _) = Except.map _ (mkPulses M p.lastIndex pd >>= _)
    rw [ih (fun b hm => hb b (List.mem_cons_of_mem _ hm)) pd (by simpa using hl)]
    rcases mkPulses M p.lastIndex pd with er | r <;> rfl

theorem mkControls_amp {bs : List K} (hb : ∀ b ∈ bs, 0 < b) {pd : List (PulseDict K)} (hl : bs.length = pd.length) {td : List (TimeDict K)}
    {rd : List (ParamDict K)} :
    mkControls M (pulsesInAmplitudes bs pd) td rd = (mkControls M pd td rd).map (Controls.inAmplitudes bs) := by
  unfold mkControls
  rw [mkPulses_amp M bs hb pd hl]
  rcases mkPulses M (-1) pd with er | r
  · rfl
  simp only [bind, Except.bind, Except.map]
  rcases mkTimes td [] with er | ts <;> rfl

theorem reindexPulses_amp (bs : List K) (ps : List (Pulse K)) (hl : bs.length = ps.length) : ∀ mi,
    reindexPulses mi (List.zipWith Pulse.inAmplitude bs ps) = (List.zipWith Pulse.inAmplitude bs (reindexPulses mi ps).1, (reindexPulses mi ps).2) := by
  induction bs generalizing ps with
  | nil =>
    obtain rfl := List.length_eq_zero_iff.1 hl.symm
    intro mi; rfl
  | cons b bs ih =>
    intro mi
    rcases ps with _ | ⟨p, ps⟩
    · cases hl
    show (_ :: (reindexPulses p.lastIndex (List.zipWith _ bs ps)).1, (reindexPulses p.lastIndex (List.zipWith _ bs ps)).2) = _
    rw [ih ps (by simpa using hl)]
    rfl

theorem reindex_amp {bs : List K} {c : Controls K} (hl : bs.length = c.pulses.length) :
    (c.inAmplitudes bs).reindex = c.reindex.inAmplitudes bs := by
  unfold Controls.reindex
  rw [show (c.inAmplitudes bs).pulses = List.zipWith Pulse.inAmplitude bs c.pulses from rfl, reindexPulses_amp _ _ hl]
  rfl

theorem reindexPulses_length (ps : List (Pulse K)) : ∀ mi, (reindexPulses mi ps).1.length = ps.length := by
  induction ps with
  | nil => intro mi; rfl
  | cons p ps ih => intro mi; exact congrArg (· + 1) (ih p.lastIndex)

theorem zipWith_set_amp (bs : List K) (ps : List (Pulse K)) (i : ℕ) {b : K} (hb : bs[i]? = some b) (p : Pulse K) :
    (List.zipWith Pulse.inAmplitude bs ps).set i (p.inAmplitude b) = List.zipWith Pulse.inAmplitude bs (ps.set i p) := by
  induction bs generalizing ps i with
  | nil => simp at hb
  | cons b' bs ih =>
    rcases ps with _ | ⟨q, ps⟩
    · rfl
    rcases i with _ | i
    · obtain rfl : b' = b := by simpa using hb
      rfl
    · exact congrArg _ (ih ps i (by simpa using hb))

theorem selectBasisAt_amp {bs : List K} (rnd : ℕ → List K) {c : Controls K} (hl : bs.length = c.pulses.length) (i : ℕ) :
    (c.inAmplitudes bs).selectBasisAt rnd i = (c.selectBasisAt rnd i).map (Controls.inAmplitudes bs) ∧
      ∀ c', c.selectBasisAt rnd i = .ok c' → c'.pulses.length = c.pulses.length := by
  unfold Controls.selectBasisAt
  rw [show (c.inAmplitudes bs).pulses = List.zipWith Pulse.inAmplitude bs c.pulses from rfl, List.getElem?_zipWith]
  by_cases hi : i < c.pulses.length
  · rw [List.getElem?_eq_getElem hi, List.getElem?_eq_getElem (by omega : i < bs.length)]
    dsimp only
    rw [show (c.pulses[i].inAmplitude bs[i]).basis.isChopped = c.pulses[i].basis.isChopped from rfl]
    split
    · rw [drawSuper_amp]
      rcases c.pulses[i].drawSuper (rnd i) with er | p'
      · exact ⟨rfl, fun c' h => nomatch h⟩
      refine ⟨?_, fun c' h => ?_⟩
      · show Except.ok (Controls.reindex _) = Except.ok ((Controls.reindex _).inAmplitudes bs)
        rw [← reindex_amp (by simpa using hl)]
        show Except.ok (Controls.reindex _) = Except.ok (Controls.reindex _)
        congr 2
        unfold Controls.inAmplitudes
        dsimp only
        rw [zipWith_set_amp bs c.pulses i (List.getElem?_eq_getElem (by omega : i < bs.length))]
      · cases h
        show (reindexPulses (-1) (c.pulses.set i p')).1.length = _
        rw [reindexPulses_length, List.length_set]
    · exact ⟨rfl, fun c' h => by cases h; rfl⟩
  · rw [List.getElem?_eq_none (by omega : c.pulses.length ≤ i), List.getElem?_eq_none (by omega : bs.length ≤ i)]
    exact ⟨rfl, fun c' h => by cases h; rfl⟩

theorem selectBasis_amp {bs : List K} (rnd : ℕ → List K) {c : Controls K} (hl : bs.length = c.pulses.length) :
    (c.inAmplitudes bs).selectBasis rnd = (c.selectBasis rnd).map (Controls.inAmplitudes bs) := by
  unfold Controls.selectBasis
  rw [show (c.inAmplitudes bs).pulses.length = c.pulses.length by
    show (List.zipWith _ bs c.pulses).length = _
    rw [List.length_zipWith, hl, min_self]]
  generalize List.range c.pulses.length = l
  induction l generalizing c with
  | nil => rfl
  | cons i l ih =>
    obtain ⟨h1, h2⟩ := selectBasisAt_amp rnd hl i
    rw [List.foldlM_cons, List.foldlM_cons, h1]
    rcases hc : c.selectBasisAt rnd i with er | c'
    · rfl
    exact ih (hl.trans (h2 c' hc).symm)

theorem gather_amp {ws : List (K × K)} {xs : List K} (hl : ws.length = xs.length) {b : K} {idx : List ℕ} (h : ∀ i ∈ idx, ws[i]? = some (b, 0)) :
    gather (linList ws xs) idx = (gather xs idx).map (samplesInUnit b) := by
  unfold gather
  induction idx with
  | nil => rfl
  | cons i idx ih =>
    rw [List.mapM_cons, List.mapM_cons, ih fun j hj => h j (List.mem_cons_of_mem _ hj), getIdx_lin hl (h i List.mem_cons_self)]
    rcases getIdx xs i with e | x
    · rfl
    rcases List.mapM (fun i => getIdx xs i) idx with e | R
    · rfl
    · show Except.ok ((b * x + 0) :: _) = _
      rw [add_zero]
      rfl

/-- The pulses read from the vector in the other units. -/
theorem pulses_amp {δ : Type} {f : Pulse K → List K → Py δ} {q : K → δ → δ} {ws : List (K × K)} {xs : List K} (hl : ws.length = xs.length)
    (bs : List K) : ∀ (k : ℕ) (ps : List (Pulse K)) (rest : List (K × K)), PChain k ps → bs.length = ps.length →
    (∀ i, ws[k + i]? = ((List.zipWith (fun b p => List.replicate p.nParams (b, 0)) bs ps).flatten ++ rest)[i]?) →
    (∀ i (h1 : i < bs.length) (h2 : i < ps.length), ∀ v, f (ps[i].inAmplitude bs[i]) (samplesInUnit bs[i] v) = (f ps[i] v).map (q bs[i])) →
    (List.zipWith Pulse.inAmplitude bs ps).mapM (fun p : Pulse K => do let v ← gather (linList ws xs) p.ctrlList; f p v) =
      (ps.mapM (fun p : Pulse K => do let v ← gather xs p.ctrlList; f p v)).map (List.zipWith q bs) := by
  induction bs with
  | nil =>
    intro k ps rest hp h1 h2 h3
    obtain rfl := List.length_eq_zero_iff.1 h1.symm
    rfl
  | cons b bs ih =>
    intro k ps rest hp h1 h2 h3
    rcases ps with _ | ⟨p, ps⟩
    · cases h1
    obtain ⟨p1, p2, p3⟩ := hp
    have hrec := ih (k + p.nParams) ps rest p3 (by simpa using h1) (fun i => by
      have := h2 (p.nParams + i)
      rw [← Nat.add_assoc] at this
      rw [this, List.zipWith_cons_cons, List.flatten_cons, List.append_assoc, List.getElem?_append_right (by simp)]
      simp) (fun i a1 a2 v => h3 (i + 1) (by simpa using a1) (by simpa using a2) v)
    rw [List.zipWith_cons_cons, List.mapM_cons, List.mapM_cons, hrec]
    have hg : gather (linList ws xs) (p.inAmplitude b).ctrlList = (gather xs p.ctrlList).map (samplesInUnit b) := by
      rw [show (p.inAmplitude b).ctrlList = p.ctrlList from rfl, p1]
      refine gather_amp hl fun i hi => ?_
      obtain ⟨j, hj, rfl⟩ := List.mem_range'.1 hi
      have := h2 j
      rw [one_mul, this, List.zipWith_cons_cons, List.flatten_cons, List.append_assoc, List.getElem?_append_left (by simpa using hj),
        List.getElem?_replicate, if_pos hj]
    rw [hg]
    rcases gather xs p.ctrlList with er | v
    · rfl
    simp only [bind, Except.bind, Except.map]
    rw [show f (p.inAmplitude b) (samplesInUnit b v) = (f p v).map (q b) from h3 0 (by simp) (by simp) v]
    rcases f p v with er | d
    · rfl
    simp only [Except.map]
    rcases List.mapM _ ps with er | ds <;> rfl

variable {M} {pd : List (PulseDict K)} {td : List (TimeDict K)} {rd : List (ParamDict K)} {bs : List K} {n : ℕ}

/-- the controls of the same run in the other units -/
def InAmplitudesOf (M : MathFns K) (pd : List (PulseDict K)) (td : List (TimeDict K)) (rd : List (ParamDict K)) (bs : List K)
    (c c' : Controls K) : Prop :=
  ControlsReach M pd td rd c ∧ ControlsReach M (pulsesInAmplitudes bs pd) td rd c' ∧ c' = c.inAmplitudes bs

theorem ampBlock_length (hl : bs.length = pd.length) :
    ((List.zipWith (fun b d => List.replicate (PulseDict.declared d) (b, (0 : K))) bs pd).flatten).length = (pd.map (·.declared)).sum := by
  induction bs generalizing pd with
  | nil => obtain rfl := List.length_eq_zero_iff.1 hl.symm; rfl
  | cons b bs ih =>
    rcases pd with _ | ⟨d, pd⟩
    · cases hl
    · rw [List.zipWith_cons_cons, List.flatten_cons, List.length_append, ih (by simpa using hl)]
      simp

theorem amplitudeUnits_length (hl : bs.length = pd.length) (hn : n = searchDim pd rd) : (amplitudeUnits pd rd bs).length = n := by
  unfold amplitudeUnits
  rw [List.length_append, ampBlock_length hl, hn, searchDim, List.length_replicate]

theorem amplitudeUnits_right (hl : bs.length = pd.length) {i : ℕ} (h : i < rd.length) :
    (amplitudeUnits pd rd bs)[(pd.map (·.declared)).sum + i]? = some (1, 0) := by
  unfold amplitudeUnits
  rw [← ampBlock_length hl, List.getElem?_append_right (by simp)]
  simp [h]

theorem amplitudeUnits_pos (hb : ∀ b ∈ bs, 0 < b) : ∀ w ∈ amplitudeUnits pd rd bs, 0 < w.1 := by
  intro w hw
  rcases List.mem_append.1 hw with h | h
  · obtain ⟨l, hl, hm⟩ := List.mem_flatten.1 h
    obtain ⟨i, hi, rfl⟩ := List.getElem_of_mem hl
    rw [List.getElem_zipWith] at hm
    rw [(List.mem_replicate.1 hm).2]
    exact hb _ (List.getElem_mem _)
  · rw [(List.mem_replicate.1 h).2]; exact one_pos

theorem QChain_mem {k : ℕ} {ps : List (Param K)} (h : QChain k ps) {p : Param K} (hp : p ∈ ps) : ∃ j < ps.length, p.ctrlList = [k + j] := by
  induction ps generalizing k with
  | nil => cases hp
  | cons q ps ih =>
    obtain ⟨h1, h2, h3⟩ := h
    rcases List.mem_cons.1 hp with rfl | hp
    · exact ⟨0, by simp, h1⟩
    · obtain ⟨j, hj, e⟩ := ih h3 hp
      exact ⟨j + 1, by simpa using hj, by rw [e, Nat.add_assoc, Nat.add_comm 1 j]⟩

theorem setAll_amp {c : Controls K} (h : CInv M pd td rd c) (hl : bs.length = pd.length) {xs : List K} (hx : xs.length = searchDim pd rd) :
    setAll (linList (amplitudeUnits pd rd bs) xs) c.params = setAll xs c.params := by
  refine mapM_congr_mem fun p hp => ?_
  rw [gather_lin ((amplitudeUnits_length hl rfl).trans hx.symm) fun i hi => ?_]
  obtain ⟨j, hj, e⟩ := QChain_mem h.qchain hp
  rw [e] at hi
  obtain rfl := List.mem_singleton.1 hi
  rw [h.declared]
  exact amplitudeUnits_right hl (by rw [h.params.length_eq]; exact hj)

theorem times_amp {c : Controls K} (h : CInv M pd td rd c) (hf : FixedTimes td) (xs ys : List K) : setTimes xs c.times = setTimes ys c.times := by
  unfold setTimes
  exact mapM_congr_mem fun t ht => by rw [h.fixed hf t ht]; rfl

theorem units_eq (h : (bs : List K).length = pd.length) {ps : List (Pulse K)} (e : ps.map (·.nParams) = pd.map (·.declared)) :
    List.zipWith (fun b p => List.replicate (Pulse.nParams p) (b, (0 : K))) bs ps =
      List.zipWith (fun b d => List.replicate (PulseDict.declared d) (b, (0 : K))) bs pd := by
  have := congrArg (List.zipWith (fun (b : K) k => List.replicate k (b, (0 : K))) bs) e
  rwa [List.zipWith_map_right, List.zipWith_map_right] at this

theorem pulsesOf_amp {δ : Type} {f : Pulse K → List K → Py δ} {q : K → δ → δ} {c : Controls K} (h : CInv M pd td rd c)
    (hb : ∀ b ∈ bs, 0 < b) (ho : Homogeneous bs pd) {xs : List K} (hx : xs.length = searchDim pd rd)
    (hf : ∀ b, 0 < b → ∀ p : Pulse K, p.basis.Homogeneous b → ∀ v, f (p.inAmplitude b) (samplesInUnit b v) = (f p v).map (q b)) :
    (c.inAmplitudes bs).pulses.mapM (fun p : Pulse K => do let v ← gather (linList (amplitudeUnits pd rd bs) xs) p.ctrlList; f p v) =
      (c.pulses.mapM (fun p : Pulse K => do let v ← gather xs p.ctrlList; f p v)).map (List.zipWith q bs) := by
  have hl : bs.length = pd.length := ho.length_eq
  refine pulses_amp ((amplitudeUnits_length hl rfl).trans hx.symm) bs 0 c.pulses (List.replicate rd.length (1, 0)) h.pchain
    (hl.trans h.reach.length_eq) (fun i => ?_) fun i h1 h2 v => ?_
  · rw [Nat.zero_add, units_eq hl h.declared]
    rfl
  · refine hf _ (hb _ (List.getElem_mem _)) _ ?_ v
    have r := (List.forall₂_iff_get.1 h.reach).2 i (by omega) h2
    have g := (List.forall₂_iff_get.1 ho).2 i h1 (by omega)
    obtain ⟨_, _, _, _, _, _, _, _, hbas⟩ := r.fields
    simp only [List.get_eq_getElem] at hbas g
    rwa [hbas]

theorem zipWith_eq_mapIdx {us : List (List K)} (h : bs.length = us.length) :
    us.mapIdx (fun i u => samplesInUnit (bs.getD i 1) u) = List.zipWith samplesInUnit bs us := by
  apply List.ext_getElem
  · simp [h]
  · intro i h1 h2
    have hi : i < bs.length := by simp at h1; omega
    rw [List.getElem_mapIdx, List.getElem_zipWith]
    simp [List.getD, hi]

theorem mapM_length {α β : Type} {f : α → Py β} {l : List α} {r : List β} (h : l.mapM f = .ok r) : r.length = l.length := by
  rw [mapM_ok] at h
  exact h.length_eq.symm

theorem getControls_amp {c : Controls K} (h : CInv M pd td rd c) (hf : FixedTimes td) (hb : ∀ b ∈ bs, 0 < b) (ho : Homogeneous bs pd)
    {xs : List K} (hx : xs.length = searchDim pd rd) :
    (c.inAmplitudes bs).getControls M (linList (amplitudeUnits pd rd bs) xs) =
      (c.getControls M xs).map fun r => (r.1.inAmplitudes bs, r.2.inAmplitudes bs) := by
  have hl : bs.length = pd.length := ho.length_eq
  rw [getControls_eq, getControls_eq, show (c.inAmplitudes bs).times = c.times from rfl, times_amp h hf _ xs,
    show (c.inAmplitudes bs).params = c.params from rfl, setAll_amp h hl hx]
  rcases setTimes xs c.times with er | ts
  · rfl
  simp only [bind, Except.bind]
  have key := pulsesOf_amp (f := fun p v => do let t ← dictGet ts p.timeName; p.getPulse M v t.getTime)
    (q := fun b r => (r.1.inAmplitude b, samplesInUnit b r.2)) h hb ho hx (fun b hb p hp v => by
      rw [show (p.inAmplitude b).timeName = p.timeName from rfl]
      rcases dictGet ts p.timeName with er | t
      · rfl
      exact getPulse_amp M hb p hp v _)
  simp only [bind, Except.bind] at key
  rw [key]
  rcases hps : (List.mapM _ c.pulses : Py (List (Pulse K × List K))) with er | ps
  · rfl
  have hlen : bs.length = ps.length := hl.trans (h.reach.length_eq.trans (mapM_length hps).symm)
  simp only [Except.map]
  rcases setAll xs c.params with er | prs
  · rfl
  show Except.ok (_, _) = Except.ok (_, _)
  unfold Controls.inAmplitudes ControlsOut.inAmplitudes
  dsimp only
  rw [zipWith_eq_mapIdx (by simpa using hlen)]
  simp only [List.map_zipWith, List.zipWith_map_right]
  congr 3
  apply List.ext_getElem
  · simp [hlen]
  · intro i h1 h2
    simp only [List.getElem_zipWith, List.getElem_map]
    rfl

theorem updateBase_amp {c : Controls K} (h : CInv M pd td rd c) (hf : FixedTimes td) (hb : ∀ b ∈ bs, 0 < b) (ho : Homogeneous bs pd)
    {xs : List K} (hx : xs.length = searchDim pd rd) :
    (c.inAmplitudes bs).updateBase M (linList (amplitudeUnits pd rd bs) xs) = (c.updateBase M xs).map (Controls.inAmplitudes bs) := by
  have hl : bs.length = pd.length := ho.length_eq
  have hs := setAll_amp h hl hx
  unfold setAll at hs
  unfold Controls.updateBase
  rw [show (c.inAmplitudes bs).times = c.times from rfl, times_amp h hf _ xs, show (c.inAmplitudes bs).params = c.params from rfl, hs]
  rcases setTimes xs c.times with er | ts
  · rfl
  simp only [bind, Except.bind]
  have key := pulsesOf_amp (f := fun p v => do let t ← dictGet ts p.timeName; p.setBasePulse M v t.getTime)
    (q := fun b r => r.inAmplitude b) h hb ho hx (fun b hb p hp v => by
      rw [show (p.inAmplitude b).timeName = p.timeName from rfl]
      rcases dictGet ts p.timeName with er | t
      · rfl
      exact setBasePulse_amp M hb p hp v _)
  simp only [bind, Except.bind] at key
  rw [key]
  rcases (List.mapM _ c.pulses : Py (List (Pulse K))) with er | ps
  · rfl
  simp only [Except.map]
  rcases (List.mapM _ c.params : Py (List (Param K))) with er | prs <;> rfl

theorem declared_amp (hl : bs.length = pd.length) : (pulsesInAmplitudes bs pd).map (·.declared) = pd.map (·.declared) := by
  unfold pulsesInAmplitudes
  rw [List.map_zipWith]
  apply List.ext_getElem
  · simp [hl]
  · intro i h1 h2
    simp only [List.getElem_zipWith, List.getElem_map]
    rfl

theorem startSize_amp (b : K) (d : PulseDict K) : (d.inAmplitude b).startSize M = b * d.startSize M := by
  unfold PulseDict.startSize
  show (match d.basis with
    | .fourier _ | .chebyshev _ | .sinc _ _ | .walsh _ => b * d.amplitudeVariation / M.sqrt2
    | _ => b * d.amplitudeVariation) = _
  cases d.basis <;> simp [mul_div_assoc]

theorem sizes_amp (hl : bs.length = pd.length) :
    List.zipWith (fun u x => u.1 * x) (List.zipWith (fun b d => List.replicate (PulseDict.declared d) (b, (0 : K))) bs pd).flatten
      (pd.map (fun d => List.replicate d.declared (d.startSize M))).flatten =
    ((pulsesInAmplitudes bs pd).map (fun d => List.replicate d.declared (d.startSize M))).flatten := by
  unfold pulsesInAmplitudes
  induction bs generalizing pd with
  | nil => obtain rfl := List.length_eq_zero_iff.1 hl.symm; rfl
  | cons b bs ih =>
    rcases pd with _ | ⟨d, pd⟩
    · cases hl
    · simp only [List.zipWith_cons_cons, List.flatten_cons, List.map_cons]
      rw [List.zipWith_append (by simp), ih (by simpa using hl), List.zipWith_replicate, min_self, startSize_amp]
      rfl

theorem corresponds_amplitudes (kind : AlgKind) (sqrt : K → K) (rnd : ℕ → ℕ → List K) (draws : ℕ → Vec K n) (hf : FixedTimes td)
    (hb : ∀ b ∈ bs, 0 < b) (ho : Homogeneous bs pd) (hn : n = searchDim pd rd) :
    Corresponds (systemOps kind M sqrt rnd draws) (systemOps kind M sqrt rnd draws) (InAmplitudesOf M pd td rd bs)
      (vecInUnits (amplitudeUnits pd rd bs)) (sizesInUnits (amplitudeUnits pd rd bs)) (ControlsOut.inAmplitudes bs) where
  get c c' x h := by
    obtain ⟨h1, h2, rfl⟩ := h
    have key := getControls_amp (CInv.of_reach h1) hf hb ho (xs := List.ofFn x) (by simp [hn])
    rw [← ofFn_inUnits (amplitudeUnits_length ho.length_eq hn)] at key
    show RelPy _ (getControlsFor kind M c (List.ofFn x)) (getControlsFor kind M _ (List.ofFn (vecInUnits (amplitudeUnits pd rd bs) x)))
    unfold getControlsFor
    rw [key]
    rcases hc : c.getControls M (List.ofFn x) with er | ⟨c1, o1⟩
    · rfl
    rw [hc] at key
    have e : (o1.inAmplitudes bs).pulses ≠ [] ↔ o1.pulses ≠ [] := by
      unfold ControlsOut.inAmplitudes
      simp
    show RelPy _ (if kind = .directSearch ∧ o1.pulses ≠ [] then _ else _) (if kind = .directSearch ∧ (o1.inAmplitudes bs).pulses ≠ [] then _ else _)
    by_cases hk : kind = .directSearch ∧ o1.pulses ≠ []
    · rw [if_pos hk, if_pos ⟨hk.1, e.2 hk.2⟩]
      rfl
    · rw [if_neg hk, if_neg fun g => hk ⟨g.1, e.1 g.2⟩]
      exact ⟨⟨.get h1 hc, .get h2 key, rfl⟩, rfl⟩
  mean c c' h := by
    obtain ⟨h1, h2, rfl⟩ := h
    show RelPy _ (c.mean >>= vecOfList n) ((c.inAmplitudes bs).mean >>= vecOfList n)
    rw [C21_start_point h1, C21_start_point h2]
    have hI := CInv.of_reach h1
    have hl := ho.length_eq
    obtain ⟨v, v1, v2, -⟩ := vecOfList_inUnits (n := n) (ws := amplitudeUnits pd rd bs)
      (xs := zeros (pd.map (·.declared)).sum ++ c.params.map (·.value)) (by
        simp [zeros, hn, searchDim, hI.params.length_eq]) (amplitudeUnits_length hl hn)
    have e : linList (amplitudeUnits pd rd bs) (zeros (pd.map (·.declared)).sum ++ c.params.map (·.value)) =
        zeros ((pulsesInAmplitudes bs pd).map (·.declared)).sum ++ (c.inAmplitudes bs).params.map (·.value) := by
      rw [declared_amp hl]
      unfold linList amplitudeUnits
      rw [List.zipWith_append (by rw [ampBlock_length hl]; simp [zeros])]
      congr 1
      · rw [← ampBlock_length hl]
        have hz : ∀ w ∈ (List.zipWith (fun b d => List.replicate (PulseDict.declared d) (b, (0 : K))) bs pd).flatten, w.2 = 0 := by
          intro w hw
          obtain ⟨l, hl, hm⟩ := List.mem_flatten.1 hw
          obtain ⟨i, hi, rfl⟩ := List.getElem_of_mem hl
          rw [List.getElem_zipWith] at hm
          rw [(List.mem_replicate.1 hm).2]
        generalize (List.zipWith (fun b d => List.replicate (PulseDict.declared d) (b, (0 : K))) bs pd).flatten = l at hz
        unfold zeros
        apply List.ext_getElem
        · simp
        · intro i h1 h2
          simp only [List.getElem_zipWith, List.getElem_replicate, mul_zero, zero_add]
          exact hz _ (List.getElem_mem _)
      · rw [hI.params.length_eq, ← List.length_map (f := fun p : Param K => p.value), zipWith_replicate_left]
        simp
        rfl
    rw [e] at v2
    show RelPy _ (vecOfList n _) (vecOfList n _)
    rw [v1, v2]
    exact rfl
  sigma c c' h := by
    obtain ⟨h1, h2, rfl⟩ := h
    show RelPy _ (c.sigma >>= vecOfList n) ((c.inAmplitudes bs).sigma >>= vecOfList n)
    rw [C21_start_sizes_partial h1 hf, C21_start_sizes_partial h2 hf]
    have hl := ho.length_eq
    have hd : ((pd.map (fun d => List.replicate d.declared (d.startSize M))).flatten).length = (pd.map (·.declared)).sum := by
      simp [List.length_flatten, Function.comp_def]
    obtain ⟨v, v1, -, v2⟩ := vecOfList_inUnits (n := n) (ws := amplitudeUnits pd rd bs)
      (xs := (pd.map (fun d => List.replicate d.declared (d.startSize M))).flatten ++ rd.map (·.amplitudeVariation)) (by
        rw [List.length_append, hd, List.length_map, hn, searchDim]) (amplitudeUnits_length hl hn)
    have e : List.zipWith (fun u x => u.1 * x) (amplitudeUnits pd rd bs)
        ((pd.map (fun d => List.replicate d.declared (d.startSize M))).flatten ++ rd.map (·.amplitudeVariation)) =
        ((pulsesInAmplitudes bs pd).map (fun d => List.replicate d.declared (d.startSize M))).flatten ++ rd.map (·.amplitudeVariation) := by
      unfold amplitudeUnits
      rw [List.zipWith_append (by rw [ampBlock_length hl, hd]), sizes_amp hl]
      congr 1
      rw [← List.length_map (f := fun p : ParamDict K => p.amplitudeVariation), zipWith_replicate_left]
      simp
    rw [e] at v2
    show RelPy _ (vecOfList n _) (vecOfList n _)
    rw [v1, v2]
    exact rfl
  update c c' x h := by
    obtain ⟨h1, h2, rfl⟩ := h
    have key := updateBase_amp (CInv.of_reach h1) hf hb ho (xs := List.ofFn x) (by simp [hn])
    rw [← ofFn_inUnits (amplitudeUnits_length ho.length_eq hn)] at key
    show RelPy _ (c.updateBase M (List.ofFn x)) ((c.inAmplitudes bs).updateBase M (List.ofFn (vecInUnits (amplitudeUnits pd rd bs) x)))
    rcases hc : c.updateBase M (List.ofFn x) with er | c1
    · rw [key, hc]; rfl
    · rw [hc] at key
      rw [key]
      exact ⟨.base h1 hc, .base h2 key, rfl⟩
  select k c c' h := by
    obtain ⟨h1, h2, rfl⟩ := h
    have key := selectBasis_amp (bs := bs) (rnd k) (c := c) (ho.length_eq.trans (CInv.of_reach h1).reach.length_eq)
    show RelPy _ (c.selectBasis (rnd k)) ((c.inAmplitudes bs).selectBasis (rnd k))
    rcases hc : c.selectBasis (rnd k) with er | c1
    · rw [key, hc]; rfl
    · rw [hc] at key
      rw [key]
      exact ⟨.select h1 hc, .select h2 key, rfl⟩
  simplex k x sg := by
    show RelPy _ (simplexCreation sqrt x sg (draws k)) (simplexCreation sqrt _ _ (draws k))
    unfold simplexCreation
    split
    · rfl
    · show _ = List.map _ (_ :: _)
      rw [List.map_cons, List.map_map]
      congr 1
      · funext j; simp [vecInUnits]
      · apply List.map_congr_left
        intro i _
        funext j
        simp only [vecInUnits, sizesInUnits, Function.comp]
        ring

end
end QuOCS

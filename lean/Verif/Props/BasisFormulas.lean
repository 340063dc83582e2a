import Verif.Props.Bases
import Verif.Lemmas.ErrorFn
import Mathlib.Analysis.SpecialFunctions.Trigonometric.Bounds
import Mathlib.Analysis.Real.Pi.Bounds
import Mathlib.Analysis.Complex.ExponentialBounds

/-!
# C87, C88: the pulses of the bases follow the documented formulas
-/
set_option linter.unusedSectionVars false
set_option linter.unusedVariables false
namespace QuOCS
open Finset

section formulas
variable {M : MathFns ℝ} {d : PulseDict ℝ} {p : Pulse ℝ} {X : List ℝ} {n : ℕ} {T : ℝ}

theorem linspace0_get (T : ℝ) {b j : ℕ} (hj : j < b) : (linspace0 T b)[j]? = some (sampleTime T b j) := by
  simp [linspace0, sampleTime, List.getElem?_range hj]

/-- Reading a pulse that is a function of the time. -/
theorem bare_samples {f : ℝ → ℝ} (hr : PulseReach M d p) (h : (p.setInputs X T).shaped M = .ok ((linspace0 T p.binsNumber).map f)) :
    ∃ q u, p.getBarePulse M X T = .ok (q, u) ∧ u.length = d.binsNumber ∧
      ∀ j < d.binsNumber, u[j]? = some (f (sampleTime T d.binsNumber j)) := by
  have hbins := hr.fields.2.2.2.2.1
  refine ⟨_, _, bare_of_shaped h, by simp [linspace0, hbins], fun j hj => ?_⟩
  rw [List.getElem?_map, linspace0_get T (by rw [hbins]; exact hj), hbins]
  rfl

/-- **C87, Fourier.** The update pulse is the documented sum, at every sample. -/
theorem C87_fourier (hM : M.Standard) (hr : PulseReach M d p) (hb : d.basis = .fourier n) (hX : X.length = 2 * n) (T : ℝ) :
    ∃ q u, p.getBarePulse M X T = .ok (q, u) ∧ u.length = d.binsNumber ∧ ∀ j < d.binsNumber, u[j]? =
      some (docFourier n (fun i => X.getD (2 * i) 0) (fun i => X.getD (2 * i + 1) 0) (fun i => p.w.getD i 0) T
        (sampleTime T d.binsNumber j)) := by
  obtain ⟨hw, _⟩ := hr.w_length
  have hbas := hr.fields.2.2.2.2.2.2.2.2
  rw [hb] at hw
  have h : (p.setInputs X T).shaped M = .ok ((linspace0 T p.binsNumber).map (fourierVal M n p.w X T)) := by
    simp only [Pulse.shaped, Pulse.setInputs, hbas, hb]
    exact fourier_closed M hw (by omega) (by simp [linspace0])
  obtain ⟨q, u, h1, h2, h3⟩ := bare_samples hr h
  refine ⟨q, u, h1, h2, fun j hj => ?_⟩
  rw [h3 j hj]
  simp only [fourierVal, docFourier, hM.sin, hM.cos, hM.pi]

/-- **C87, piecewise.** The update pulse has the value `A_j` in interval `j`. -/
theorem C87_piecewise (hr : PulseReach M d p) (hb : d.basis = .piecewise) (hX : X.length = d.binsNumber) (T : ℝ) :
    ∃ q u, p.getBarePulse M X T = .ok (q, u) ∧ u.length = d.binsNumber ∧ ∀ j < d.binsNumber, u[j]? = X[j]? := by
  have hbas := hr.fields.2.2.2.2.2.2.2.2
  have h : (p.setInputs X T).shaped M = .ok X := by simp only [Pulse.shaped, Pulse.setInputs, hbas, hb]
  exact ⟨_, _, bare_of_shaped h, hX, fun _ _ => rfl⟩

theorem sincFn_near (hM : M.Standard) (x : ℝ) : |sincFn M x - Real.sinc x| ≤ 1 / 10 ^ 40 := by
  unfold sincFn
  rw [hM.sin]
  by_cases hx : x = 0
  · subst hx
    simp only [if_true, Real.sinc_zero]
    have h0 : (0 : ℝ) < 1 / 10 ^ 20 := by norm_num
    have h1 := (Real.sin_gt_sub_cube h0).le
    have h2 := (Real.sin_lt h0).le
    rw [abs_le]
    constructor
    · rw [neg_le_sub_iff_le_add, ← sub_le_iff_le_add, le_div_iff₀ h0]
      refine le_trans ?_ h1
      norm_num
    · rw [sub_le_iff_le_add, div_le_iff₀ h0]
      refine h2.trans ?_
      norm_num
  · simp only [hx, if_false]
    rw [Real.sinc_of_ne_zero hx]
    simp

theorem sum_near {n : ℕ} {f g e : ℕ → ℝ} (h : ∀ i < n, |f i - g i| ≤ e i) :
    |∑ i ∈ range n, f i - ∑ i ∈ range n, g i| ≤ ∑ i ∈ range n, e i := by
  rw [← Finset.sum_sub_distrib]
  exact (Finset.abs_sum_le_sum_abs _ _).trans (Finset.sum_le_sum fun i hi => h i (Finset.mem_range.1 hi))

/-- **C87, Sinc.** The update pulse is the documented sum, at every sample, up to a relative error of `10⁻⁴⁰` where a peak is hit
exactly (Sinc.py:63 replaces the argument `0`). -/
theorem C87_sinc {ωmax : ℝ} (hM : M.Standard) (hr : PulseReach M d p) (hb : d.basis = .sinc n ωmax) (hX : X.length = n) (T : ℝ) :
    ∃ q u, p.getBarePulse M X T = .ok (q, u) ∧ u.length = d.binsNumber ∧ ∀ j < d.binsNumber, ∃ y, u[j]? = some y ∧
      |y - docSinc n (fun i => X.getD i 0) (fun i => p.w.getD i 0) ωmax T (sampleTime T d.binsNumber j)| ≤
        1 / 10 ^ 40 * ∑ i ∈ range n, |X.getD i 0| := by
  obtain ⟨hw, _⟩ := hr.w_length
  have hbas := hr.fields.2.2.2.2.2.2.2.2
  rw [hb] at hw
  have h : (p.setInputs X T).shaped M = .ok ((linspace0 T p.binsNumber).map (sincVal M ωmax n p.w X T)) := by
    simp only [Pulse.shaped, Pulse.setInputs, hbas, hb]
    exact sinc_closed M ωmax hw (by omega) (by simp [linspace0])
  obtain ⟨q, u, h1, h2, h3⟩ := bare_samples hr h
  refine ⟨q, u, h1, h2, fun j hj => ⟨_, h3 j hj, ?_⟩⟩
  rw [Finset.mul_sum]
  refine sum_near fun i hi => ?_
  rw [hM.pi, ← mul_sub, abs_mul, mul_comm]
  exact mul_le_mul_of_nonneg_right (sincFn_near hM _) (abs_nonneg _)

/-- The inverse cosine moves by at most `π √(|a-b|/2)`. -/
theorem arccos_near {a b : ℝ} (ha : -1 ≤ a) (ha' : a ≤ 1) (hb : -1 ≤ b) (hb' : b ≤ 1) :
    2 * (|Real.arccos a - Real.arccos b| / Real.pi) ^ 2 ≤ |a - b| := by
  wlog hab : Real.arccos b ≤ Real.arccos a generalizing a b
  · have := this hb hb' ha ha' (le_of_not_ge hab)
    rwa [abs_sub_comm, abs_sub_comm b a] at this
  have hpi := Real.pi_pos
  have a0 := Real.arccos_nonneg a
  have a1 := Real.arccos_le_pi a
  have b0 := Real.arccos_nonneg b
  have b1 := Real.arccos_le_pi b
  have hd : a - b = -2 * Real.sin ((Real.arccos a + Real.arccos b) / 2) * Real.sin ((Real.arccos a - Real.arccos b) / 2) := by
    rw [← Real.cos_sub_cos, Real.cos_arccos ha ha', Real.cos_arccos hb hb']
  set δ := (Real.arccos a - Real.arccos b) / 2 with hδ
  set m := (Real.arccos a + Real.arccos b) / 2 with hm
  have h0 : 0 ≤ δ := by rw [hδ]; linarith
  have hs : 2 / Real.pi * δ ≤ Real.sin δ := Real.mul_le_sin h0 (by rw [hδ]; linarith)
  have hs0 : 0 ≤ 2 / Real.pi * δ := by positivity
  have hms : Real.sin δ ≤ Real.sin m := by
    by_cases hmp : m ≤ Real.pi / 2
    · exact Real.sin_le_sin_of_le_of_le_pi_div_two (by linarith) hmp (by rw [hδ, hm]; linarith)
    · rw [← Real.sin_pi_sub m]
      exact Real.sin_le_sin_of_le_of_le_pi_div_two (by linarith) (by linarith) (by rw [hδ, hm]; linarith)
  rw [hd, abs_mul, abs_mul, abs_of_nonneg (a := Real.sin δ) (by linarith), abs_of_nonneg (a := Real.sin m) (by linarith),
    abs_of_nonneg (a := Real.arccos a - Real.arccos b) (by linarith)]
  have e : (Real.arccos a - Real.arccos b) / Real.pi = 2 / Real.pi * δ := by rw [hδ]; ring
  rw [e]
  norm_num
  nlinarith [mul_le_mul (hs.trans hms) hs hs0 (by linarith : (0:ℝ) ≤ Real.sin m)]

/-- The argument of the inverse cosine in the Chebyshev basis (Chebyshev.py:70-71), compared with the documented one. -/
theorem chebyshev_arg {x : ℝ} (h0 : 0 ≤ x) (h1 : x ≤ 1) :
    |Real.arccos (-1 + 1 / 10 ^ 10 + 2 * (1 - 1 / 10 ^ 10) * x) - Real.arccos (-1 + 2 * x)| ≤ 3 / 10 ^ 5 := by
  have h := arccos_near (a := -1 + 1 / 10 ^ 10 + 2 * (1 - 1 / 10 ^ 10) * x) (b := -1 + 2 * x) (by nlinarith) (by nlinarith)
    (by linarith) (by linarith)
  set δ := |Real.arccos (-1 + 1 / 10 ^ 10 + 2 * (1 - 1 / 10 ^ 10) * x) - Real.arccos (-1 + 2 * x)|
  have hab : |-1 + 1 / 10 ^ 10 + 2 * (1 - 1 / 10 ^ 10) * x - (-1 + 2 * x)| ≤ 1 / 10 ^ 10 := by
    rw [abs_le]; constructor <;> nlinarith
  have h2 := h.trans hab
  have hpi := Real.pi_pos
  have hpi2 := Real.pi_lt_four
  by_contra hcon
  rw [not_le] at hcon
  have h3 : 3 / 10 ^ 5 / 4 < δ / Real.pi := by
    rw [div_lt_div_iff₀ (by norm_num) hpi]
    nlinarith
  nlinarith

/-- **C87, Chebyshev.** The update pulse is the documented sum, at every sample, up to `3·10⁻⁵ Σ |A_i| |ω_i|`; the argument of the
inverse cosine is moved into the interval [-1,1] by `10⁻¹⁰` (Chebyshev.py:70). -/
theorem C87_chebyshev (hM : M.Standard) (hr : PulseReach M d p) (hb : d.basis = .chebyshev n) (hX : X.length = 2 * n) {T : ℝ}
    (hT : 0 < T) (h2 : 2 ≤ d.binsNumber) :
    ∃ q u, p.getBarePulse M X T = .ok (q, u) ∧ u.length = d.binsNumber ∧ ∀ j < d.binsNumber, ∃ y, u[j]? = some y ∧
      |y - docChebyshev n (fun i => X.getD (2 * i) 0) (fun i => X.getD (2 * i + 1) 0) (fun i => p.w.getD i 0) T
        (sampleTime T d.binsNumber j)| ≤ 3 / 10 ^ 5 * ∑ i ∈ range n, |X.getD (2 * i) 0| * |p.w.getD i 0| := by
  obtain ⟨hw, _⟩ := hr.w_length
  have hbas := hr.fields.2.2.2.2.2.2.2.2
  rw [hb] at hw
  have h : (p.setInputs X T).shaped M = .ok ((linspace0 T p.binsNumber).map (chebyshevVal M n p.w X T)) := by
    simp only [Pulse.shaped, Pulse.setInputs, hbas, hb]
    exact chebyshev_closed M hw (by omega) (by simp [linspace0])
  obtain ⟨q, u, h1, hl, h3⟩ := bare_samples hr h
  refine ⟨q, u, h1, hl, fun j hj => ⟨_, h3 j hj, ?_⟩⟩
  rw [Finset.mul_sum]
  refine sum_near fun i hi => ?_
  rw [hM.cos, hM.arccos, ← mul_sub, abs_mul]
  have hc : ∀ x y : ℝ, |Real.cos x - Real.cos y| ≤ |x - y| := by
    intro x y
    rw [Real.cos_sub_cos, abs_mul, abs_mul]
    have := Real.abs_sin_le_one ((x + y) / 2)
    have h' := Real.abs_sin_le_abs (x := (x - y) / 2)
    rw [abs_div] at h'
    norm_num at h' ⊢
    nlinarith [abs_nonneg (Real.sin ((x + y) / 2)), abs_nonneg (Real.sin ((x - y) / 2))]
  have hx : sampleTime T d.binsNumber j / T = j / ((d.binsNumber - 1 : ℕ) : ℝ) := by
    unfold sampleTime
    field_simp
  have hb1 : (0 : ℝ) < ((d.binsNumber - 1 : ℕ) : ℝ) := by exact_mod_cast (by omega : 0 < d.binsNumber - 1)
  have hx0 : 0 ≤ sampleTime T d.binsNumber j / T := by rw [hx]; positivity
  have hx1 : sampleTime T d.binsNumber j / T ≤ 1 := by
    rw [hx, div_le_one hb1]
    exact_mod_cast (by omega : j ≤ d.binsNumber - 1)
  have ha := chebyshev_arg hx0 hx1
  rw [← mul_div_assoc, ← mul_div_assoc] at ha
  calc _ ≤ |X.getD (2 * i) 0| * (|p.w.getD i 0| * (3 / 10 ^ 5)) := by
        refine mul_le_mul_of_nonneg_left ((hc _ _).trans ?_) (abs_nonneg _)
        rw [add_sub_add_right_eq_sub, ← mul_sub, abs_mul]
        exact mul_le_mul_of_nonneg_left ha (abs_nonneg _)
    _ = _ := by ring

/-- **C87, Sigmoid.** The update pulse is a sum of documented steps: the first at `offset`, one at every random time, and a last one at
`T - offset` which undoes all the others. -/
theorem C87_sigmoid {offset σ : ℝ} (hM : M.Standard) (hr : PulseReach M d p) (hb : d.basis = .sigmoid n offset σ)
    (hX : X.length = n + 1) (T : ℝ) :
    ∃ q u, p.getBarePulse M X T = .ok (q, u) ∧ u.length = d.binsNumber ∧ ∀ j < d.binsNumber, u[j]? =
      some (docStep (X.getD 0 0) offset σ (sampleTime T d.binsNumber j) +
        ∑ i ∈ range n, docStep (X.getD (i + 1) 0) (p.w.getD i 0) σ (sampleTime T d.binsNumber j) +
        docStep (-X.sum) (T - offset) σ (sampleTime T d.binsNumber j)) := by
  obtain ⟨hw, _⟩ := hr.w_length
  have hbas := hr.fields.2.2.2.2.2.2.2.2
  rw [hb] at hw
  have h : (p.setInputs X T).shaped M =
      .ok ((linspace0 T p.binsNumber).map (sigmoidVal M n offset σ true X p.w (List.replicate n σ) T)) := by
    simp only [Pulse.shaped, Pulse.setInputs, hbas, hb]
    rw [sigmoidShape_eq_build M n offset σ _ _ _ _ _ hw]
    exact sigmoidBuild_closed M offset σ true (by omega) (by rw [hw]; rfl) (by simp) (by simp [linspace0])
  obtain ⟨q, u, h1, h2, h3⟩ := bare_samples hr h
  refine ⟨q, u, h1, h2, fun j hj => ?_⟩
  rw [h3 j hj]
  simp only [sigmoidVal, docStep, sigStep, hM.erf, hM.sqrt2, if_true]
  congr 1
  have e : ∀ i ∈ range n, X.getD (i + 1) 0 / 2 *
      (errorFn ((sampleTime T d.binsNumber j - p.w.getD i 0) / (√2 * (List.replicate n σ).getD i 0)) + 1) =
      X.getD (i + 1) 0 * (1 / 2) * (1 + errorFn ((sampleTime T d.binsNumber j - p.w.getD i 0) / (√2 * σ))) := by
    intro i hi
    rw [List.getD_eq_getElem?_getD (l := List.replicate n σ), List.getElem?_replicate, if_pos (Finset.mem_range.1 hi)]
    simp only [Option.getD_some]
    ring
  rw [Finset.sum_congr rfl e]
  ring

/-! ### C88: the ends of a sigmoid pulse -/

theorem docStep_start {A τ σ offset : ℝ} (hσ : 0 < σ) (ho : 0 ≤ offset) (hτ : offset ≤ τ) :
    |docStep A τ σ 0| ≤ |A| * (1 / 2) * Real.exp (-(offset / (√2 * σ)) ^ 2) := by
  have hs : 0 < √2 * σ := by positivity
  unfold docStep
  rw [abs_mul, abs_mul, abs_of_pos (by norm_num : (0 : ℝ) < 1 / 2)]
  refine mul_le_mul_of_nonneg_left ?_ (by positivity)
  have e : (0 - τ) / (√2 * σ) = -(τ / (√2 * σ)) := by ring
  rw [e, errorFn_neg]
  have h1 := errorFn_lt_one (τ / (√2 * σ))
  rw [abs_of_pos (by linarith)]
  have h2 := errorFn_tail_le (x := τ / (√2 * σ)) (by have := ho.trans hτ; positivity)
  refine le_trans (by linarith) (h2.trans (Real.exp_le_exp.2 ?_))
  have h3 : offset / (√2 * σ) ≤ τ / (√2 * σ) := by gcongr
  have h4 : 0 ≤ offset / (√2 * σ) := by positivity
  nlinarith

/-- The step, as seen from its upper level. -/
theorem docStep_end {A τ σ offset T : ℝ} (hσ : 0 < σ) (ho : 0 ≤ offset) (hτ : τ ≤ T - offset) :
    |docStep A τ σ T - A| ≤ |A| * (1 / 2) * Real.exp (-(offset / (√2 * σ)) ^ 2) := by
  have e : docStep A τ σ T - A = -docStep A (T - τ) σ 0 := by
    unfold docStep
    have : (0 - (T - τ)) / (√2 * σ) = -((T - τ) / (√2 * σ)) := by ring
    rw [this, errorFn_neg]
    ring
  rw [e, abs_neg]
  exact docStep_start hσ ho (by linarith)

theorem list_sum_range (X : List ℝ) {n : ℕ} (hX : X.length = n + 1) : X.sum = X.getD 0 0 + ∑ i ∈ range n, X.getD (i + 1) 0 := by
  match X, hX with
  | x :: Y, h =>
    have : Y.length = n := by simpa using h
    subst this
    simp only [List.sum_cons, List.getD_cons_zero, List.getD_cons_succ, add_right_inj]
    rw [Finset.sum_range]
    simp [← List.sum_ofFn]

/-- **C88, partial.** A Sigmoid update starts and ends near zero: with all step times between `offset` and `T - offset`, the first and the
last sample are below `e^{-(offset/σ)²/2}` times half the sum of the sizes of all steps. Missing, because it is false: that they
are zero. -/
theorem C88_sigmoid_ends_partial {offset σ T : ℝ} (hM : M.Standard) (hr : PulseReach M d p) (hb : d.basis = .sigmoid n offset σ)
    (hX : X.length = n + 1) (hσ : 0 < σ) (ho : 0 ≤ offset) (hT : 2 * offset ≤ T) (h2 : 2 ≤ d.binsNumber)
    (hw : ∀ τ ∈ p.w, offset ≤ τ ∧ τ ≤ T - offset) :
    ∃ q u first last, p.getBarePulse M X T = .ok (q, u) ∧ u.length = d.binsNumber ∧ u[0]? = some first ∧
      u[d.binsNumber - 1]? = some last ∧
      |first| ≤ (1 / 2) * ((X.map abs).sum + |X.sum|) * Real.exp (-(offset / (√2 * σ)) ^ 2) ∧
      |last| ≤ (1 / 2) * ((X.map abs).sum + |X.sum|) * Real.exp (-(offset / (√2 * σ)) ^ 2) := by
  obtain ⟨q, u, h1, hl, h3⟩ := C87_sigmoid hM hr hb hX T
  refine ⟨q, u, _, _, h1, hl, h3 0 (by omega), h3 _ (by omega), ?_, ?_⟩
  all_goals set E := Real.exp (-(offset / (√2 * σ)) ^ 2)
  all_goals
    have hwl : p.w.length = n := by have := hr.w_length.1; rw [hb] at this; exact this
    have hwi : ∀ i < n, offset ≤ p.w.getD i 0 ∧ p.w.getD i 0 ≤ T - offset := by
      intro i hi
      rw [List.getD_eq_getElem?_getD, List.getElem?_eq_getElem (by omega)]
      exact hw _ (List.getElem_mem _)
    have hsum : (X.map abs).sum = |X.getD 0 0| + ∑ i ∈ range n, |X.getD (i + 1) 0| := by
      rw [list_sum_range (X.map abs) (n := n) (by simpa using hX)]
      have : ∀ i, (X.map abs).getD i 0 = |X.getD i 0| := by
        intro i
        simp only [List.getD_eq_getElem?_getD, List.getElem?_map]
        cases X[i]? <;> simp
      simp only [this]
    have hb1 : (0 : ℝ) < ((d.binsNumber - 1 : ℕ) : ℝ) := by exact_mod_cast (by omega : 0 < d.binsNumber - 1)
  · have ht : sampleTime T d.binsNumber 0 = 0 := by simp [sampleTime]
    rw [ht]
    have a := docStep_start (A := X.getD 0 0) hσ ho le_rfl
    have b := docStep_start (A := -X.sum) (τ := T - offset) hσ ho (by linarith)
    rw [abs_neg] at b
    have c : |∑ i ∈ range n, docStep (X.getD (i + 1) 0) (p.w.getD i 0) σ 0| ≤ ∑ i ∈ range n, |X.getD (i + 1) 0| * (1 / 2) * E :=
      (Finset.abs_sum_le_sum_abs _ _).trans (Finset.sum_le_sum fun i hi =>
        docStep_start hσ ho (hwi i (Finset.mem_range.1 hi)).1)
    rw [← Finset.sum_mul, ← Finset.sum_mul] at c
    refine (abs_add_three _ _ _).trans ?_
    rw [hsum]
    linarith
  · have ht : sampleTime T d.binsNumber (d.binsNumber - 1) = T := by unfold sampleTime; field_simp
    rw [ht]
    have a := docStep_end (A := X.getD 0 0) (τ := offset) (T := T) hσ ho (by linarith)
    have b := docStep_end (A := -X.sum) (τ := T - offset) (T := T) hσ ho le_rfl
    rw [abs_neg] at b
    have c : |∑ i ∈ range n, docStep (X.getD (i + 1) 0) (p.w.getD i 0) σ T - ∑ i ∈ range n, X.getD (i + 1) 0| ≤
        ∑ i ∈ range n, |X.getD (i + 1) 0| * (1 / 2) * E :=
      sum_near fun i hi => docStep_end hσ ho (hwi i hi).2
    rw [← Finset.sum_mul, ← Finset.sum_mul] at c
    have hx := list_sum_range X hX
    have e : docStep (X.getD 0 0) offset σ T + ∑ i ∈ range n, docStep (X.getD (i + 1) 0) (p.w.getD i 0) σ T +
        docStep (-X.sum) (T - offset) σ T = (docStep (X.getD 0 0) offset σ T - X.getD 0 0) +
        (∑ i ∈ range n, docStep (X.getD (i + 1) 0) (p.w.getD i 0) σ T - ∑ i ∈ range n, X.getD (i + 1) 0) +
        (docStep (-X.sum) (T - offset) σ T - -X.sum) := by rw [hx]; ring
    rw [e]
    refine (abs_add_three _ _ _).trans ?_
    rw [hsum]
    linarith

/-- **C88 is violated**: with the documented defaults `offset = sigma = 0.1` and any duration of at least 0.3, an update with a first
step of size `a > 0` and no other steps starts with more than 5% of `a` instead of zero. -/
theorem C88_sigmoid_starts_above_zero {T a : ℝ} (hM : M.Standard) (hr : PulseReach M d p)
    (hb : d.basis = .sigmoid n (1 / 10) (1 / 10)) (hT : 3 / 10 ≤ T) (ha : 0 < a) (h1 : 1 ≤ d.binsNumber) :
    ∃ q u first, p.getBarePulse M (a :: List.replicate n 0) T = .ok (q, u) ∧ u[0]? = some first ∧ a / 20 < first := by
  obtain ⟨q, u, h2, hl, h3⟩ := C87_sigmoid (X := a :: List.replicate n 0) hM hr hb (by simp) T
  refine ⟨q, u, _, h2, h3 0 h1, ?_⟩
  have ht : sampleTime T d.binsNumber 0 = 0 := by simp [sampleTime]
  rw [ht]
  have hz : ∑ i ∈ range n, docStep ((a :: List.replicate n 0).getD (i + 1) 0) (p.w.getD i 0) (1 / 10) 0 = 0 := by
    refine Finset.sum_eq_zero fun i hi => ?_
    have : (a :: List.replicate n (0 : ℝ)).getD (i + 1) 0 = 0 := by
      simp [List.getD_eq_getElem?_getD, Finset.mem_range.1 hi]
    rw [this]
    simp [docStep]
  have hs : (a :: List.replicate n 0).sum = a := by simp
  rw [hz, hs]
  have hq : 0 < √2 := by positivity
  have hq2 : √2 * √2 = 2 := Real.mul_self_sqrt (by norm_num)
  have e1 : docStep ((a :: List.replicate n 0).getD 0 0) (1 / 10) (1 / 10) 0 = a / 2 * (1 - errorFn (√2 / 2)) := by
    unfold docStep
    have : (0 - 1 / 10) / (√2 * (1 / 10)) = -(√2 / 2) := by
      field_simp
      nlinarith
    rw [this, errorFn_neg]
    simp
    ring
  have e2 : docStep (-a) (T - 1 / 10) (1 / 10) 0 = -(a / 2) * (1 - errorFn ((T - 1 / 10) / (√2 * (1 / 10)))) := by
    unfold docStep
    have : (0 - (T - 1 / 10)) / (√2 * (1 / 10)) = -((T - 1 / 10) / (√2 * (1 / 10))) := by ring
    rw [this, errorFn_neg]
    ring
  rw [e1, e2]
  have hm : errorFn √2 ≤ errorFn ((T - 1 / 10) / (√2 * (1 / 10))) := by
    refine errorFn_strictMono.monotone ?_
    rw [le_div_iff₀ (by positivity)]
    nlinarith
  have hg := errorFn_sub_ge (a := √2 / 2) (b := √2) (by positivity) (by linarith)
  have hsq : √2 ^ 2 = 2 := Real.sq_sqrt (by norm_num)
  rw [hsq] at hg
  have hexp : (27 / 200 : ℝ) < Real.exp (-2) := by
    have h := Real.exp_neg_one_gt_d9
    have : Real.exp (-2) = Real.exp (-1) * Real.exp (-1) := by rw [← Real.exp_add]; norm_num
    rw [this]
    nlinarith [Real.exp_pos (-1)]
  have hr2 : 14 / 10 < √2 := by rw [Real.lt_sqrt (by norm_num)]; norm_num
  have hpi : √Real.pi < 178 / 100 := by
    rw [Real.sqrt_lt' (by norm_num)]
    have := Real.pi_lt_d2
    norm_num at this ⊢
    linarith
  have hp := sqrt_pi_pos
  have hfin : 1 / 10 < 2 / √Real.pi * ((√2 - √2 / 2) * Real.exp (-2)) := by
    rw [div_mul_eq_mul_div, lt_div_iff₀ hp]
    have : 7 / 10 * (27 / 200) ≤ (√2 - √2 / 2) * Real.exp (-2) := by
      refine mul_le_mul (by linarith) hexp.le (by norm_num) (by linarith)
    nlinarith
  nlinarith

/-! ### The hypotheses are met -/

/-- the functions of real analysis -/
noncomputable def standardFns : MathFns ℝ :=
  { sin := Real.sin, cos := Real.cos, arccos := Real.arccos, erf := errorFn, pi := Real.pi, sqrt2 := √2 }

theorem standardFns_standard : standardFns.Standard := ⟨rfl, rfl, rfl, rfl, rfl, rfl⟩

/-- a pulse with three samples and a given basis -/
noncomputable def exBasisPulse (b : Basis ℝ) : PulseDict ℝ :=
  { pulseName := "p", timeName := "t", binsNumber := 3, lowerLimit := -1, upperLimit := 1, amplitudeVariation := 1
    shrink := false, guess := .array [0, 0, 0], scaling := .array [1, 1, 1], shapingOptions := none, overwrite := false
    basis := b, wLower := 0, wUpper := 1 }

/-- The pulse of a basis with one super parameter, drawn as `1/2`. -/
theorem exBasisPulse_reach {b : Basis ℝ} (hb : basisSuper b = 1) (hp : basisParams 3 b ≠ 0) :
    ∃ p, PulseReach standardFns (exBasisPulse b) p ∧ p.w = [1 / 2] := by
  have h : ∃ q, mkPulse standardFns (-1) (exBasisPulse b) = .ok q ∧ q.basis = b ∧ q.wLower = 0 ∧ q.wUpper = 1 := by
    unfold mkPulse exBasisPulse
    simp only [hp, if_false]
    exact ⟨_, rfl, rfl, rfl, rfl⟩
  obtain ⟨q, hq, h1, h2, h3⟩ := h
  have h4 : ∃ p, q.drawSuper [1 / 2] = .ok p ∧ p.w = [1 / 2] := by
    unfold Pulse.drawSuper
    rw [h1, hb, h2, h3]
    exact ⟨_, rfl, by norm_num⟩
  obtain ⟨p, hp, hw⟩ := h4
  exact ⟨p, .draw (.create hq) hp, hw⟩

example : ∃ p, PulseReach standardFns (exBasisPulse (.fourier 1)) p ∧ p.w = [1 / 2] ∧ ([1, 2] : List ℝ).length = 2 * 1 := by
  obtain ⟨p, h, hw⟩ := exBasisPulse_reach (b := .fourier 1) rfl (by decide)
  exact ⟨p, h, hw, rfl⟩

example : ∃ p, PulseReach standardFns (exBasisPulse (.chebyshev 1)) p ∧ p.w = [1 / 2] ∧ ([1, 2] : List ℝ).length = 2 * 1 ∧
    2 ≤ (exBasisPulse (.chebyshev 1)).binsNumber := by
  obtain ⟨p, h, hw⟩ := exBasisPulse_reach (b := .chebyshev 1) rfl (by decide)
  exact ⟨p, h, hw, rfl, by decide⟩

example : ∃ p, PulseReach standardFns (exBasisPulse (.sinc 1 1)) p ∧ p.w = [1 / 2] ∧ ([2] : List ℝ).length = 1 := by
  obtain ⟨p, h, hw⟩ := exBasisPulse_reach (b := .sinc 1 1) rfl (by simp [basisParams])
  exact ⟨p, h, hw, rfl⟩

/-- Three bins, three coefficients. -/
example : ∃ p, PulseReach standardFns (exBasisPulse .piecewise) p ∧ ([1, 2, 3] : List ℝ).length = (exBasisPulse .piecewise).binsNumber := by
  have h : ∃ q, mkPulse standardFns (-1) (exBasisPulse .piecewise) = .ok q := ⟨_, rfl⟩
  obtain ⟨q, h⟩ := h
  exact ⟨q, .create h, rfl⟩

/-- Sigmoid with `offset = sigma = 0.1` and `T = 1`: the step time `1/2` is inside. -/
example : ∃ p, PulseReach standardFns (exBasisPulse (.sigmoid 1 (1 / 10) (1 / 10))) p ∧ ([2, 1] : List ℝ).length = 1 + 1 ∧
    (0 : ℝ) < 1 / 10 ∧ 2 * (1 / 10 : ℝ) ≤ 1 ∧ (∀ τ ∈ p.w, (1 / 10 : ℝ) ≤ τ ∧ τ ≤ 1 - 1 / 10) := by
  obtain ⟨p, h, hw⟩ := exBasisPulse_reach (b := .sigmoid 1 (1 / 10) (1 / 10)) rfl (by simp [basisParams])
  refine ⟨p, h, rfl, by norm_num, by norm_num, ?_⟩
  rw [hw]
  intro τ hτ
  obtain rfl := List.mem_singleton.1 hτ
  norm_num

end formulas
end QuOCS

import Verif.Props.BasisFormulas
import Verif.Lemmas.ZeroUpdate

/-!
# C106: what the Walsh basis computes
-/
set_option linter.unusedSectionVars false
set_option linter.unusedVariables false
namespace QuOCS
open Finset

section walsh
variable {M : MathFns ℝ} {d : PulseDict ℝ} {p : Pulse ℝ} {X g : List ℝ} {n : ℕ} {T : ℝ}

/-- Adding an update to the guess, limiting and subtracting the guess: `limit(g + u) - g`. -/
theorem walsh_shaped (hr : PulseReach M d p) (hb : d.basis = .walsh n) (hX : X.length = 2 * n) (hg : d.guess = .array g)
    (hgl : g.length = d.binsNumber)
    (hgin : ∀ y ∈ g, min d.lowerLimit d.upperLimit ≤ y ∧ y ≤ max d.lowerLimit d.upperLimit) (h1 : 1 ≤ d.binsNumber) (T : ℝ) :
    ∃ o, p.limited (List.zipWith (· + ·) g ((linspace0 T d.binsNumber).map (fourierVal M n p.w X T))) = .ok o ∧
      o.length = d.binsNumber ∧ (p.setInputs X T).shaped M = .ok (List.zipWith (· - ·) o g) := by
  obtain ⟨hw, _⟩ := hr.w_length
  obtain ⟨hlo, hup, hsh, -, hbins, -, hgu, -, hbas⟩ := hr.fields
  rw [hb] at hw
  have hf := fourier_closed M (n := n) (w := p.w) (X := X) (T := T) hw (by omega) (t := linspace0 T p.binsNumber) (b := p.binsNumber) (by simp [linspace0])
  rw [hbins] at hf
  have hl : (List.zipWith (· + ·) g ((linspace0 T d.binsNumber).map (fourierVal M n p.w X T))).length = d.binsNumber := by
    simp [linspace0, hgl]
  obtain ⟨o, ho, hol⟩ := limited_exists (p := p) hr.ordered (by rw [hl]; exact h1)
  rw [hl] at hol
  refine ⟨o, ho, hol, ?_⟩
  obtain ⟨g', hg', -⟩ := limited_exists (p := p) (u := g) hr.ordered (by rw [hgl]; exact h1)
  have hgg := limited_inside hg' hr.ordered (by rw [hlo, hup]; exact hgin)
  rw [hgg] at hg'
  have e1 : ∀ v, (p.setInputs X T).limited v = p.limited v := fun _ => rfl
  have e2 : (p.setInputs X T).initialGuess = .ok g := by
    have : (p.setInputs X T).guess = .array g := hgu.trans hg
    unfold Pulse.initialGuess
    rw [this]
    exact hg'
  unfold Pulse.shaped
  have hbs : (p.setInputs X T).basis = .walsh n := hbas.trans hb
  rw [hbs]
  simp only [Pulse.addInitialGuess, e2]
  have hf' : sumTerms (zeros (p.setInputs X T).binsNumber) n
      (fourierTerm M (p.setInputs X T).w (p.setInputs X T).params (p.setInputs X T).timeGrid (p.setInputs X T).finalTime) =
        .ok ((linspace0 T d.binsNumber).map (fourierVal M n p.w X T)) := by
    show sumTerms (zeros p.binsNumber) n (fourierTerm M p.w X (linspace0 T p.binsNumber) T) = _
    rw [hbins]; exact hf
  rw [hf']
  show (bop (· + ·) g _ >>= fun o => p.limited o >>= fun o => bop (· - ·) o g) = _
  rw [bop_eq (by simp [linspace0, hgl])]
  show (p.limited _ >>= fun o => bop (· - ·) o g) = _
  rw [ho]
  show bop (· - ·) o g = _
  rw [bop_eq (by rw [hol, hgl])]

/-- **C106, what is computed.** In the Walsh basis the update is the sum of the *Fourier* basis with the same coefficients and super
parameters, as long as guess plus update stay inside the limits (for a guess given by samples inside the limits). It is not a
combination of square waves. -/
theorem C106_walsh_is_fourier_partial (hM : M.Standard) (hr : PulseReach M d p) (hb : d.basis = .walsh n) (hX : X.length = 2 * n)
    (hg : d.guess = .array g) (hgl : g.length = d.binsNumber)
    (hgin : ∀ y ∈ g, min d.lowerLimit d.upperLimit ≤ y ∧ y ≤ max d.lowerLimit d.upperLimit)
    (hin : ∀ j < d.binsNumber, ∀ y, g[j]? = some y →
      min d.lowerLimit d.upperLimit ≤ y + docFourier n (fun i => X.getD (2 * i) 0) (fun i => X.getD (2 * i + 1) 0)
        (fun i => p.w.getD i 0) T (sampleTime T d.binsNumber j) ∧
      y + docFourier n (fun i => X.getD (2 * i) 0) (fun i => X.getD (2 * i + 1) 0)
        (fun i => p.w.getD i 0) T (sampleTime T d.binsNumber j) ≤ max d.lowerLimit d.upperLimit)
    (h1 : 1 ≤ d.binsNumber) :
    ∃ q u, p.getBarePulse M X T = .ok (q, u) ∧ u.length = d.binsNumber ∧ ∀ j < d.binsNumber, u[j]? =
      some (docFourier n (fun i => X.getD (2 * i) 0) (fun i => X.getD (2 * i + 1) 0) (fun i => p.w.getD i 0) T
        (sampleTime T d.binsNumber j)) := by
  obtain ⟨o, ho, hol, hs⟩ := walsh_shaped hr hb hX hg hgl hgin h1 T
  have hv : ∀ j < d.binsNumber, ((linspace0 T d.binsNumber).map (fourierVal M n p.w X T))[j]? =
      some (docFourier n (fun i => X.getD (2 * i) 0) (fun i => X.getD (2 * i + 1) 0) (fun i => p.w.getD i 0) T
        (sampleTime T d.binsNumber j)) := by
    intro j hj
    rw [List.getElem?_map, linspace0_get T hj]
    simp only [Option.map_some, fourierVal, docFourier, hM.sin, hM.cos, hM.pi]
  obtain ⟨hlo, hup, -⟩ := hr.fields
  have := limited_inside ho hr.ordered (by
    intro x hx
    obtain ⟨j, hj⟩ := List.mem_iff_getElem?.1 hx
    rw [List.getElem?_zipWith] at hj
    have hjl : j < d.binsNumber := by
      by_contra hc
      rw [List.getElem?_eq_none (l := g) (by omega)] at hj
      simp at hj
    rw [hv j hjl] at hj
    obtain ⟨y, hy⟩ : ∃ y, g[j]? = some y := ⟨_, List.getElem?_eq_getElem (by omega)⟩
    rw [hy] at hj
    rw [hlo, hup, ← Option.some.inj hj]
    exact hin j hjl y hy)
  subst this
  refine ⟨_, _, bare_of_shaped hs, by simp [linspace0, hgl], fun j hj => ?_⟩
  obtain ⟨y, hy⟩ : ∃ y, g[j]? = some y := ⟨_, List.getElem?_eq_getElem (by omega)⟩
  rw [List.getElem?_zipWith, List.getElem?_zipWith, hv j hj, hy]
  simp

end walsh

/-- The hypotheses with one vector of frequency `1/2`, coefficients `(1, 0)` and the guess zero. -/
theorem walshExample_in (p : Pulse ℝ) (hw : p.w = [1 / 2]) : ∀ j < (exBasisPulse (.walsh 1)).binsNumber, ∀ y, ([0, 0, 0] : List ℝ)[j]? = some y →
    min (-1 : ℝ) 1 ≤ y + docFourier 1 (fun i => ([1, 0] : List ℝ).getD (2 * i) 0) (fun i => ([1, 0] : List ℝ).getD (2 * i + 1) 0)
        (fun i => p.w.getD i 0) 1 (sampleTime 1 3 j) ∧
      y + docFourier 1 (fun i => ([1, 0] : List ℝ).getD (2 * i) 0) (fun i => ([1, 0] : List ℝ).getD (2 * i + 1) 0)
        (fun i => p.w.getD i 0) 1 (sampleTime 1 3 j) ≤ max (-1) 1 := by
  intro j hj y hy
  have hy0 : y = 0 := by
    have := List.mem_of_getElem? hy
    simpa using this
  subst hy0
  simp only [docFourier, Finset.sum_range_one, List.getD, zero_add]
  simp only [mul_zero, List.getElem?_cons_zero, Option.getD_some, List.getElem?_cons_succ, one_mul, zero_mul, add_zero]
  rw [min_eq_left (by norm_num), max_eq_right (by norm_num)]
  exact ⟨Real.neg_one_le_sin _, Real.sin_le_one _⟩

/-- **C106 is violated.** One vector with the coefficients `(1, 0)`: a Walsh function takes the values `1` and `-1` only, but the
first sample of the pulse is `0` and the second is `1`. The class is a copy of the Fourier basis (Walsh.py:61-81, `TODO Complete this
basis`). -/
theorem C106_not_square_waves : ∃ (d : PulseDict ℝ) (p : Pulse ℝ), PulseReach standardFns d p ∧ d.basis = .walsh 1 ∧
    ∃ q, p.getBarePulse standardFns [1, 0] 1 = .ok (q, [0, 1, 0]) := by
  obtain ⟨p, h, hw⟩ := exBasisPulse_reach (b := .walsh 1) rfl (by simp [basisParams])
  refine ⟨_, p, h, rfl, ?_⟩
  obtain ⟨q, u, h1, h2, h3⟩ := C106_walsh_is_fourier_partial (X := [1, 0]) (T := 1) (g := [0, 0, 0]) standardFns_standard h rfl rfl rfl rfl
    (by intro y hy; have : y = 0 := by simpa using hy
        subst this
        show min (-1 : ℝ) 1 ≤ 0 ∧ (0 : ℝ) ≤ max (-1) 1
        constructor <;> norm_num)
    (walshExample_in p hw) (by decide)
  refine ⟨q, ?_⟩
  rw [h1]
  have e : ∀ j < 3, u[j]? = some (Real.sin (Real.pi * sampleTime 1 3 j)) := by
    intro j hj
    rw [h3 j hj]
    simp only [docFourier, Finset.sum_range_one, List.getD, hw]
    simp only [mul_zero, List.getElem?_cons_zero, Option.getD_some, List.getElem?_cons_succ, one_mul, zero_mul, add_zero]
    congr 2
    show 2 * Real.pi * (1 / 2) * sampleTime 1 3 j / 1 = _
    ring
  congr 2
  have h2' : u.length = 3 := h2
  apply List.ext_getElem?
  intro j
  rcases lt_or_ge j 3 with hj | hj
  · rw [e j hj]
    interval_cases j
    · simp [sampleTime]
    · have : Real.pi * sampleTime 1 3 1 = Real.pi / 2 := by simp [sampleTime]; ring
      rw [this]; simp
    · have : Real.pi * sampleTime 1 3 2 = Real.pi := by norm_num [sampleTime]
      rw [this]; simp
  · rw [List.getElem?_eq_none (by omega), List.getElem?_eq_none (by simpa using hj)]

end QuOCS

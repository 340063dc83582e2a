/-
All bases of the library: coefficients that are all zero give no update.
-/
import Verif.Lemmas.Usable

set_option linter.unusedSectionVars false
set_option linter.unusedVariables false

namespace QuOCS

section
variable {K : Type*} [Field K] [LinearOrder K] [IsStrictOrderedRing K]
variable {M : MathFns K} {td : List (TimeDict K)} {d : PulseDict K} {p : Pulse K}

theorem sigmoidBuild_zero {n b : ℕ} {offset sigma : K} {closing : Bool} {A taus sigmas t : List K} {T : K} {u : List K}
    (h : sigmoidBuild M n offset sigma closing b A taus sigmas t T = .ok u) (ht : t.length = b)
    (hA : ∀ a ∈ A, a = 0) : u = zeros b := by
  have h1 := sigmoidBuild_needs h
  have h2 : n ≤ taus.length ∧ n ≤ sigmas.length := by
    cases n with
    | zero => omega
    | succ n =>
      have h' := h
      unfold sigmoidBuild at h'
      obtain ⟨q, h3, _⟩ := py_bind_ok.1 h'
      obtain ⟨v, hv⟩ := sumTerms_ok h3 n (by omega)
      obtain ⟨a, ha, hv⟩ := py_bind_ok.1 hv
      obtain ⟨b, hb, hv⟩ := py_bind_ok.1 hv
      obtain ⟨c, hc, hv⟩ := py_bind_ok.1 hv
      have h4 := (List.getElem?_eq_some_iff.1 (getIdx_ok.1 hb)).1
      have h5 := (List.getElem?_eq_some_iff.1 (getIdx_ok.1 hc)).1
      omega
  have hz : ∀ i, A.getD i 0 = 0 := by
    intro i
    rw [List.getD_eq_getElem?_getD]
    rcases hi : A[i]? with _ | a
    · rfl
    · exact hA a (List.mem_of_getElem? hi)
  have hs : A.sum = 0 := List.sum_eq_zero hA
  rw [sigmoidBuild_closed M offset sigma closing h1 h2.1 h2.2 ht] at h
  rw [← Except.ok.inj h]
  apply List.ext_getElem
  · simp [zeros, ht]
  · intro i _ _
    rw [List.getElem_map]
    unfold sigmoidVal
    simp only [hz, hs]
    cases closing <;> simp [zeros]

theorem take_zeros (n k : ℕ) : ∀ a ∈ (zeros n : List K).take k, a = 0 :=
  fun a ha => List.eq_of_mem_replicate (List.mem_of_mem_take ha)

theorem limited_inside {u v : List K} (h : p.limited u = .ok v) (hlu : p.lower ≤ p.upper)
    (hin : ∀ x ∈ u, p.lower ≤ x ∧ x ≤ p.upper) : v = u := by
  unfold Pulse.limited at h
  split at h
  · obtain ⟨_, _, _, _, _, _, h1, _⟩ := shrinkPulse_spec hlu h
    exact h1 hin
  · have := Except.ok.inj h
    rw [← this]
    conv_rhs => rw [← List.map_id u]
    exact List.map_congr_left fun x hx => cutSample_id (hin x hx).1 (hin x hx).2

theorem fourierVal_zero (n m : ℕ) (w : List K) (T s : K) : fourierVal M n w (zeros m) T s = 0 := by
  have hzd : ∀ i : ℕ, (zeros m : List K).getD i 0 = 0 := by
    intro i
    simp only [zeros, List.getD_eq_getElem?_getD, List.getElem?_replicate]
    split <;> rfl
  unfold fourierVal
  simp only [hzd]
  simp

/-- Adding a zero update to the guess, limiting and subtracting the guess gives zero. -/
theorem walsh_zero {g o o' r : List K} {n : ℕ} (hlu : p.lower ≤ p.upper) (hg : g.length = n ∨ g.length = 1)
    (hin : ∀ x ∈ g, p.lower ≤ x ∧ x ≤ p.upper) (h1 : bop (· + ·) g (zeros n) = .ok o) (h2 : p.limited o = .ok o')
    (h3 : bop (· - ·) o' g = .ok r) : r = zeros n := by
  by_cases h : g.length = n
  · have e : o = g := by
      rw [bop_eq (by simp [zeros, h])] at h1
      rw [← Except.ok.inj h1]
      apply List.ext_getElem
      · simp [zeros, h]
      · intro i _ _; simp [zeros]
    subst e
    have := limited_inside h2 hlu hin
    subst this
    rw [bop_eq rfl] at h3
    rw [← Except.ok.inj h3]
    apply List.ext_getElem
    · simp [zeros, h]
    · intro i _ _; simp [zeros]
  · have hg1 : g.length = 1 := by rcases hg with h' | h' <;> [exact absurd h' h; exact h']
    obtain ⟨x, rfl⟩ := List.length_eq_one_iff.1 hg1
    have hn : n ≠ 1 := fun e => h (by rw [e]; rfl)
    have e : o = List.replicate n x := by
      unfold bop at h1
      rw [if_neg (by simp [zeros]; omega), if_pos (by simp)] at h1
      rw [← Except.ok.inj h1]
      simp [zeros]
    subst e
    have := limited_inside h2 hlu (fun y hy => hin y (by rw [List.eq_of_mem_replicate hy]; simp))
    subst this
    unfold bop at h3
    rw [if_neg (by simp; omega), if_neg (by simp; omega), if_pos (by simp)] at h3
    rw [← Except.ok.inj h3]
    simp [zeros]

/-- A usable pulse in any basis of the library: zero coefficients give no update. -/
theorem zeroUpdate_usable (hu : UsablePulse td d) (hc : ∀ n m f, d.basis ≠ .custom n m f) : ZeroUpdate M d := by
  intro p h T
  obtain ⟨_, _, _, _, hbins, _, _, _, hbas⟩ := h.fields
  obtain ⟨hw, hn, hav⟩ := h.w_length
  have hx : (zeros d.declared : List K).length = p.nParams := by simp [zeros, hn, PulseDict.declared]
  obtain ⟨u, h1, h2⟩ := shaped_exists h hu hx T
  refine ⟨p.setInputs (zeros d.declared) T, ?_⟩
  rw [bare_of_shaped h1]
  have hg : (linspace0 T p.binsNumber).length = p.binsNumber := by simp [linspace0]
  suffices e : u = zeros d.binsNumber by rw [e]
  have lin : LinearBasis d.basis ∨ (∃ n, d.basis = .chebyshev n) → u = zeros d.binsNumber := by
    intro hl
    obtain ⟨q, hq⟩ := C41_zero_coefficients_zero_update h hl T
    have hq : p.getBarePulse M (zeros d.declared) T = _ := hq
    rw [bare_of_shaped h1] at hq
    exact (Prod.mk.inj (Except.ok.inj hq)).2
  match hbd : d.basis with
  | .fourier n => exact lin (.inl (by rw [hbd]; trivial))
  | .chebyshev n => exact lin (.inr ⟨n, hbd⟩)
  | .sinc n bm => exact lin (.inl (by rw [hbd]; trivial))
  | .piecewise => exact lin (.inl (by rw [hbd]; trivial))
  | .sigmoid n o sg => exact lin (.inl (by rw [hbd]; trivial))
  | .sigmoidTimeDep n o sg tv =>
    simp only [Pulse.shaped, Pulse.setInputs, hbas, hbd, sigmoidTimeDepShape] at h1
    obtain ⟨_, _, h1⟩ := py_bind_ok.1 h1
    obtain ⟨_, _, h1⟩ := py_bind_ok.1 h1
    rw [← hbins]
    exact sigmoidBuild_zero h1 hg (take_zeros _ _)
  | .sigmoidSigmas n o sg sv =>
    simp only [Pulse.shaped, Pulse.setInputs, hbas, hbd, sigmoidSigmasShape] at h1
    obtain ⟨_, _, h1⟩ := py_bind_ok.1 h1
    rw [← hbins]
    exact sigmoidBuild_zero h1 hg (take_zeros _ _)
  | .sigmoidAllParas n o sg tv sv =>
    simp only [Pulse.shaped, Pulse.setInputs, hbas, hbd, sigmoidAllParasShape] at h1
    rw [← hbins]
    have fin : ∀ (A delSig taus : List K) (active closing : Bool), (∀ a ∈ A, a = 0) →
        (limitSigmas M o sg T active taus delSig >>= fun sigmas =>
          sigmoidBuild M n o sg closing p.binsNumber A taus sigmas (linspace0 T p.binsNumber) T) = .ok u → u = zeros p.binsNumber := by
      intro A delSig taus active closing hA h1
      obtain ⟨_, _, h1⟩ := py_bind_ok.1 h1
      exact sigmoidBuild_zero h1 hg hA
    have hA : ∀ b : Bool, ∀ a ∈ (if b = true then List.take (p.w.length + 1) (zeros d.declared) else zeros d.declared : List K), a = 0 := by
      intro b
      split
      · exact take_zeros _ _
      · exact fun a ha => List.eq_of_mem_replicate ha
    split at h1
    · obtain ⟨_, _, h1⟩ := py_bind_ok.1 h1
      obtain ⟨_, _, h1⟩ := py_bind_ok.1 h1
      exact fin _ _ _ _ _ (hA _) h1
    · exact fin _ _ _ _ _ (hA _) h1
  | .walsh n =>
    rw [hbd] at hw
    have hw : p.w.length = n := hw
    have hf := fourier_closed M (T := T) (X := zeros d.declared) hw
      (by simp [zeros, PulseDict.declared, hbd, basisParams]) hg
    have hf0 : List.map (fourierVal M n p.w (zeros d.declared) T) (linspace0 T p.binsNumber) = zeros d.binsNumber := by
      apply List.ext_getElem
      · simp [zeros, linspace0, hbins]
      · intro i _ _
        rw [List.getElem_map, fourierVal_zero]
        simp [zeros]
    rw [hf0] at hf
    have hbs : (p.setInputs (zeros d.declared) T).basis = .walsh n := hbas.trans hbd
    have h' := h.inputs (zeros d.declared) T
    unfold Pulse.shaped at h1
    rw [hbs] at h1
    simp only [Pulse.addInitialGuess] at h1
    have hf' : sumTerms (zeros (p.setInputs (zeros d.declared) T).binsNumber) n
      (fourierTerm M (p.setInputs (zeros d.declared) T).w
      (p.setInputs (zeros d.declared) T).params (p.setInputs (zeros d.declared) T).timeGrid
      (p.setInputs (zeros d.declared) T).finalTime) = .ok (zeros d.binsNumber) := hf
    rw [hf'] at h1
    obtain ⟨g, h3, h4⟩ := guess_exists h' hu (by simp [Pulse.setInputs, linspace0, hbins])
    have hin : ∀ x ∈ g, (p.setInputs (zeros d.declared) T).lower ≤ x ∧ x ≤ (p.setInputs (zeros d.declared) T).upper := by
      unfold Pulse.initialGuess at h3
      split at h3
      · exact limited_mem h3 h'.ordered
      · exact limited_mem h3 h'.ordered
    obtain ⟨_, e0, h1⟩ := py_bind_ok.1 h1
    rw [← Except.ok.inj e0] at h1
    rw [h3] at h1
    obtain ⟨o, h5, h1⟩ := py_bind_ok.1 h1
    obtain ⟨_, e1, h5⟩ := py_bind_ok.1 h5
    rw [← Except.ok.inj e1] at h5
    obtain ⟨o', h6, h1⟩ := py_bind_ok.1 h1
    obtain ⟨_, e2, h1⟩ := py_bind_ok.1 h1
    rw [← Except.ok.inj e2] at h1
    exact walsh_zero h'.ordered h4 hin h5 h6 h1
  | .custom n m f => exact absurd hbd (hc n m f)

end
end QuOCS

/-
Properties C37 and C41 for every basis of the library: zero coefficients give no update.
-/
import Verif.Lemmas.ZeroUpdate
import Verif.Props.SuperIterations

set_option linter.unusedSectionVars false
set_option linter.unusedVariables false

namespace QuOCS

section
variable {K : Type*} [Field K] [LinearOrder K] [IsStrictOrderedRing K]
variable {M : MathFns K} {td : List (TimeDict K)} {d : PulseDict K} {p : Pulse K}

/-- **C41** (zero update, every basis). For a usable pulse in any basis of the library, also those that are not linear (Walsh, with its
limits around the guess, and the sigmoid bases with optimized step times and widths): if all coefficients are zero, the update pulse is
zero in every bin, whatever basis was drawn and whatever the earlier super-iterations did. -/
theorem C41_zero_update_every_basis (hu : UsablePulse td d) (hc : ∀ n m f, d.basis ≠ .custom n m f) (hr : PulseReach M d p) (T : K) :
    ∃ q, p.getBarePulse M (zeros d.declared) T = .ok (q, zeros d.binsNumber) := zeroUpdate_usable hu hc p hr T

end

section
variable {K : Type} [Field K] [LinearOrder K] [IsStrictOrderedRing K]
variable {M : MathFns K} {pd : List (PulseDict K)} {td : List (TimeDict K)} {rd : List (ParamDict K)}

/-- **C37** (which dictionaries are covered). The conditions of C37 are conditions on the user's dictionary only: usable pulses in any
basis of the library, shaping options that keep the base pulse, base pulses that accumulate, fixed times and ordered limits. -/
theorem C37_standard_dictionary (hu : Usable pd td rd) (hc : ∀ d ∈ pd, ∀ n m f, d.basis ≠ .custom n m f) (hs : ∀ d ∈ pd, KeepsBase d)
    (ho : ∀ d ∈ pd, d.overwrite = false) (ht : FixedTimes td) (hl : ∀ d ∈ rd, d.lower ≤ d.upper) : StandardControls M pd td rd :=
  ⟨hs, ho, fun d h => zeroUpdate_usable (hu.pulses d h) (hc d h), ht, hl⟩

end

/-- a Walsh pulse whose guess is outside the limits, and a sigmoid pulse with optimized step times and widths -/
def exZPd : List (PulseDict ℚ) :=
  [{ exDict with basis := .walsh 2, guess := .array [9, 1, -9], scaling := .array [1], shapingOptions := none },
   { exDict with basis := .sigmoidAllParas 1 (1 / 4) (1 / 8) (1 / 2) (1 / 2), guess := .array [0], scaling := .array [1],
                 shapingOptions := none }]

/-- The hypotheses of both theorems are met. -/
example : Usable exZPd exTd [] ∧ (∀ d ∈ exZPd, ∀ n m f, d.basis ≠ .custom n m f) ∧ (∀ d ∈ exZPd, KeepsBase d) ∧
    (∀ d ∈ exZPd, d.overwrite = false) ∧ FixedTimes exTd := by
  refine ⟨⟨.inl (by simp [exZPd]), fun d hd => ?_, fun t ht h => ?_⟩, fun d hd n m f h => ?_, fun d hd => ?_, fun d hd => ?_, fun d hd => ?_⟩
  · simp only [exZPd, List.mem_cons, List.not_mem_nil, or_false] at hd
    rcases hd with rfl | rfl
    · exact ⟨by decide, by decide, trivial, .inl rfl, .inr rfl, ⟨_, List.mem_cons_self, rfl⟩⟩
    · exact ⟨by decide, by decide +kernel, le_refl 1, .inr rfl, .inr rfl, ⟨_, List.mem_cons_self, rfl⟩⟩
  · obtain rfl : t = _ := by simpa [exTd] using ht
    cases h
  · simp only [exZPd, List.mem_cons, List.not_mem_nil, or_false] at hd
    rcases hd with rfl | rfl <;> cases h
  · simp only [exZPd, List.mem_cons, List.not_mem_nil, or_false] at hd
    rcases hd with rfl | rfl <;> exact .inl rfl
  · simp only [exZPd, List.mem_cons, List.not_mem_nil, or_false] at hd
    rcases hd with rfl | rfl <;> rfl
  · simp [exTd] at hd
    subst hd
    rfl

end QuOCS

/-
C108. The script execute_dCRAB.py with fewer than 100 slices.
-/
import Verif.Props.ScriptsFoM
import Verif.Props.IsingShort

set_option linter.unusedSectionVars false
set_option linter.unusedVariables false

namespace QuOCS
open Matrix IsingL IsingX Density

variable {n : ℕ} {A T : ℚ}

/-- **C108 is violated by execute_dCRAB.py**, for fewer than 100 slices: as the figure of merit does not find the number of slices in the arguments of the
script, it always asks for 100 samples and raises an `IndexError` for every pulse the optimizer can give it, after any history of calls. -/
theorem C108_dcrab_few_slices_raise (hn : 1 ≤ n) (hn' : n < 100) {s : ExIsingSettings} (hs : (exIsingArgs (dcrabArgs n)).1 = .ok s) :
    ∃ o, exIsingInit s = .ok o ∧ ∀ (sqrtm : CMat (2 ^ s.qubits) → CMat (2 ^ s.qubits)) (rnd : ℕ → ℝ) (calls : List ExIsingCall) (u t : List ℚ),
      SamplesOn n A T u t →
      (exIsingFoM s NormedSpace.exp sqrtm rnd (inReals [u]) (inReals [t]) (exIsingAfter s NormedSpace.exp sqrtm rnd calls o)).1 =
        .error .indexError := by
  rw [dcrab_args] at hs
  obtain rfl := Except.ok.inj hs
  obtain ⟨o, ho⟩ := init_ok (s := ⟨5, ((1 : ℚ) : ℝ), ((2 : ℚ) : ℝ), 100, true, ((3 / 10 : ℚ) : ℝ), ((1 / 1000 : ℚ) : ℝ)⟩) (by norm_num)
  refine ⟨o, ho, fun sqrtm rnd calls u t h => ?_⟩
  have hne : t.map (fun (x : ℚ) => (x : ℝ)) ≠ [] := by
    intro e
    have := congrArg List.length e
    rw [List.length_map, h.times] at this
    simp at this
    omega
  obtain ⟨st, e, -⟩ := C107_short_pulse_partial (sqrtm := sqrtm) (rnd := rnd) (ps := []) (gs := []) (u := u.map fun (x : ℚ) => (x : ℝ)) (by norm_num) ho
    (by show _ < 100; rw [List.length_map, h.number]; exact hn') hne calls
  unfold inReals
  rw [List.map_cons, List.map_nil, List.map_cons, List.map_nil, e]

/-- With 50 slices and the pulse that is one from the sample 20 on. -/
example : ∃ s, (exIsingArgs (dcrabArgs 50)).1 = .ok s ∧ 1 ≤ 50 ∧ 50 < 100 ∧ SamplesOn 50 1000 1 (stepPulse 20 50) (stepGrid 50) :=
  ⟨_, dcrab_args, by norm_num, by norm_num, step_samples (by norm_num)⟩

end QuOCS

/-
C107. The example with a ring of spins, for a pulse with fewer samples than slices.
-/
import Verif.Props.IsingExample

set_option linter.unusedSectionVars false
set_option linter.unusedVariables false

namespace QuOCS
open Matrix IsingL Density

namespace IsingX

/-- a slice without a sample raises -/
theorem slice_short {d : ℕ} (expm : CMat d → CMat d) {u : List ℝ} {i : ℕ} (h : u.length ≤ i) (A B : CMat d) (dt : ℝ) :
    slicePropagator expm [u.map Complex.ofReal] A [B] dt i = .error .indexError := by
  have e : driveAt [u.map Complex.ofReal] 0 i = .error .indexError := by
    show getIdx (u.map Complex.ofReal) i = _
    unfold getIdx
    rw [List.getElem?_eq_none (by simpa using h)]
  unfold slicePropagator sliceHamiltonian
  rw [e]
  rfl

theorem pw_short {d : ℕ} (expm : CMat d → CMat d) {u : List ℝ} {n : ℕ} (h : u.length < n) (A B : CMat d) (dt : ℝ) {store : List (CMat d)}
    (hs : n ≤ store.length) : pwEvolution expm store [u.map Complex.ofReal] A [B] n dt = .error .indexError := by
  induction n with
  | zero => omega
  | succ n ih =>
    unfold pwEvolution at ih ⊢
    rw [List.range_succ, List.foldlM_append]
    by_cases hn : u.length < n
    · rw [ih hn (by omega)]; rfl
    · obtain rfl : n = u.length := by omega
      obtain ⟨st, e, -⟩ := TE.store_ok (expm := expm) (A := A) (dt := dt) (shape (le_refl u.length) B) store (by omega)
      unfold pwEvolution at e
      rw [e]
      show (slicePropagator expm [u.map Complex.ofReal] A [B] dt u.length >>= fun U => setIdx st u.length U) >>= _ = _
      rw [slice_short expm (le_refl _)]
      rfl

end IsingX
open IsingX

/-- **C107, partial** (short pulses). For three or more qubits, after any history of calls: with fewer samples than slices the figure of merit raises an
`IndexError`, and the list of stored propagators is changed up to the last sample: there it holds those of the ring driven by this pulse, with the
coupling of this call, and after it those that were stored before. The list of figures of merit is not changed. Missing: two qubits, see C105. -/
theorem C107_short_pulse_partial {s : ExIsingSettings} {o : ExIsing (2 ^ s.qubits)} {sqrtm : CMat (2 ^ s.qubits) → CMat (2 ^ s.qubits)} {rnd : ℕ → ℝ}
    {u grid : List ℝ} {ps gs : List (List ℝ)} (hn : 3 ≤ s.qubits) (ho : exIsingInit s = .ok o) (hu : u.length < s.slices) (hg : grid ≠ [])
    (calls : List ExIsingCall) :
    ∃ st, exIsingFoM s NormedSpace.exp sqrtm rnd (u :: ps) (grid :: gs) (exIsingAfter s NormedSpace.exp sqrtm rnd calls o) = (.error .indexError, st) ∧
      (∀ i < u.length, st.store[i]? = some (stepPropagator (grid.getLast hg / grid.length) (drivenRing s.qubits s.J
        (if s.noisy then noisyCoupling s.g s.gVariation (rnd (calls.map (·.draws)).sum) else s.g) (u.getD i 0)))) ∧
      (∀ i, u.length ≤ i → st.store[i]? = (exIsingAfter s NormedSpace.exp sqrtm rnd calls o).store[i]?) ∧
      st.fomList = (exIsingAfter s NormedSpace.exp sqrtm rnd calls o).fomList := by
  have h := after_good (sqrtm := sqrtm) (rnd := rnd) (by omega) calls (good_init (by omega) ho)
  rw [Nat.zero_add] at h
  generalize exIsingAfter s NormedSpace.exp sqrtm rnd calls o = p at h ⊢
  obtain ⟨H, B, a1, a2, -, -, a3⟩ := half_mats (by omega : 2 ≤ s.qubits) s.J (coupling s rnd (calls.map (·.draws)).sum)
  obtain ⟨H', p', h1, h2, h3, h4⟩ := drift_ok (rnd := rnd) (by omega) h
  obtain rfl : H = H' := Except.ok.inj (a1.symm.trans h1)
  obtain ⟨B', b1, b2⟩ := h3.control
  obtain rfl : B = B' := Except.ok.inj (a2.symm.trans b1)
  have hp : p'.store = p.store ∧ p'.fomList = p.fomList := by
    unfold exIsingDrift at h2
    split at h2 <;> (obtain ⟨-, rfl⟩ := Prod.mk.inj h2; exact ⟨rfl, rfl⟩)
  obtain ⟨st, e1, e2, e3, e4⟩ := C44_stored_propagators (expm := NormedSpace.exp) (A := H.mat _)
    (dt := grid.getLast hg / grid.length) (shape (le_refl u.length) p'.control) (store := p'.store) (by rw [h3.store]; omega)
  have hpart : exIsingPartial NormedSpace.exp s.slices (H.mat _) u (grid.getLast hg / grid.length) p' = st := by
    unfold exIsingPartial
    rw [Nat.min_eq_right hu.le, e1]
  have hprop : exIsingPropagator (s := s) NormedSpace.exp rnd (u :: ps) (grid :: gs) p = (.error .indexError, { p' with store := st }) := by
    unfold exIsingPropagator
    refine (Prog.bind_ok (show Prog.lift (getIdx (u :: ps) 0) p = (.ok u, p) from rfl)).trans ?_
    refine (Prog.bind_ok (show Prog.lift (getIdx (grid :: gs) 0) p = (.ok grid, p) from rfl)).trans ?_
    refine (Prog.bind_ok (show Prog.lift (grapeDt grid) p = (.ok _, p) by rw [dt_ok hg]; rfl)).trans ?_
    refine (Prog.bind_ok h2).trans ?_
    simp only [exIsingStore, pw_short NormedSpace.exp hu (H.mat _) p'.control _ h3.store.ge, hpart]
  refine ⟨{ p' with store := st }, ?_, fun i hi => ?_, fun i hi => ?_, hp.2⟩
  · unfold exIsingFoM
    rw [Prog.bind_apply, hprop]
  · show st[i]? = _
    rw [e3 i hi, ham, b2, a3 hn]; rfl
  · show st[i]? = _
    rw [e4 i hi, hp.1]

/-- Three qubits and three slices, but a pulse with two samples, after a call that stored all propagators: the hypotheses are met. -/
example : ∃ o : ExIsing (2 ^ 3),
    exIsingInit { qubits := 3, J := 1, g := 2, slices := 3, noisy := true, gVariation := 1 / 5, stdev := 1 / 10 } = .ok o ∧
      ([1, 2] : List ℝ).length < 3 ∧ ([0, 1] : List ℝ) ≠ [] ∧ ([ExIsingCall.fom [[1, 2, 3]] [[0, 1, 2]]].map (·.draws)).sum = 1 := by
  obtain ⟨H, B, a, b, -⟩ := half_mats (by norm_num : 2 ≤ 3) 1 2
  obtain ⟨R, T, r, t, -⟩ := states (by norm_num : 2 ≤ 3)
  refine ⟨_, by unfold exIsingInit; rw [a, b, r, t]; rfl, by simp, by simp, rfl⟩

end QuOCS

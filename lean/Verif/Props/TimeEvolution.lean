/-
Properties of the piecewise time evolution: C44, C45, C47.
-/
import Mathlib.Analysis.Normed.Algebra.MatrixExponential
import Mathlib.Analysis.Complex.Basic
import Mathlib.Analysis.Complex.Order
import Mathlib.LinearAlgebra.Matrix.PosDef
import Mathlib.LinearAlgebra.UnitaryGroup
import Verif.Lemmas.TimeEvolution

set_option linter.unusedSectionVars false
set_option linter.unusedVariables false

namespace QuOCS
open Matrix ComplexOrder

variable {d : ℕ} {expm : CMat d → CMat d} {drive : List (List ℂ)} {A : CMat d} {B : List (CMat d)} {dt : ℝ} {n : ℕ}

/-! ### C44: composition -/

/-- **C44.** `pw_evolution` stores in entry `i` the exponential of `-i dt H_i` for the Hamiltonian of slice `i`, for every
`i` below the number of slices; the other entries of the store are not touched. -/
theorem C44_stored_propagators (h : HasShape drive B.length n) {store : List (CMat d)} (hs : n ≤ store.length) :
    ∃ st, pwEvolution expm store drive A B n dt = .ok st ∧ st.length = store.length ∧
      (∀ i < n, st[i]? = some (expm ((-Complex.I * dt) • hamiltonian drive A B i))) ∧ ∀ i, n ≤ i → st[i]? = store[i]? :=
  TE.store_ok h store hs

/-- **C44.** The final propagator of `pw_final_evolution` is the time-ordered product of the step propagators stored by
`pw_evolution` (the latest one on the left) times the initial propagator. -/
theorem C44_final_is_ordered_product (h : HasShape drive B.length n) {store : List (CMat d)} (hs : n ≤ store.length)
    (U0 : CMat d) :
    ∃ st, pwEvolution expm store drive A B n dt = .ok st ∧
      pwFinalEvolution expm drive A B n dt U0 = .ok ((st.take n).reverse.prod * U0) := by
  obtain ⟨st, h1, h2, h3, -⟩ := TE.store_ok (expm := expm) (A := A) (dt := dt) h store hs
  refine ⟨st, h1, ?_⟩
  rw [TE.final_ok h, TE.ordered_eq_prod]
  congr 4
  refine List.ext_getElem? fun i => ?_
  by_cases hi : i < n
  · rw [List.getElem?_take_of_lt hi, h3 i hi]
    simp [hi]
  · rw [List.getElem?_eq_none (by simp; omega), List.getElem?_eq_none (by simp; omega)]

/-- **C44.** Splitting a pulse composes: evolving over `n + m` slices is evolving over the first `n` slices and then, from
the propagator reached, over the remaining `m` slices. -/
theorem C44_splitting_composes {m : ℕ} (h : HasShape drive B.length (n + m)) (U0 : CMat d) :
    ∃ U1, pwFinalEvolution expm drive A B n dt U0 = .ok U1 ∧
      pwFinalEvolution expm drive A B (n + m) dt U0 =
        pwFinalEvolution expm (drive.map (List.drop n)) A B m dt U1 := by
  have hd : HasShape (drive.map (List.drop n)) B.length m := fun k hk => by
    obtain ⟨row, h1, h2⟩ := h k hk
    exact ⟨row.drop n, by rw [List.getElem?_map, h1]; rfl, by rw [List.length_drop]; omega⟩
  refine ⟨_, TE.final_ok (TE.HasShape.mono h (by omega)) U0, ?_⟩
  rw [TE.final_ok h, TE.final_ok hd, TE.ordered_add, Matrix.mul_assoc]
  congr 2
  refine TE.ordered_congr fun i hi => ?_
  unfold TE.P hamiltonian
  congr 3
  refine Finset.sum_congr rfl fun k _ => ?_
  congr 1
  obtain ⟨row, h1, h2⟩ := h k k.2
  unfold amplitude
  have e1 : drive.getD k [] = row := by rw [List.getD_eq_getElem?_getD, h1]; rfl
  have e2 : (drive.map (List.drop n)).getD k [] = row.drop n := by
    rw [List.getD_eq_getElem?_getD, List.getElem?_map, h1]; rfl
  rw [e1, e2, List.getD_eq_getElem?_getD, List.getD_eq_getElem?_getD, List.getElem?_drop]

/-- **C44.** Refining the time grid does not change the evolution: with the matrix exponential, evolving with every amplitude
repeated in `r` slices of duration `dt / r` is the same as evolving with slices of duration `dt`. -/
theorem C44_refinement (h : HasShape drive B.length n) {r : ℕ} (hr : r ≠ 0) (U0 : CMat d) {fine : List (List ℂ)}
    (hf : HasShape fine B.length (n * r))
    (hrep : ∀ k < B.length, ∀ i < n, ∀ j < r, amplitude fine k (i * r + j) = amplitude drive k i) :
    pwFinalEvolution NormedSpace.exp fine A B (n * r) (dt / r) U0 = pwFinalEvolution NormedSpace.exp drive A B n dt U0 := by
  rw [TE.final_ok hf, TE.final_ok h]
  congr 2
  clear hf h
  induction n with
  | zero => simp [ordered]
  | succ n ih =>
      rw [Nat.succ_mul, TE.ordered_add, ih fun k hk i hi => hrep k hk i (by omega), ordered]
      congr 1
      have hP : ∀ j < r, TE.P NormedSpace.exp fine A B (dt / r) (n * r + j) =
          NormedSpace.exp ((-Complex.I * ((dt / r : ℝ) : ℂ)) • hamiltonian drive A B n) := fun j hj => by
        unfold TE.P hamiltonian
        congr 3
        exact Finset.sum_congr rfl fun k _ => by rw [hrep k k.2 n (by omega) j hj]
      rw [TE.ordered_congr hP]
      have hpow : ∀ (X : CMat d) (m : ℕ), ordered (fun _ => X) m = X ^ m := fun X m => by
        induction m with
        | zero => rfl
        | succ m ih => rw [ordered, ih, pow_succ']
      rw [hpow, ← Matrix.exp_nsmul]
      unfold TE.P
      congr 1
      have hr' : (r : ℂ) ≠ 0 := by exact_mod_cast hr
      rw [← Nat.cast_smul_eq_nsmul ℂ, smul_smul]
      congr 1
      push_cast
      field_simp

/-- without slices the initial propagator is returned -/
theorem C44_no_slices (U0 : CMat d) : pwFinalEvolution expm drive A B 0 dt U0 = .ok U0 := rfl

/-- the hypotheses are met: two controls, three slices -/
example : HasShape [[1, 2, 3], [4, 5, 6]] 2 3 := fun k hk => by
  interval_cases k
  · exact ⟨_, rfl, le_rfl⟩
  · exact ⟨_, rfl, le_rfl⟩

/-- a refinement by the factor 2 of a drive with one control and two slices -/
example : HasShape [[7, 7, 8, 8]] 1 (2 * 2) ∧
    ∀ k < 1, ∀ i < 2, ∀ j < 2, amplitude [[7, 7, 8, 8]] k (i * 2 + j) = amplitude [[7, 8]] k i := by
  refine ⟨fun k hk => ?_, fun k hk i hi j hj => ?_⟩
  · obtain rfl : k = 0 := by omega
    exact ⟨_, rfl, le_rfl⟩
  · interval_cases k; interval_cases i <;> interval_cases j <;> rfl

/-! ### C45: unitarity -/

/-- `[[0, -i], [i, 0]]` -/
def sigmaYm : CMat 2 := !![0, -Complex.I; Complex.I, 0]

theorem hamiltonian_hermitian (hA : Aᴴ = A) (hB : ∀ b ∈ B, bᴴ = b) (hr : RealDrive drive B.length n) {i : ℕ} (hi : i < n) :
    (hamiltonian drive A B i)ᴴ = hamiltonian drive A B i := by
  unfold hamiltonian
  rw [Matrix.conjTranspose_add, hA, Matrix.conjTranspose_sum]
  congr 1
  refine Finset.sum_congr rfl fun k _ => ?_
  rw [Matrix.conjTranspose_smul, hr k k.2 i hi]
  congr 1
  exact hB _ (List.getElem_mem _)

theorem exp_skew_unitary {H : CMat d} (hH : Hᴴ = H) (dt : ℝ) :
    (NormedSpace.exp ((-Complex.I * dt) • H))ᴴ * NormedSpace.exp ((-Complex.I * dt) • H) = 1 := by
  rw [← Matrix.exp_conjTranspose, Matrix.conjTranspose_smul, hH]
  have : star (-Complex.I * (dt : ℂ)) = -(-Complex.I * dt) := by
    simp [Complex.conj_ofReal]
  rw [this, neg_smul]
  have hc : Commute (-((-Complex.I * (dt : ℂ)) • H)) ((-Complex.I * (dt : ℂ)) • H) := Commute.neg_left (Commute.refl _)
  rw [← Matrix.exp_add_of_commute _ _ hc, neg_add_cancel, NormedSpace.exp_zero]

theorem ordered_unitary {P : ℕ → CMat d} (h : ∀ i < n, (P i)ᴴ * P i = 1) : (ordered P n)ᴴ * ordered P n = 1 := by
  induction n with
  | zero => simp [ordered]
  | succ n ih =>
      rw [ordered, Matrix.conjTranspose_mul, Matrix.mul_assoc, ← Matrix.mul_assoc (P n)ᴴ, h n (by omega), Matrix.one_mul]
      exact ih fun i hi => h i (by omega)

/-- **C45.** With Hermitian drift and control Hamiltonians and real amplitudes every step propagator is unitary. -/
theorem C45_steps_unitary (h : HasShape drive B.length n) (hA : Aᴴ = A) (hB : ∀ b ∈ B, bᴴ = b)
    (hr : RealDrive drive B.length n) {store : List (CMat d)} (hs : n ≤ store.length) :
    ∃ st, pwEvolution NormedSpace.exp store drive A B n dt = .ok st ∧
      ∀ i < n, ∃ U, st[i]? = some U ∧ Uᴴ * U = 1 ∧ U * Uᴴ = 1 := by
  obtain ⟨st, h1, -, h3, -⟩ := C44_stored_propagators (expm := NormedSpace.exp) (A := A) (dt := dt) h hs
  refine ⟨st, h1, fun i hi => ⟨_, h3 i hi, ?_, ?_⟩⟩
  · exact exp_skew_unitary (hamiltonian_hermitian hA hB hr hi) dt
  · exact mul_eq_one_comm.1 (exp_skew_unitary (hamiltonian_hermitian hA hB hr hi) dt)

/-- **C45.** Starting from a unitary propagator the final propagator is unitary. -/
theorem C45_final_unitary (h : HasShape drive B.length n) (hA : Aᴴ = A) (hB : ∀ b ∈ B, bᴴ = b)
    (hr : RealDrive drive B.length n) {U0 : CMat d} (hU : U0ᴴ * U0 = 1) :
    ∃ U, pwFinalEvolution NormedSpace.exp drive A B n dt U0 = .ok U ∧ Uᴴ * U = 1 ∧ U * Uᴴ = 1 := by
  have hu : (ordered (TE.P NormedSpace.exp drive A B dt) n * U0)ᴴ * (ordered (TE.P NormedSpace.exp drive A B dt) n * U0) = 1 := by
    rw [Matrix.conjTranspose_mul, Matrix.mul_assoc, ← Matrix.mul_assoc _ _ U0, ordered_unitary (P := TE.P NormedSpace.exp drive A B dt) fun i hi =>
      exp_skew_unitary (hamiltonian_hermitian hA hB hr hi) dt, Matrix.one_mul, hU]
  exact ⟨_, TE.final_ok h U0, hu, mul_eq_one_comm.1 hu⟩

/-- **C45.** What the final propagator does to states: the norm of every state vector and the trace of every density matrix
are preserved, and positive semidefinite matrices stay positive semidefinite. -/
theorem C45_states_preserved (h : HasShape drive B.length n) (hA : Aᴴ = A) (hB : ∀ b ∈ B, bᴴ = b)
    (hr : RealDrive drive B.length n) :
    ∃ U, pwFinalEvolution NormedSpace.exp drive A B n dt 1 = .ok U ∧
      (∀ v : Fin d → ℂ, star (U *ᵥ v) ⬝ᵥ (U *ᵥ v) = star v ⬝ᵥ v) ∧
      (∀ rho : CMat d, (U * rho * Uᴴ).trace = rho.trace) ∧
      ∀ rho : CMat d, rho.PosSemidef → (U * rho * Uᴴ).PosSemidef := by
  obtain ⟨U, h1, h2, -⟩ := C45_final_unitary (dt := dt) h hA hB hr (U0 := 1) (by simp)
  refine ⟨U, h1, fun v => ?_, fun rho => ?_, fun rho hp => hp.mul_mul_conjTranspose_same U⟩
  · rw [Matrix.star_mulVec, ← Matrix.dotProduct_mulVec, Matrix.mulVec_mulVec, h2, Matrix.one_mulVec]
  · rw [Matrix.trace_mul_comm, ← Matrix.mul_assoc, h2, Matrix.one_mul]

/-- the hypotheses are met: drift `sigma_z`, control `sigma_y`, two slices -/
example : (!![1, 0; 0, -1] : CMat 2)ᴴ = !![1, 0; 0, -1] ∧ (∀ b ∈ [sigmaYm], bᴴ = b) ∧ RealDrive [[3, -2]] 1 2 := by
  refine ⟨?_, ?_, ?_⟩
  · ext i j; fin_cases i <;> fin_cases j <;> simp
  · intro b hb
    rw [List.mem_singleton.1 hb]
    ext i j; fin_cases i <;> fin_cases j <;> simp [sigmaYm]
  · intro k hk i hi
    interval_cases k; interval_cases i <;> simp [amplitude]

/-! ### C47: the versions for automatic differentiation -/

/-- **C47.** `pw_final_evolution_AD` computes the same propagator as `pw_final_evolution`. -/
theorem C47_final_evolution_agrees (U0 : CMat d) :
    pwFinalEvolutionAD expm drive A B n dt U0 = pwFinalEvolution expm drive A B n dt U0 := by
  unfold pwFinalEvolutionAD pwFinalEvolution
  rw [TE.foriLoop_eq, List.range_eq_range']

/-- Violation found: `pw_evolution_AD` returns the store it was given, whatever the drive and the Hamiltonians are
(`U_store.at[i].set(..)` does not change `U_store`). -/
theorem C47_store_is_not_written (h : HasShape drive B.length n) (store : List (CMat d)) :
    pwEvolutionAD expm store drive A B n dt = .ok store := by
  induction n with
  | zero => rfl
  | succ n ih =>
      have := ih (TE.HasShape.mono h (by omega))
      unfold pwEvolutionAD at this ⊢
      rw [List.range_succ, TE.foldlM_append_ok _ this, TE.slice_ok h (by omega)]
      rfl

/-- Violation found: the propagators returned by `pw_evolution_AD` are not the step propagators. -/
theorem C47_zero_propagators :
    ∃ st, pwEvolutionAD NormedSpace.exp [0] [[1]] (0 : CMat 1) [0] 1 1 = .ok st ∧ st[0]? = some 0 ∧
      ∃ st', pwEvolution NormedSpace.exp [0] [[1]] (0 : CMat 1) [0] 1 1 = .ok st' ∧ st'[0]? = some 1 := by
  have hs : HasShape [[1]] [(0 : CMat 1)].length 1 := fun k hk => by
    obtain rfl : k = 0 := by simpa using hk
    exact ⟨_, rfl, le_rfl⟩
  refine ⟨[0], C47_store_is_not_written hs [0], rfl, ?_⟩
  obtain ⟨st, h1, -, h3, -⟩ := C44_stored_propagators (expm := NormedSpace.exp) (A := (0 : CMat 1)) (dt := 1) hs
    (store := [0]) (by simp)
  refine ⟨st, h1, ?_⟩
  rw [h3 0 (by omega)]
  simp [hamiltonian]

/-- **C47** (without the store): the shape of what is returned is right. Missing: the propagators themselves, see the
violation above. -/
theorem C47_store_partial (h : HasShape drive B.length n) (store : List (CMat d)) :
    ∃ st, pwEvolutionAD expm store drive A B n dt = .ok st ∧ st.length = store.length :=
  ⟨store, C47_store_is_not_written h store, rfl⟩

end QuOCS

/-
Exponentials of the generator of the open-system example.
-/
import Mathlib.Analysis.Normed.Algebra.MatrixExponential
import Mathlib.Analysis.SpecialFunctions.Exponential
import Mathlib.Analysis.Calculus.Deriv.Prod
import Mathlib.Analysis.Calculus.Deriv.Inverse
import Verif.Model.Lindblad
import Verif.Spec.Lindblad

set_option linter.unusedSectionVars false
set_option linter.unusedVariables false

namespace QuOCS
open Matrix

section
attribute [local instance] Matrix.linftyOpNormedRing Matrix.linftyOpNormedAlgebra

/-- A left eigenvector of a matrix is a left eigenvector of its exponential. -/
theorem vecMul_exp {d : ℕ} {A : CMat d} {w : Fin d → ℂ} {c : ℂ} (h : w ᵥ* A = c • w) : w ᵥ* NormedSpace.exp A = Complex.exp c • w := by
  have hp : ∀ n : ℕ, w ᵥ* A ^ n = c ^ n • w := by
    intro n
    induction n with
    | zero => simp
    | succ n ih => rw [pow_succ, ← vecMul_vecMul, ih, smul_vecMul, h, smul_smul, pow_succ]
  have h1 : HasSum (fun n : ℕ => ((n.factorial : ℂ)⁻¹) • A ^ n) (NormedSpace.exp A) := NormedSpace.exp_series_hasSum_exp' A
  have h2 : HasSum (fun n : ℕ => ((n.factorial : ℂ)⁻¹) • c ^ n) (Complex.exp c) := by
    rw [Complex.exp_eq_exp_ℂ]
    exact NormedSpace.exp_series_hasSum_exp' c
  have h3 : HasSum (fun n : ℕ => w ᵥ* (((n.factorial : ℂ)⁻¹) • A ^ n)) (w ᵥ* NormedSpace.exp A) :=
    h1.map (⟨⟨fun B => w ᵥ* B, fun a b => vecMul_add a b w⟩, fun r a => by simp [vecMul_smul]⟩ : CMat d →ₗ[ℂ] (Fin d → ℂ))
      (by
        show Continuous fun B : CMat d => w ᵥ* B
        exact Continuous.matrix_vecMul continuous_const continuous_id)
  refine h3.unique ?_
  have h4 := h2.smul_const w
  have h5 : (fun n : ℕ => w ᵥ* (((n.factorial : ℂ)⁻¹) • A ^ n)) = fun n : ℕ => (((n.factorial : ℂ)⁻¹) • c ^ n) • w := by
    funext n
    rw [vecMul_smul, hp, smul_smul, smul_eq_mul]
  rw [h5]
  exact h4

/-- A linear map that keeps powers keeps the exponential. -/
theorem map_exp_of_pow {d e : ℕ} (φ : CMat d →ₗ[ℂ] CMat e) (A : CMat d) (hp : ∀ n : ℕ, φ (A ^ n) = φ A ^ n) :
    φ (NormedSpace.exp A) = NormedSpace.exp (φ A) := by
  have h1 : HasSum (fun n : ℕ => ((n.factorial : ℂ)⁻¹) • A ^ n) (NormedSpace.exp A) := NormedSpace.exp_series_hasSum_exp' A
  have h2 : HasSum (fun n : ℕ => ((n.factorial : ℂ)⁻¹) • φ A ^ n) (NormedSpace.exp (φ A)) := NormedSpace.exp_series_hasSum_exp' (φ A)
  have h3 := h1.map φ (LinearMap.continuous_of_finiteDimensional φ)
  refine h3.unique ?_
  have h5 : (φ ∘ fun n : ℕ => ((n.factorial : ℂ)⁻¹) • A ^ n) = fun n : ℕ => ((n.factorial : ℂ)⁻¹) • φ A ^ n := by
    funext n
    simp only [Function.comp, map_smul, hp]
  rw [h5]
  exact h2

/-- `rho ↦ A rho` on the vector of the entries -/
def lrep : CMat 2 →ₗ[ℂ] CMat 4 where
  toFun A := !![A 0 0, 0, A 0 1, 0; 0, A 0 0, 0, A 0 1; A 1 0, 0, A 1 1, 0; 0, A 1 0, 0, A 1 1]
  map_add' A B := by ext i j; fin_cases i <;> fin_cases j <;> simp
  map_smul' c A := by ext i j; fin_cases i <;> fin_cases j <;> simp

/-- `rho ↦ rho B` on the vector of the entries -/
def rrep : CMat 2 →ₗ[ℂ] CMat 4 where
  toFun B := !![B 0 0, B 1 0, 0, 0; B 0 1, B 1 1, 0, 0; 0, 0, B 0 0, B 1 0; 0, 0, B 0 1, B 1 1]
  map_add' A B := by ext i j; fin_cases i <;> fin_cases j <;> simp
  map_smul' c A := by ext i j; fin_cases i <;> fin_cases j <;> simp

theorem lrep_mul (A B : CMat 2) : lrep (A * B) = lrep A * lrep B := by
  ext i j
  fin_cases i <;> fin_cases j <;> simp [lrep, Matrix.mul_apply, Fin.sum_univ_succ]

theorem rrep_mul (A B : CMat 2) : rrep (A * B) = rrep B * rrep A := by
  ext i j
  fin_cases i <;> fin_cases j <;> simp [rrep, Matrix.mul_apply, Fin.sum_univ_succ] <;> ring

theorem lrep_one : lrep 1 = 1 := by
  ext i j
  fin_cases i <;> fin_cases j <;> simp [lrep]

theorem rrep_one : rrep 1 = 1 := by
  ext i j
  fin_cases i <;> fin_cases j <;> simp [rrep]

theorem rep_commute (A B : CMat 2) : Commute (lrep A) (rrep B) := by
  show lrep A * rrep B = rrep B * lrep A
  ext i j
  fin_cases i <;> fin_cases j <;> simp [lrep, rrep, Matrix.mul_apply, Fin.sum_univ_succ] <;> ring

theorem rep_toLFS (A B rho : CMat 2) : (lrep A * rrep B).mulVec (toLFS rho) = toLFS (A * rho * B) := by
  rw [← mulVec_mulVec]
  funext i
  fin_cases i <;> simp [lrep, rrep, toLFS, Matrix.mul_apply, Matrix.mulVec, dotProduct, Fin.sum_univ_succ] <;> ring

theorem lrep_exp (A : CMat 2) : lrep (NormedSpace.exp A) = NormedSpace.exp (lrep A) := by
  refine map_exp_of_pow lrep A fun n => ?_
  induction n with
  | zero => simp [lrep_one]
  | succ n ih => rw [pow_succ, lrep_mul, ih, pow_succ]

theorem rrep_exp (A : CMat 2) : rrep (NormedSpace.exp A) = NormedSpace.exp (rrep A) := by
  refine map_exp_of_pow rrep A fun n => ?_
  induction n with
  | zero => simp [rrep_one]
  | succ n ih => rw [pow_succ', rrep_mul, ih, pow_succ]

theorem drivenQubit_hermitian (E u : ℝ) : (drivenQubit E u)ᴴ = drivenQubit E u := by
  ext i j
  fin_cases i <;> fin_cases j <;> simp [drivenQubit]

/-- Without decay a slice of the example is a slice of the evolution of the closed system. -/
theorem lb_step_closed (E u dt : ℝ) (rho : CMat 2) :
    (NormedSpace.exp ((dt : ℂ) • (lbConst E 0 + (u : ℂ) • lbDrive))).mulVec (toLFS rho) =
      toLFS (stepPropagator dt (drivenQubit E u) * rho * (stepPropagator dt (drivenQubit E u))ᴴ) := by
  have hg : (dt : ℂ) • (lbConst E 0 + (u : ℂ) • lbDrive) =
      lrep ((-Complex.I * dt) • drivenQubit E u) + rrep (((-Complex.I * dt) • drivenQubit E u)ᴴ) := by
    rw [conjTranspose_smul, drivenQubit_hermitian]
    ext i j
    fin_cases i <;> fin_cases j <;> simp [lbConst, lbDrive, lrep, rrep, drivenQubit] <;> ring
  rw [hg, Matrix.exp_add_of_commute _ _ (rep_commute _ _), ← lrep_exp, ← rrep_exp, Matrix.exp_conjTranspose]
  exact rep_toLFS _ _ _

/-- the Hamiltonian and the decay of the example, with the error of its generator -/
theorem lb_generator (E u : ℝ) {gamma : ℝ} (hg : 0 ≤ gamma) (rho : CMat 2) :
    fromLFS ((lbConst E gamma + (u : ℂ) • lbDrive).mulVec (toLFS rho)) =
      lindbladRhs (drivenQubit E u) (decayOperator gamma) rho + !![0, gamma * rho 0 1; 0, 0] := by
  have hs : ((Real.sqrt gamma : ℝ) : ℂ) * ((Real.sqrt gamma : ℝ) : ℂ) = gamma := by
    rw [← Complex.ofReal_mul, Real.mul_self_sqrt hg]
  have hd : (decayOperator gamma)ᴴ = !![0, 0; ((Real.sqrt gamma : ℝ) : ℂ), 0] := by
    ext i j
    fin_cases i <;> fin_cases j <;> simp [decayOperator]
  unfold lindbladRhs
  rw [hd]
  unfold decayOperator drivenQubit
  rw [Matrix.eta_fin_two rho]
  generalize rho 0 0 = a
  generalize rho 0 1 = b
  generalize rho 1 0 = c
  generalize rho 1 1 = d
  simp only [Matrix.mul_fin_two]
  ext i j
  fin_cases i <;> fin_cases j <;>
    simp [fromLFS, toLFS, lbConst, lbDrive, Matrix.mulVec, dotProduct, Fin.sum_univ_succ, hs]
  · linear_combination -d * hs
  all_goals ring

/-- one slice of the example -/
noncomputable def lbSlice (E gamma dt : ℝ) (v : Fin 4 → ℂ) (u : ℝ) : Fin 4 → ℂ :=
  (NormedSpace.exp ((dt : ℂ) • (lbConst E gamma + (u : ℂ) • lbDrive))).mulVec v

theorem fori_slices {step : (Fin 4 → ℂ) → ℝ → (Fin 4 → ℂ)} (drive : List ℝ) : ∀ (n k : ℕ) (v : Fin 4 → ℂ), k + n ≤ drive.length →
    foriLoop (fun i val => getIdx drive i >>= fun u => .ok (step val u)) k n v = .ok (((drive.drop k).take n).foldl step v) := by
  intro n
  induction n with
  | zero => intro k v h; simp [foriLoop]
  | succ n ih =>
    intro k v h
    have hk : k < drive.length := by omega
    have hg : getIdx drive k = .ok drive[k] := by
      unfold getIdx
      rw [List.getElem?_eq_getElem hk]
    unfold foriLoop
    rw [hg]
    show foriLoop _ (k + 1) n (step v drive[k]) = _
    rw [ih (k + 1) _ (by omega), List.drop_eq_getElem_cons hk, List.take_succ_cons, List.foldl_cons]

theorem lbEvolution_eq (E gamma : ℝ) {drive grid : List ℝ} (h : drive.length = grid.length) (hg : grid ≠ []) (v : Fin 4 → ℂ) :
    lbEvolution NormedSpace.exp v (lbConst E gamma) lbDrive drive grid = .ok (drive.foldl (lbSlice E gamma (grid.getLast hg / grid.length)) v) := by
  unfold lbEvolution grapeDt lastIdx
  rw [List.getLast?_eq_some_getLast hg]
  have := fori_slices (step := lbSlice E gamma (grid.getLast hg / grid.length)) drive grid.length 0 v (by omega)
  rw [List.drop_zero, ← h, List.take_length] at this
  rw [← h]
  exact this

/-- the trace -/
theorem lbSlice_trace (E gamma dt u : ℝ) (v : Fin 4 → ℂ) : lbSlice E gamma dt v u 0 + lbSlice E gamma dt v u 3 = v 0 + v 3 := by
  have h : (![1, 0, 0, 1] : Fin 4 → ℂ) ᵥ* ((dt : ℂ) • (lbConst E gamma + (u : ℂ) • lbDrive)) = (0 : ℂ) • ![1, 0, 0, 1] := by
    funext j
    fin_cases j <;> simp [lbConst, lbDrive, vecMul, dotProduct, Fin.sum_univ_succ]
  have h1 := vecMul_exp h
  rw [Complex.exp_zero, one_smul] at h1
  have h2 : (![1, 0, 0, 1] : Fin 4 → ℂ) ⬝ᵥ lbSlice E gamma dt v u = ![1, 0, 0, 1] ⬝ᵥ v := by
    unfold lbSlice
    rw [dotProduct_mulVec, h1]
  simpa [dotProduct, Fin.sum_univ_succ] using h2

theorem lb_left {E gamma dt : ℝ} {i : Fin 4} {c : ℂ} (h : lbConst E gamma i = c • Pi.single i 1) (v : Fin 4 → ℂ) :
    lbSlice E gamma dt v 0 i = Complex.exp (dt * c) * v i := by
  have h0 : (Pi.single i 1 : Fin 4 → ℂ) ᵥ* ((dt : ℂ) • (lbConst E gamma + ((0 : ℝ) : ℂ) • lbDrive)) = ((dt : ℂ) * c) • Pi.single i 1 := by
    rw [Complex.ofReal_zero, zero_smul, add_zero, vecMul_smul, single_one_vecMul, mul_smul, ← h]
    rfl
  have h1 := vecMul_exp h0
  have h2 : (Pi.single i 1 : Fin 4 → ℂ) ⬝ᵥ lbSlice E gamma dt v 0 = (Complex.exp (dt * c) • Pi.single i 1) ⬝ᵥ v := by
    unfold lbSlice
    rw [dotProduct_mulVec, h1]
  simpa using h2

theorem lb_idle {E gamma dt : ℝ} {i : Fin 4} {c : ℂ} (h : lbConst E gamma i = c • Pi.single i 1) (m : ℕ) (v : Fin 4 → ℂ) :
    (List.replicate m (0 : ℝ)).foldl (lbSlice E gamma dt) v i = Complex.exp (m * dt * c) * v i := by
  induction m generalizing v with
  | zero => simp
  | succ m ih =>
    rw [List.replicate_succ, List.foldl_cons, ih, lb_left h, ← mul_assoc, ← Complex.exp_add]
    congr 2
    push_cast
    ring

theorem lb_trace (E gamma dt : ℝ) (us : List ℝ) (v : Fin 4 → ℂ) :
    us.foldl (lbSlice E gamma dt) v 0 + us.foldl (lbSlice E gamma dt) v 3 = v 0 + v 3 := by
  induction us generalizing v with
  | nil => rfl
  | cons u us ih => rw [List.foldl_cons, ih, lbSlice_trace]

/-- a drive produces coherence -/
theorem lb_coherence (E gamma : ℝ) : ∃ dt : ℝ, 0 < dt ∧ lbSlice E gamma dt (toLFS lbInitial) 1 1 ≠ 0 := by
  have h0 := hasDerivAt_exp_smul_const (𝕂 := ℝ) (lbConst E gamma + ((1 : ℝ) : ℂ) • lbDrive) 0
  rw [zero_smul, NormedSpace.exp_zero, one_mul] at h0
  have h1 : HasDerivAt (fun t : ℝ => (NormedSpace.exp (t • (lbConst E gamma + ((1 : ℝ) : ℂ) • lbDrive))) 1 0) Complex.I 0 := by
    have hl : HasDerivAt (fun t : ℝ => (NormedSpace.exp (t • (lbConst E gamma + ((1 : ℝ) : ℂ) • lbDrive))) 1 0)
        ((lbConst E gamma + ((1 : ℝ) : ℂ) • lbDrive) 1 0) 0 :=
      hasDerivAt_pi.1 (hasDerivAt_pi.1 h0 1) 0
    simpa [lbConst, lbDrive] using hl
  have h2 := h1.eventually_ne (c := 0) Complex.I_ne_zero
  have h3 : ∀ᶠ t in nhdsWithin (0 : ℝ) (Set.Ioi 0), (NormedSpace.exp (t • (lbConst E gamma + ((1 : ℝ) : ℂ) • lbDrive))) 1 0 ≠ 0 :=
    h2.filter_mono (nhdsWithin_mono _ fun x hx => ne_of_gt hx)
  obtain ⟨t, ht, hpos⟩ := (h3.and self_mem_nhdsWithin).exists
  refine ⟨t, hpos, ?_⟩
  have he : ((t : ℂ) • (lbConst E gamma + ((1 : ℝ) : ℂ) • lbDrive)) = t • (lbConst E gamma + ((1 : ℝ) : ℂ) • lbDrive) := by
    ext i j; simp [mul_add]
  unfold lbSlice
  rw [he]
  simpa [toLFS, lbInitial, mulVec, dotProduct, Fin.sum_univ_succ] using ht

end
end QuOCS

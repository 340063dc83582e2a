/-
Density matrices of pure states, square roots of matrices, fidelities.
-/
import Verif.Model.Ising
import Verif.Spec.Problems
import Mathlib.Analysis.Matrix.Order

set_option linter.unusedSectionVars false
set_option linter.unusedVariables false

namespace QuOCS
open Matrix
open scoped ComplexOrder MatrixOrder

namespace Density
variable {d : ℕ}

theorem sqrt_unique {B C : CMat d} (hB : B.PosSemidef) (hC : C.PosSemidef) (h : B * B = C * C) : B = C := by
  have h1 : CFC.sqrt (C * C) = B := CFC.sqrt_unique h hB.nonneg
  have h2 : CFC.sqrt (C * C) = C := CFC.sqrt_unique rfl hC.nonneg
  rw [← h1, h2]

/-- there is such a function -/
theorem exists_sqrtm : IsSqrtm (d := d) CFC.sqrt := fun A hA =>
  ⟨(CFC.sqrt_nonneg A).posSemidef, CFC.sqrt_mul_sqrt_self A hA.nonneg⟩

theorem sqrtm_eq {sqrtm : CMat d → CMat d} (hs : IsSqrtm sqrtm) {B A : CMat d} (hB : B.PosSemidef) (h : B * B = A) : sqrtm A = B := by
  have hA : A.PosSemidef := by
    have := Matrix.posSemidef_conjTranspose_mul_self B
    rwa [hB.1, h] at this
  obtain ⟨h1, h2⟩ := hs A hA
  exact sqrt_unique h1 hB (h2.trans h.symm)

theorem pure_posSemidef (v : Fin d → ℂ) : (pureState v).PosSemidef := posSemidef_vecMulVec_self_star v

theorem star_dot_self {v : Fin d → ℂ} (h : IsUnitKet v) : star v ⬝ᵥ v = 1 := by
  have : star v ⬝ᵥ v = ((∑ i, ‖v i‖ ^ 2 : ℝ) : ℂ) := by
    show ∑ i, star (v i) * v i = _
    rw [Complex.ofReal_sum]
    refine Finset.sum_congr rfl fun i _ => ?_
    rw [Complex.star_def, Complex.conj_mul', Complex.ofReal_pow]
  rw [this, h, Complex.ofReal_one]

theorem pure_mul_pure (v w : Fin d → ℂ) : pureState v * pureState w = (star v ⬝ᵥ w) • vecMulVec v (star w) := by
  unfold pureState
  rw [Matrix.vecMulVec_mul_vecMulVec, Matrix.vecMulVec_smul]

theorem pure_sq {v : Fin d → ℂ} (h : IsUnitKet v) : pureState v * pureState v = pureState v := by
  rw [pure_mul_pure, star_dot_self h, one_smul]; rfl

theorem trace_pure {v : Fin d → ℂ} (h : IsUnitKet v) : (pureState v).trace = 1 := by
  unfold pureState
  rw [Matrix.trace_vecMulVec, dotProduct_comm, star_dot_self h]

theorem star_dot (v w : Fin d → ℂ) : star w ⬝ᵥ v = star (star v ⬝ᵥ w) := by
  rw [Matrix.star_dotProduct]

theorem transition_eq (v w : Fin d → ℂ) : ((transition v w : ℝ) : ℂ) = (star v ⬝ᵥ w) * (star w ⬝ᵥ v) := by
  rw [star_dot v w, Complex.star_def, Complex.mul_conj']
  unfold transition
  rw [Complex.ofReal_pow]; rfl

theorem sandwich (v w : Fin d → ℂ) : pureState v * pureState w * pureState v = ((transition v w : ℝ) : ℂ) • pureState v := by
  rw [pure_mul_pure, Matrix.smul_mul, pureState, Matrix.vecMulVec_mul_vecMulVec, Matrix.vecMulVec_smul, smul_smul, transition_eq]

/-- both fidelities of pure states are the transition probability -/
theorem fidelitySqrtm_pure {sqrtm : CMat d → CMat d} (hs : IsSqrtm sqrtm) {v w : Fin d → ℂ} (hv : IsUnitKet v) :
    fidelitySqrtm sqrtm (pureState v) (pureState w) = transition v w := by
  have h1 : sqrtm (pureState v) = pureState v := sqrtm_eq hs (pure_posSemidef v) (pure_sq hv)
  have ht : 0 ≤ transition v w := sq_nonneg _
  have h2 : sqrtm (pureState v * pureState w * pureState v) = ((Real.sqrt (transition v w) : ℝ) : ℂ) • pureState v := by
    refine sqrtm_eq hs ((pure_posSemidef v).smul (by exact_mod_cast Real.sqrt_nonneg _)) ?_
    rw [sandwich, Matrix.smul_mul, Matrix.mul_smul, smul_smul, pure_sq hv, ← Complex.ofReal_mul, Real.mul_self_sqrt ht]
  unfold fidelitySqrtm
  rw [h1, h2, Matrix.trace_smul, trace_pure hv, smul_eq_mul, mul_one, Complex.norm_real, Real.norm_eq_abs, sq_abs, Real.sq_sqrt ht]

theorem fidelityHS_pure (v w : Fin d → ℂ) : fidelityHS (pureState v) (pureState w) = transition v w := by
  unfold fidelityHS
  rw [(pure_posSemidef v).1, pure_mul_pure, Matrix.trace_smul, Matrix.trace_vecMulVec, smul_eq_mul, dotProduct_comm v,
    ← transition_eq, Complex.norm_real, Real.norm_eq_abs, abs_of_nonneg (show 0 ≤ transition v w from sq_nonneg _)]

theorem evolve_pure (U : CMat d) (v : Fin d → ℂ) : U * pureState v * Uᴴ = pureState (U *ᵥ v) := by
  unfold pureState
  rw [Matrix.mul_vecMulVec, Matrix.vecMulVec_mul, Matrix.star_mulVec]

theorem transpose_pure (v : Fin d → ℂ) : (pureState v)ᵀ = pureState (star v) := by
  unfold pureState
  rw [Matrix.transpose_vecMulVec, star_star]

end Density
end QuOCS

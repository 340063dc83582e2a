/-
Polar decomposition of square complex matrices.
-/
import Verif.Model.TimeEvolution
import Mathlib.Analysis.InnerProductSpace.PiL2
import Mathlib.Analysis.Matrix.Order
import Mathlib.LinearAlgebra.Isomorphisms

set_option linter.unusedSectionVars false
set_option linter.unusedVariables false

namespace QuOCS
open Matrix
open scoped ComplexOrder MatrixOrder

namespace Polar
variable {d : ℕ}

abbrev E (d : ℕ) := EuclideanSpace ℂ (Fin d)

theorem norm_sq (X : CMat d) (v : E d) :
    ((‖Matrix.toEuclideanLin X v‖ ^ 2 : ℝ) : ℂ) = star v.ofLp ⬝ᵥ ((Xᴴ * X) *ᵥ v.ofLp) := by
  rw [← Matrix.mulVec_mulVec, Matrix.dotProduct_mulVec, ← Matrix.star_mulVec, EuclideanSpace.norm_sq_eq]
  rw [Complex.ofReal_sum]
  show _ = ∑ i, star ((X *ᵥ v.ofLp) i) * (X *ᵥ v.ofLp) i
  refine Finset.sum_congr rfl fun i _ => ?_
  rw [Complex.star_def, Complex.conj_mul', Complex.ofReal_pow]
  rfl

/-- every square matrix is a unitary times the positive square root of `Xᴴ X` -/
theorem exists_polar (X P : CMat d) (hP : Pᴴ * P = Xᴴ * X) : ∃ W : CMat d, Wᴴ * W = 1 ∧ W * P = X := by
  let p := Matrix.toEuclideanLin P
  let x := Matrix.toEuclideanLin X
  have hn : ∀ v, ‖p v‖ = ‖x v‖ := fun v => by
    have h1 := norm_sq P v
    have h2 := norm_sq X v
    rw [hP, ← h2] at h1
    have h3 : ‖p v‖ ^ 2 = ‖x v‖ ^ 2 := by exact_mod_cast h1
    exact (pow_left_inj₀ (norm_nonneg _) (norm_nonneg _) two_ne_zero).1 h3
  have hk : LinearMap.ker p ≤ LinearMap.ker x := fun v hv => by
    rw [LinearMap.mem_ker] at hv ⊢
    rw [← norm_eq_zero, ← hn v, hv, norm_zero]
  let f : LinearMap.range p →ₗ[ℂ] E d := ((LinearMap.ker p).liftQ x hk).comp p.quotKerEquivRange.symm.toLinearMap
  have hf : ∀ v, f ⟨p v, v, rfl⟩ = x v := fun v => by
    show (LinearMap.ker p).liftQ x hk (p.quotKerEquivRange.symm ⟨p v, v, rfl⟩) = x v
    have : p.quotKerEquivRange.symm ⟨p v, v, rfl⟩ = Submodule.Quotient.mk v := by
      rw [LinearEquiv.symm_apply_eq]; rfl
    rw [this]
    rfl
  let g : LinearMap.range p →ₗᵢ[ℂ] E d := ⟨f, by
    rintro ⟨_, v, rfl⟩
    rw [hf v]
    exact (hn v).symm⟩
  let w := g.extend
  have hw : ∀ v, w (p v) = x v := fun v => by
    have := g.extend_apply ⟨p v, v, rfl⟩
    exact this.trans (hf v)
  let W : CMat d := Matrix.toEuclideanLin.symm w.toLinearMap
  have hW : Matrix.toEuclideanLin W = w.toLinearMap := LinearEquiv.apply_symm_apply _ _
  refine ⟨W, ?_, ?_⟩
  · have key : ∀ u v : Fin d → ℂ, star u ⬝ᵥ ((Wᴴ * W) *ᵥ v) = star u ⬝ᵥ v := fun u v => by
      have h1 : inner ℂ (w (WithLp.toLp 2 u)) (w (WithLp.toLp 2 v)) = inner ℂ (WithLp.toLp 2 u : E d) (WithLp.toLp 2 v) :=
        w.inner_map_map _ _
      have e : ∀ z : Fin d → ℂ, w (WithLp.toLp 2 z) = WithLp.toLp 2 (W *ᵥ z) := fun z => by
        show w.toLinearMap _ = _
        rw [← hW]; rfl
      have e2 : ∀ y z : Fin d → ℂ, inner ℂ (WithLp.toLp 2 y : E d) (WithLp.toLp 2 z) = star y ⬝ᵥ z := fun y z => by
        rw [EuclideanSpace.inner_eq_star_dotProduct, dotProduct_comm]
      rw [e, e, e2, e2] at h1
      rw [← h1, ← Matrix.mulVec_mulVec, Matrix.dotProduct_mulVec, ← Matrix.star_mulVec]
    ext i j
    have := key (Pi.single i 1) (Pi.single j 1)
    rw [Pi.star_single, star_one, Matrix.mulVec_single_one, single_one_dotProduct, single_one_dotProduct] at this
    rw [show (Wᴴ * W) i j = (Wᴴ * W).col j i from rfl, this, Matrix.one_apply, Pi.single_apply]
  · apply Matrix.toEuclideanLin.injective
    refine LinearMap.ext fun v => ?_
    have h2 : Matrix.toEuclideanLin (W * P) v = Matrix.toEuclideanLin W (p v) := by
      show WithLp.toLp 2 ((W * P) *ᵥ v.ofLp) = WithLp.toLp 2 (W *ᵥ (P *ᵥ v.ofLp))
      rw [Matrix.mulVec_mulVec]
    rw [h2, hW]
    exact hw v

end Polar
end QuOCS

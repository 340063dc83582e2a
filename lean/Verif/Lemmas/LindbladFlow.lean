/-
Solutions of the Lindblad equation with a Hermitian jump operator: trace, Hermiticity, contraction, uniqueness, positivity.
-/
import Verif.Spec.IsingLindblad
import Mathlib.Analysis.Calculus.MeanValue
import Mathlib.Analysis.Calculus.Deriv.Star
import Mathlib.Analysis.Complex.Basic
import Mathlib.Analysis.SpecialFunctions.Exponential

set_option linter.unusedSectionVars false
set_option linter.unusedVariables false

namespace QuOCS
namespace LFlow
open Matrix Set

variable {d : ℕ} {H : ℝ → Matrix (Fin d) (Fin d) ℂ} {L rho0 : Matrix (Fin d) (Fin d) ℂ} {T : ℝ} {rho sig : ℝ → Matrix (Fin d) (Fin d) ℂ}

/-- the equation -/
noncomputable abbrev eqn (H : ℝ → Matrix (Fin d) (Fin d) ℂ) (L : Matrix (Fin d) (Fin d) ℂ) :
    Matrix (Fin d) (Fin d) ℂ → ℝ → Matrix (Fin d) (Fin d) ℂ := fun r t => lindbladRhs (H t) L r

theorem rhs_trace (A L r : Matrix (Fin d) (Fin d) ℂ) : (lindbladRhs A L r).trace = 0 := by
  unfold lindbladRhs
  rw [trace_add, trace_smul, trace_sub, trace_sub, trace_smul, trace_add, Matrix.trace_mul_comm A r]
  rw [show (L * r * Lᴴ).trace = (Lᴴ * L * r).trace by rw [Matrix.trace_mul_comm, ← Matrix.mul_assoc],
    show (r * (Lᴴ * L)).trace = (Lᴴ * L * r).trace by rw [Matrix.trace_mul_comm]]
  simp
  ring

theorem rhs_sub (A L r s : Matrix (Fin d) (Fin d) ℂ) : lindbladRhs A L (r - s) = lindbladRhs A L r - lindbladRhs A L s := by
  unfold lindbladRhs
  simp only [Matrix.mul_sub, Matrix.sub_mul, smul_sub, smul_add]
  abel

theorem rhs_add_one (A L r : Matrix (Fin d) (Fin d) ℂ) (hL : L.IsHermitian) (c : ℂ) : lindbladRhs A L (r + c • 1) = lindbladRhs A L r := by
  unfold lindbladRhs
  rw [hL.eq]
  simp only [Matrix.mul_add, Matrix.add_mul, smul_add, Matrix.mul_smul, Matrix.smul_mul, Matrix.mul_one, Matrix.one_mul]
  module

theorem rhs_star {A : Matrix (Fin d) (Fin d) ℂ} (hA : A.IsHermitian) (L r : Matrix (Fin d) (Fin d) ℂ) :
    (lindbladRhs A L r)ᴴ = lindbladRhs A L rᴴ := by
  unfold lindbladRhs
  simp only [conjTranspose_add, conjTranspose_sub, conjTranspose_smul, conjTranspose_mul, conjTranspose_conjTranspose, hA.eq]
  have h2 : star (1 / 2 : ℂ) = 1 / 2 := by simp
  rw [h2, star_neg, show star Complex.I = -Complex.I from Complex.conj_I]
  simp only [Matrix.mul_assoc]
  module

/-- the square of the Hilbert-Schmidt norm -/
noncomputable def hs (r : Matrix (Fin d) (Fin d) ℂ) : ℝ := ∑ i, ∑ j, Complex.normSq (r i j)

theorem hs_nonneg (r : Matrix (Fin d) (Fin d) ℂ) : 0 ≤ hs r :=
  Finset.sum_nonneg fun i _ => Finset.sum_nonneg fun j _ => Complex.normSq_nonneg _

theorem hs_eq_zero {r : Matrix (Fin d) (Fin d) ℂ} (h : hs r = 0) : r = 0 := by
  ext i j
  have h1 := (Finset.sum_eq_zero_iff_of_nonneg fun i _ => Finset.sum_nonneg fun j _ => Complex.normSq_nonneg (r i j)).1 h i (Finset.mem_univ i)
  have h2 := (Finset.sum_eq_zero_iff_of_nonneg fun j _ => Complex.normSq_nonneg (r i j)).1 h1 j (Finset.mem_univ j)
  simpa using h2

theorem hs_trace (r : Matrix (Fin d) (Fin d) ℂ) : (rᴴ * r).trace = (hs r : ℂ) := by
  unfold hs Matrix.trace
  simp only [Matrix.diag_apply, Matrix.mul_apply, conjTranspose_apply]
  rw [Finset.sum_comm]
  push_cast
  refine Finset.sum_congr rfl fun i _ => Finset.sum_congr rfl fun j _ => ?_
  rw [Complex.normSq_eq_conj_mul_self]
  rfl

/-- the real part of the product of a matrix with the right-hand side -/
theorem rhs_dissipates {A L : Matrix (Fin d) (Fin d) ℂ} (hA : A.IsHermitian) (hL : L.IsHermitian) (r : Matrix (Fin d) (Fin d) ℂ) :
    ((rᴴ * lindbladRhs A L r).trace).re = -(1 / 2) * hs (L * r - r * L) := by
  have e1 : (rᴴ * (A * r)).trace.im = 0 := by
    have : star (rᴴ * (A * r)).trace = (rᴴ * (A * r)).trace := by
      rw [← Matrix.trace_conjTranspose]
      simp [conjTranspose_mul, hA.eq, Matrix.mul_assoc]
    exact Complex.conj_eq_iff_im.1 this
  have e2 : (rᴴ * (r * A)).trace.im = 0 := by
    have : star (rᴴ * (r * A)).trace = (rᴴ * (r * A)).trace := by
      rw [← Matrix.trace_conjTranspose]
      simp only [conjTranspose_mul, hA.eq, conjTranspose_conjTranspose, Matrix.mul_assoc]
      rw [Matrix.trace_mul_comm, Matrix.mul_assoc]
    exact Complex.conj_eq_iff_im.1 this
  have e3 : (rᴴ * (r * (L * L))).trace = (L * (rᴴ * (r * L))).trace := by
    rw [Matrix.trace_mul_comm L]; simp only [Matrix.mul_assoc]
  have e4 : star (rᴴ * (L * (r * L))).trace = (L * (rᴴ * (L * r))).trace := by
    rw [← Matrix.trace_conjTranspose]
    simp [conjTranspose_mul, hL.eq, Matrix.mul_assoc]
  have e5 : (rᴴ * (L * (r * L))).trace = (L * (rᴴ * (L * r))).trace := by
    rw [Matrix.trace_mul_comm L]; simp only [Matrix.mul_assoc]
  have h := hs_trace (L * r - r * L)
  have h' : (hs (L * r - r * L) : ℂ) = (rᴴ * (L * (L * r))).trace - (rᴴ * (L * (r * L))).trace - (L * (rᴴ * (L * r))).trace + (L * (rᴴ * (r * L))).trace := by
    rw [← h]
    simp only [conjTranspose_sub, conjTranspose_mul, hL.eq, Matrix.mul_sub, Matrix.sub_mul, trace_sub, Matrix.mul_assoc]
    ring
  have h'' := congrArg Complex.re h'
  unfold lindbladRhs
  simp only [hL.eq, Matrix.mul_add, Matrix.mul_sub, Matrix.mul_smul, trace_add, trace_sub, trace_smul, Matrix.mul_assoc, e3, e5] at h'' ⊢
  simp [e1, e2] at h'' ⊢
  linarith

theorem hs_deriv {t : ℝ} {g' : Matrix (Fin d) (Fin d) ℂ} (h : ∀ i j, HasDerivWithinAt (fun s => rho s i j) (g' i j) (Ici t) t) :
    HasDerivWithinAt (fun s => hs (rho s)) (2 * (((rho t)ᴴ * g').trace).re) (Ici t) t := by
  have e : 2 * (((rho t)ᴴ * g').trace).re = ∑ i, ∑ j, 2 * (star (rho t i j) * g' i j).re := by
    simp only [Matrix.trace, Matrix.diag_apply, Matrix.mul_apply, conjTranspose_apply, Complex.re_sum, Finset.mul_sum]
    rw [Finset.sum_comm]
  rw [e]
  unfold hs
  refine HasDerivWithinAt.fun_sum fun i _ => HasDerivWithinAt.fun_sum fun j _ => ?_
  have h1 := h i j
  have hre : HasDerivWithinAt (fun s => (rho s i j).re) (g' i j).re (Ici t) t :=
    (HasFDerivAt.comp_hasDerivWithinAt (l := Complex.reCLM) (l' := Complex.reCLM) t Complex.reCLM.hasFDerivAt h1 :)
  have him : HasDerivWithinAt (fun s => (rho s i j).im) (g' i j).im (Ici t) t :=
    (HasFDerivAt.comp_hasDerivWithinAt (l := Complex.imCLM) (l' := Complex.imCLM) t Complex.imCLM.hasFDerivAt h1 :)
  have := (hre.mul hre).add (him.mul him)
  simp only [Complex.normSq_apply]
  refine this.congr_deriv ?_
  simp [Complex.mul_re]
  ring

theorem hs_cont {s : Set ℝ} (h : ∀ i j, ContinuousOn (fun t => rho t i j) s) : ContinuousOn (fun t => hs (rho t)) s := by
  unfold hs
  exact continuousOn_finsetSum _ fun i _ => continuousOn_finsetSum _ fun j _ => Complex.continuous_normSq.comp_continuousOn (h i j)

theorem contracts (hH : ∀ t, (H t).IsHermitian) (hL : L.IsHermitian) (h : SolvesOn (eqn H L) rho0 T rho) {t : ℝ} (ht : t ∈ Icc 0 T) :
    hs (rho t) ≤ hs rho0 := by
  have := image_le_of_deriv_right_le_deriv_boundary (f := fun t => hs (rho t)) (B := fun _ => hs rho0) (B' := fun _ => 0) (hs_cont h.cont)
    (fun x hx => hs_deriv (h.deriv x hx)) (by rw [h.start]) continuousOn_const (fun x _ => hasDerivWithinAt_const _ _ _) ?_
  · exact this ht
  · intro x hx
    rw [rhs_dissipates (hH x) hL]
    have := hs_nonneg (L * rho x - rho x * L)
    linarith

theorem unique (hH : ∀ t, (H t).IsHermitian) (hL : L.IsHermitian) (h : SolvesOn (eqn H L) rho0 T rho) (h' : SolvesOn (eqn H L) rho0 T sig) {t : ℝ}
    (ht : t ∈ Icc 0 T) : rho t = sig t := by
  have hd : SolvesOn (eqn H L) 0 T (fun t => rho t - sig t) := by
    refine ⟨by simp [h.start, h'.start], fun i j => (h.cont i j).sub (h'.cont i j), fun t ht i j => ?_⟩
    have := (h.deriv t ht i j).sub (h'.deriv t ht i j)
    show HasDerivWithinAt _ (lindbladRhs (H t) L (rho t - sig t) i j) _ _
    rw [rhs_sub]
    exact this
  have := contracts hH hL hd ht
  have h0 : hs (0 : Matrix (Fin d) (Fin d) ℂ) = 0 := by simp [hs]
  rw [h0] at this
  exact sub_eq_zero.1 (hs_eq_zero (le_antisymm this (hs_nonneg _)))

theorem hermitian (hH : ∀ t, (H t).IsHermitian) (hL : L.IsHermitian) (h0 : rho0.IsHermitian) (h : SolvesOn (eqn H L) rho0 T rho) {t : ℝ}
    (ht : t ∈ Icc 0 T) : (rho t).IsHermitian := by
  have hd : SolvesOn (eqn H L) rho0 T (fun t => (rho t)ᴴ) := by
    refine ⟨by simp only [h.start]; exact h0.eq, fun i j => (h.cont j i).star, fun t ht i j => ?_⟩
    have := (h.deriv t ht j i).star
    show HasDerivWithinAt _ (lindbladRhs (H t) L ((rho t)ᴴ) i j) _ _
    rw [← rhs_star (hH t)]
    exact this
  exact (unique hH hL h hd ht).symm

theorem trace_const (h : SolvesOn (eqn H L) rho0 T rho) {t : ℝ} (ht : t ∈ Icc 0 T) : (rho t).trace = rho0.trace := by
  have := constant_of_has_deriv_right_zero (f := fun t => (rho t).trace) (a := 0) (b := T)
    (by unfold Matrix.trace; exact continuousOn_finsetSum _ fun i _ => h.cont i i) (fun x hx => by
      have h1 : HasDerivWithinAt (fun t => ∑ i, rho t i i) (∑ i, eqn H L (rho x) x i i) (Ici x) x :=
        HasDerivWithinAt.fun_sum fun i _ => h.deriv x hx i i
      exact h1.congr_deriv (rhs_trace (H x) L (rho x))) t ht
  rw [this, h.start]

/-! ### positivity -/

/-- the expectation value of a matrix -/
noncomputable def quad (r : Matrix (Fin d) (Fin d) ℂ) (v : Fin d → ℂ) : ℂ := star v ⬝ᵥ (r *ᵥ v)

theorem quad_eq (r : Matrix (Fin d) (Fin d) ℂ) (v : Fin d → ℂ) : quad r v = ∑ i, ∑ j, star (v i) * (r i j * v j) := by
  unfold quad
  simp only [dotProduct, mulVec, Pi.star_apply, Finset.mul_sum]

theorem quad_smul (r : Matrix (Fin d) (Fin d) ℂ) (c : ℂ) (v : Fin d → ℂ) : quad r (c • v) = Complex.normSq c * quad r v := by
  unfold quad
  rw [star_smul, mulVec_smul, smul_dotProduct, dotProduct_smul, smul_eq_mul, smul_eq_mul, ← mul_assoc, Complex.normSq_eq_conj_mul_self]
  rfl

theorem quad_deriv {t : ℝ} {g' : Matrix (Fin d) (Fin d) ℂ} (v : Fin d → ℂ) (h : ∀ i j, HasDerivWithinAt (fun s => rho s i j) (g' i j) (Ici t) t) :
    HasDerivWithinAt (fun s => (quad (rho s) v).re) (quad g' v).re (Ici t) t := by
  have h1 : HasDerivWithinAt (fun s => quad (rho s) v) (quad g' v) (Ici t) t := by
    simp only [quad_eq]
    exact HasDerivWithinAt.fun_sum fun i _ => HasDerivWithinAt.fun_sum fun j _ => ((h i j).mul_const _).const_mul _
  exact (HasFDerivAt.comp_hasDerivWithinAt (l := Complex.reCLM) (l' := Complex.reCLM) t Complex.reCLM.hasFDerivAt h1 :)

/-- the size of a vector -/
noncomputable def len (v : Fin d → ℂ) : ℝ := ∑ i, ‖v i‖

theorem len_nonneg (v : Fin d → ℂ) : 0 ≤ len v := Finset.sum_nonneg fun i _ => norm_nonneg _

theorem dot_le (v w : Fin d → ℂ) : ‖star v ⬝ᵥ w‖ ≤ len v * len w := by
  unfold len
  rw [Finset.sum_mul]
  refine (norm_sum_le _ _).trans (Finset.sum_le_sum fun i _ => ?_)
  rw [norm_mul, Pi.star_apply, norm_star]
  exact mul_le_mul_of_nonneg_left (Finset.single_le_sum (f := fun i => ‖w i‖) (fun i _ => norm_nonneg (w i)) (Finset.mem_univ i)) (norm_nonneg _)

theorem len_mulVec {A : Matrix (Fin d) (Fin d) ℂ} {C : ℝ} (hA : ∀ i j, ‖A i j‖ ≤ C) (v : Fin d → ℂ) : len (A *ᵥ v) ≤ d * (C * len v) := by
  unfold len
  calc ∑ i, ‖(A *ᵥ v) i‖ ≤ ∑ _i : Fin d, C * ∑ j, ‖v j‖ := Finset.sum_le_sum fun i _ => by
        rw [Finset.mul_sum]
        show ‖∑ j, A i j * v j‖ ≤ _
        refine (norm_sum_le _ _).trans (Finset.sum_le_sum fun j _ => ?_)
        rw [norm_mul]
        exact mul_le_mul_of_nonneg_right (hA i j) (norm_nonneg _)
    _ = d * (C * ∑ j, ‖v j‖) := by simp

/-- the expectation value of the right-hand side is bounded below by the size of `s v` -/
theorem rhs_quad {A L s : Matrix (Fin d) (Fin d) ℂ} (hA : A.IsHermitian) (hL : L.IsHermitian) (hs : s.IsHermitian) {C : ℝ} (hC : ∀ i j, ‖A i j‖ ≤ C)
    (v : Fin d → ℂ) (hp : 0 ≤ (quad s (L *ᵥ v)).re) :
    -((2 * (d * (C * len v)) + len (L *ᵥ (L *ᵥ v))) * len (s *ᵥ v)) ≤ (quad (lindbladRhs A L s) v).re := by
  have a1 : star v ⬝ᵥ (A *ᵥ (s *ᵥ v)) = star (A *ᵥ v) ⬝ᵥ (s *ᵥ v) := by
    rw [dotProduct_mulVec, star_mulVec, hA.eq]
  have a2 : star v ⬝ᵥ (s *ᵥ (A *ᵥ v)) = star (star (A *ᵥ v) ⬝ᵥ (s *ᵥ v)) := by
    rw [dotProduct_mulVec, ← star_dotProduct_star, star_star, star_mulVec, hs.eq, dotProduct_comm, dotProduct_comm]
  have a3 : star v ⬝ᵥ (L *ᵥ (s *ᵥ (L *ᵥ v))) = quad s (L *ᵥ v) := by
    unfold quad
    rw [dotProduct_mulVec (star v), star_mulVec, hL.eq]
  have a4 : star v ⬝ᵥ (L *ᵥ (L *ᵥ (s *ᵥ v))) = star (L *ᵥ (L *ᵥ v)) ⬝ᵥ (s *ᵥ v) := by
    rw [dotProduct_mulVec (star v), dotProduct_mulVec, star_mulVec, star_mulVec, hL.eq]
  have a5 : star v ⬝ᵥ (s *ᵥ (L *ᵥ (L *ᵥ v))) = star (star (L *ᵥ (L *ᵥ v)) ⬝ᵥ (s *ᵥ v)) := by
    rw [dotProduct_mulVec, ← star_dotProduct_star, star_star, star_mulVec, hs.eq, dotProduct_comm, dotProduct_comm]
  have e : quad (lindbladRhs A L s) v = -Complex.I * (star (A *ᵥ v) ⬝ᵥ (s *ᵥ v) - star (star (A *ᵥ v) ⬝ᵥ (s *ᵥ v))) +
      (quad s (L *ᵥ v) - 1 / 2 * (star (L *ᵥ (L *ᵥ v)) ⬝ᵥ (s *ᵥ v) + star (star (L *ᵥ (L *ᵥ v)) ⬝ᵥ (s *ᵥ v)))) := by
    rw [← a3]
    unfold quad lindbladRhs
    rw [hL.eq]
    simp only [add_mulVec, sub_mulVec, smul_mulVec, dotProduct_add, dotProduct_sub, dotProduct_smul, smul_eq_mul, ← mulVec_mulVec]
    rw [a1, a2, a4, a5]
  have b1 := dot_le (A *ᵥ v) (s *ᵥ v)
  have b2 := dot_le (L *ᵥ (L *ᵥ v)) (s *ᵥ v)
  have b3 := mul_le_mul_of_nonneg_right (len_mulVec hC v) (len_nonneg (s *ᵥ v))
  set z := star (A *ᵥ v) ⬝ᵥ (s *ᵥ v)
  set w := star (L *ᵥ (L *ᵥ v)) ⬝ᵥ (s *ᵥ v)
  have c1 := (abs_le.1 (Complex.abs_im_le_norm z)).1
  have c2 := (abs_le.1 (Complex.abs_re_le_norm w)).2
  have e2 : (quad (lindbladRhs A L s) v).re = 2 * z.im + ((quad s (L *ᵥ v)).re - w.re) := by
    rw [e]
    simp
    ring
  rw [e2]
  nlinarith

theorem quad_shift (r : Matrix (Fin d) (Fin d) ℂ) (c : ℝ) (v : Fin d → ℂ) :
    (quad (r + (c : ℂ) • 1) v).re = (quad r v).re + c * ∑ i, Complex.normSq (v i) := by
  unfold quad
  rw [add_mulVec, smul_mulVec, one_mulVec, dotProduct_add, dotProduct_smul, Complex.add_re, smul_eq_mul, Complex.re_ofReal_mul]
  congr 2
  simp [dotProduct, Complex.re_sum, Complex.normSq_apply]

theorem quad_nonneg_of_unit {r : Matrix (Fin d) (Fin d) ℂ} (h : ∀ v, (∑ i, Complex.normSq (v i) = 1) → 0 ≤ (quad r v).re) (v : Fin d → ℂ) :
    0 ≤ (quad r v).re := by
  by_cases h0 : ∑ i, Complex.normSq (v i) = 0
  · have hv : v = 0 := by
      funext i
      have := (Finset.sum_eq_zero_iff_of_nonneg fun i _ => Complex.normSq_nonneg (v i)).1 h0 i (Finset.mem_univ i)
      simpa using this
    rw [hv]
    simp [quad]
  · set N := ∑ i, Complex.normSq (v i) with hN
    have hpos : 0 < N := lt_of_le_of_ne (Finset.sum_nonneg fun i _ => Complex.normSq_nonneg _) (Ne.symm h0)
    have h1 := h ((((Real.sqrt N)⁻¹ : ℝ) : ℂ) • v) (by
      simp only [Pi.smul_apply, smul_eq_mul, Complex.normSq_mul, Complex.normSq_ofReal, ← Finset.mul_sum, ← hN]
      rw [← mul_inv, Real.mul_self_sqrt hpos.le, inv_mul_cancel₀ h0])
    rw [quad_smul, Complex.re_ofReal_mul, Complex.normSq_ofReal, ← mul_inv, Real.mul_self_sqrt hpos.le] at h1
    exact nonneg_of_mul_nonneg_right h1 (inv_pos.2 hpos)

open scoped ComplexOrder in
theorem posSemidef_of_quad {r : Matrix (Fin d) (Fin d) ℂ} (hr : r.IsHermitian) (h : ∀ v, 0 ≤ (quad r v).re) : r.PosSemidef := by
  refine PosSemidef.of_dotProduct_mulVec_nonneg hr fun v => Complex.nonneg_iff.2 ⟨h v, ?_⟩
  have : star (quad r v) = quad r v := by
    unfold quad
    rw [← star_dotProduct_star, star_star, star_mulVec, hr.eq, dotProduct_mulVec, dotProduct_comm]
  exact (Complex.conj_eq_iff_im.1 this).symm

theorem sphere_compact : IsCompact {v : Fin d → ℂ | ∑ i, Complex.normSq (v i) = 1} := by
  refine Metric.isCompact_of_isClosed_isBounded (isClosed_eq (by fun_prop) continuous_const) ?_
  refine (Metric.isBounded_closedBall (x := (0 : Fin d → ℂ)) (r := 1)).subset fun v hv => ?_
  rw [mem_closedBall_zero_iff, pi_norm_le_iff_of_nonneg zero_le_one]
  intro i
  have : Complex.normSq (v i) ≤ 1 := by
    rw [← (hv : _ = _)]
    exact Finset.single_le_sum (f := fun i => Complex.normSq (v i)) (fun i _ => Complex.normSq_nonneg _) (Finset.mem_univ i)
  rw [Complex.normSq_eq_norm_sq] at this
  exact (sq_le_one_iff₀ (norm_nonneg _)).1 this

open scoped ComplexOrder in
theorem pos (hH : ∀ t, (H t).IsHermitian) {C : ℝ} (hC : ∀ t i j, ‖H t i j‖ ≤ C) (hL : L.IsHermitian) (h0 : rho0.PosSemidef)
    (h : SolvesOn (eqn H L) rho0 T rho) {t : ℝ} (ht : t ∈ Icc 0 T) : (rho t).PosSemidef := by
  have hher := fun {t} ht => hermitian hH hL h0.isHermitian h (t := t) ht
  -- it suffices to show that the matrix is positive up to every positive amount
  suffices key : ∀ e > 0, ∀ v, (∑ i, Complex.normSq (v i) = 1) → ∀ t ∈ Icc 0 T, 0 < (quad (rho t + ((e * (1 + t) : ℝ) : ℂ) • 1) v).re by
    refine posSemidef_of_quad (hher ht) (quad_nonneg_of_unit fun v hv => ?_)
    refine le_of_forall_pos_lt_add fun e he => ?_
    have h1 : (0 : ℝ) < 1 + t := by have := ht.1; linarith
    have := key (e / (1 + t)) (by positivity) v hv t ht
    rwa [quad_shift, hv, mul_one, div_mul_cancel₀ _ h1.ne'] at this
  intro e he v hv t ht
  set sig : ℝ → Matrix (Fin d) (Fin d) ℂ := fun t => rho t + ((e * (1 + t) : ℝ) : ℂ) • 1 with hsig
  have scont : ∀ i j, ContinuousOn (fun t => sig t i j) (Icc 0 T) := fun i j => by
    have : ∀ t, sig t i j = rho t i j + ((e * (1 + t) : ℝ) : ℂ) * (1 : Matrix (Fin d) (Fin d) ℂ) i j := fun t => by simp [hsig]
    simp only [this]
    exact (h.cont i j).add (by fun_prop)
  have sher : ∀ {t}, t ∈ Icc 0 T → (sig t).IsHermitian := fun ht => (hher ht).add (by
    unfold Matrix.IsHermitian
    rw [conjTranspose_smul, conjTranspose_one]
    congr 1
    exact Complex.conj_ofReal _)
  have sder : ∀ t ∈ Ico 0 T, ∀ i j, HasDerivWithinAt (fun t => sig t i j) ((lindbladRhs (H t) L (sig t) + ((e : ℝ) : ℂ) • 1) i j) (Ici t) t := by
    intro t ht i j
    have e1 : ∀ t, sig t i j = rho t i j + ((e * (1 + t) : ℝ) : ℂ) * (1 : Matrix (Fin d) (Fin d) ℂ) i j := fun t => by simp [hsig]
    simp only [e1]
    have h2 : HasDerivWithinAt (fun t : ℝ => ((e * (1 + t) : ℝ) : ℂ)) ((e : ℝ) : ℂ) (Ici t) t := by
      have : HasDerivAt (fun t : ℝ => e * (1 + t)) e t := by
        simpa using ((hasDerivAt_id t).const_add 1).const_mul e
      exact this.ofReal_comp.hasDerivWithinAt
    have h3 := (h.deriv t ht i j).add (h2.mul_const ((1 : Matrix (Fin d) (Fin d) ℂ) i j))
    refine h3.congr_deriv ?_
    rw [rhs_add_one _ _ _ hL]
    simp
  by_contra hneg
  -- the first time at which the matrix is not positive
  have qcont : ContinuousOn (fun p : ℝ × (Fin d → ℂ) => (quad (sig p.1) p.2).re) (Icc 0 T ×ˢ {v | ∑ i, Complex.normSq (v i) = 1}) := by
    simp only [quad_eq]
    refine Complex.continuous_re.comp_continuousOn (continuousOn_finsetSum _ fun i _ => continuousOn_finsetSum _ fun j _ => ?_)
    refine ContinuousOn.mul (by fun_prop) (ContinuousOn.mul ?_ (by fun_prop))
    exact (scont i j).comp continuousOn_fst fun p hp => hp.1
  have hK : IsCompact ((Icc 0 T ×ˢ {v : Fin d → ℂ | ∑ i, Complex.normSq (v i) = 1}) ∩ (fun p : ℝ × (Fin d → ℂ) => (quad (sig p.1) p.2).re) ⁻¹' Iic 0) := by
    have hc : IsCompact (Icc (0 : ℝ) T ×ˢ {v : Fin d → ℂ | ∑ i, Complex.normSq (v i) = 1}) := isCompact_Icc.prod sphere_compact
    exact hc.of_isClosed_subset (qcont.preimage_isClosed_of_isClosed hc.isClosed isClosed_Iic) inter_subset_left
  obtain ⟨⟨t0, v0⟩, ⟨⟨ht0, hv0⟩, hq0⟩, hmin⟩ := hK.exists_isMinOn ⟨(t, v), ⟨ht, hv⟩, not_lt.1 hneg⟩ continuousOn_fst
  replace hv0 : ∑ i, Complex.normSq (v0 i) = 1 := hv0
  replace hq0 : (quad (sig t0) v0).re ≤ 0 := hq0
  have hbefore : ∀ t ∈ Ico 0 t0, ∀ v, (∑ i, Complex.normSq (v i) = 1) → 0 < (quad (sig t) v).re := by
    intro t ht v hv
    by_contra hc
    have : t0 ≤ t := hmin (a := (t, v)) ⟨⟨⟨ht.1, ht.2.le.trans ht0.2⟩, hv⟩, not_lt.1 hc⟩
    exact absurd ht.2 (not_lt.2 this)
  have hpos0 : 0 < t0 := by
    refine lt_of_le_of_ne ht0.1 fun hz => ?_
    rw [← hz] at hq0
    simp only [hsig] at hq0
    rw [quad_shift, hv0, h.start] at hq0
    have := (Complex.nonneg_iff.1 (h0.dotProduct_mulVec_nonneg v0)).1
    unfold quad at hq0
    nlinarith
  have gcont : ∀ v, ContinuousOn (fun t => (quad (sig t) v).re) (Icc 0 T) := fun v => by
    simp only [quad_eq]
    exact Complex.continuous_re.comp_continuousOn (continuousOn_finsetSum _ fun i _ => continuousOn_finsetSum _ fun j _ =>
      continuousOn_const.mul ((scont i j).mul continuousOn_const))
  have hsub : Ico 0 t0 ⊆ Icc 0 T := fun x hx => ⟨hx.1, hx.2.le.trans ht0.2⟩
  have hat : ∀ v, 0 ≤ (quad (sig t0) v).re := quad_nonneg_of_unit fun v hv =>
    ContinuousWithinAt.closure_le (s := Ico 0 t0) (f := fun _ => (0 : ℝ)) (by rw [closure_Ico hpos0.ne]; exact ⟨ht0.1, le_rfl⟩)
      continuousWithinAt_const (((gcont v) t0 ht0).mono hsub) fun y hy => (hbefore y hy v hv).le
  have hpsd := posSemidef_of_quad (sher ht0) hat
  have hz : sig t0 *ᵥ v0 = 0 := by
    refine (hpsd.dotProduct_mulVec_zero_iff v0).1 ?_
    have h1 := hpsd.dotProduct_mulVec_nonneg v0
    refine Complex.ext (le_antisymm hq0 (hat v0)) ?_
    exact (Complex.nonneg_iff.1 h1).2.symm
  -- shortly before, the expectation value grows
  set B := 2 * (d * (C * len v0)) + len (L *ᵥ (L *ᵥ v0)) with hB
  have wcont : ContinuousOn (fun t => B * len (sig t *ᵥ v0)) (Icc 0 T) := by
    unfold len
    refine continuousOn_const.mul (continuousOn_finsetSum _ fun i _ => ContinuousOn.norm ?_)
    unfold mulVec dotProduct
    exact continuousOn_finsetSum _ fun j _ => (scont i j).mul continuousOn_const
  have hlim : ∀ᶠ t in nhdsWithin t0 (Icc 0 T), B * len (sig t *ᵥ v0) < e := by
    have h1 := wcont t0 ht0
    have h2 : B * len (sig t0 *ᵥ v0) < e := by
      rw [hz]
      simp [len, he]
    exact h1.eventually (gt_mem_nhds h2)
  obtain ⟨dl, hdl, hnear⟩ := Metric.mem_nhdsWithin_iff.1 hlim
  set a := max 0 (t0 - dl / 2) with ha
  have ha0 : 0 ≤ a := le_max_left _ _
  have hat0 : a < t0 := max_lt hpos0 (by linarith)
  have hclose : ∀ x ∈ Ico a t0, B * len (sig x *ᵥ v0) < e := fun x hx => hnear ⟨by
    rw [Metric.mem_ball, Real.dist_eq, abs_lt]
    have := le_max_right 0 (t0 - dl / 2)
    have h1 := hx.1
    have h2 := hx.2
    constructor <;> linarith, ⟨ha0.trans hx.1, hx.2.le.trans ht0.2⟩⟩
  have hmono : -(quad (sig t0) v0).re ≤ -(quad (sig a) v0).re := image_le_of_deriv_right_le_deriv_boundary (a := a) (b := t0) (f := fun t => -(quad (sig t) v0).re)
    (f' := fun t => -(quad (lindbladRhs (H t) L (sig t) + ((e : ℝ) : ℂ) • 1) v0).re) (B := fun _ => -(quad (sig a) v0).re) (B' := fun _ => 0)
    ((gcont v0).neg.mono (Icc_subset_Icc ha0 ht0.2)) (fun x hx => (quad_deriv v0 (sder x ⟨ha0.trans hx.1, hx.2.trans_le ht0.2⟩)).neg) le_rfl
    continuousOn_const (fun x _ => hasDerivWithinAt_const _ _ _) (fun x hx => by
      have hx0 : x ∈ Ico 0 t0 := ⟨ha0.trans hx.1, hx.2⟩
      have h1 := rhs_quad (hH x) hL (sher (hsub hx0)) (hC x) v0 (quad_nonneg_of_unit (fun v hv => (hbefore x hx0 v hv).le) (L *ᵥ v0))
      rw [← hB] at h1
      rw [quad_shift, hv0]
      have := hclose x hx
      linarith) (x := t0) ⟨hat0.le, le_rfl⟩
  have hfin := hbefore a ⟨ha0, hat0⟩ v0 hv0
  linarith

/-! ### existence -/

/-- the right-hand side as a real linear map -/
noncomputable def rhsMap (A L : Matrix (Fin d) (Fin d) ℂ) : (Fin d → Fin d → ℂ) →L[ℝ] (Fin d → Fin d → ℂ) :=
  LinearMap.toContinuousLinearMap
    { toFun := fun r => lindbladRhs A L (Matrix.of r)
      map_add' := fun r s => by
        show lindbladRhs A L (Matrix.of r + Matrix.of s) = lindbladRhs A L (Matrix.of r) + lindbladRhs A L (Matrix.of s)
        unfold lindbladRhs
        simp only [Matrix.mul_add, Matrix.add_mul, smul_add]
        module
      map_smul' := fun c r => by
        show lindbladRhs A L (c • Matrix.of r) = c • lindbladRhs A L (Matrix.of r)
        unfold lindbladRhs
        simp only [Matrix.mul_smul, Matrix.smul_mul, smul_sub, smul_add, smul_comm c] }

theorem linear_flow {E : Type} [NormedAddCommGroup E] [NormedSpace ℝ E] [CompleteSpace E] (A : E →L[ℝ] E) (a : ℝ) (y0 : E) :
    ∃ y : ℝ → E, y a = y0 ∧ ∀ t, HasDerivAt y (A (y t)) t := by
  refine ⟨fun t => NormedSpace.exp ((t - a) • A) y0, by simp, fun t => ?_⟩
  have h1 : HasDerivAt (fun t : ℝ => NormedSpace.exp ((t - a) • A)) (A * NormedSpace.exp ((t - a) • A)) t := by
    have := (hasDerivAt_exp_smul_const' (𝕂 := ℝ) A (t - a)).scomp t ((hasDerivAt_id t).sub_const a)
    rw [one_smul] at this
    exact this
  exact h1.clm_apply (hasDerivAt_const t y0) |>.congr_deriv (by simp)

theorem exists_solution {h : ℝ} (hh : 0 < h) (Hk : ℕ → Matrix (Fin d) (Fin d) ℂ) (m : ℕ)
    (hH : ∀ k < m, ∀ t ∈ Ico (k * h) ((k + 1) * h), H t = Hk k) : ∃ rho, SolvesOn (eqn H L) rho0 (m * h) rho := by
  induction m with
  | zero =>
    refine ⟨fun _ => rho0, rfl, fun i j => continuousOn_const, fun t ht => ?_⟩
    simp at ht
  | succ m ih =>
    obtain ⟨rho, hr⟩ := ih fun k hk => hH k (by omega)
    obtain ⟨y, y1, y2⟩ := linear_flow (rhsMap (Hk m) L) (m * h) (fun i j => rho (m * h) i j)
    have y3 : ∀ i j t, HasDerivAt (fun t => y t i j) (lindbladRhs (Hk m) L (Matrix.of (y t)) i j) t := fun i j t =>
      hasDerivAt_pi.1 (hasDerivAt_pi.1 (y2 t) i) j
    have hm : 0 ≤ m * h := by positivity
    have e2 : ((m + 1 : ℕ) : ℝ) * h = (m + 1) * h := by push_cast; ring
    rw [e2]
    have hlt : m * h < (m + 1) * h := by nlinarith
    set s : ℝ → Matrix (Fin d) (Fin d) ℂ := fun t => if t < m * h then rho t else Matrix.of (y t) with hs
    have s1 : ∀ t ∈ Icc 0 (m * h), s t = rho t := fun t ht => by
      rcases lt_or_eq_of_le ht.2 with hl | hl
      · simp [hs, hl]
      · simp only [hs, hl, lt_irrefl, if_false, y1]
        rfl
    have s2 : ∀ t, m * h ≤ t → s t = Matrix.of (y t) := fun t ht => by simp [hs, not_lt.2 ht]
    refine ⟨s, by rw [s1 0 ⟨le_rfl, hm⟩, hr.start], fun i j => ?_, fun t ht i j => ?_⟩
    · rw [← Icc_union_Icc_eq_Icc hm hlt.le]
      refine ContinuousOn.union_of_isClosed ?_ ?_ isClosed_Icc isClosed_Icc
      · exact (hr.cont i j).congr fun t ht => by rw [s1 t ht]
      · have : Continuous fun t => y t i j := continuous_iff_continuousAt.2 fun t => (y3 i j t).continuousAt
        exact this.continuousOn.congr fun t ht => by rw [s2 t ht.1]; rfl
    · by_cases hl : t < m * h
      · have h1 := hr.deriv t ⟨ht.1, hl⟩ i j
        have h2 : (fun t => s t i j) =ᶠ[nhdsWithin t (Ici t)] fun t => rho t i j := by
          filter_upwards [mem_nhdsWithin_of_mem_nhds (Iio_mem_nhds hl)] with x hx
          simp only [hs, if_pos (show x < m * h from hx)]
        have h3 := h1.congr_of_eventuallyEq h2 (by rw [s1 t ⟨ht.1, hl.le⟩])
        rw [s1 t ⟨ht.1, hl.le⟩]
        exact h3
      · have hge := not_lt.1 hl
        have h1 := (y3 i j t).hasDerivWithinAt (s := Ici t)
        have h3 := h1.congr (f₁ := fun t => s t i j) (fun x hx => by rw [s2 x (hge.trans hx)]; rfl) (by rw [s2 t hge]; rfl)
        rw [s2 t hge]
        show HasDerivWithinAt _ (lindbladRhs (H t) L (Matrix.of (y t)) i j) _ _
        rw [hH m (by omega) t ⟨hge, ht.2⟩]
        exact h3

end LFlow
end QuOCS

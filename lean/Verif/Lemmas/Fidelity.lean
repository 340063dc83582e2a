/-
The Uhlmann fidelity of density matrices.
-/
import Verif.Lemmas.Polar
import Verif.Lemmas.Density
import Verif.Model.Tools
import Verif.Spec.Tools
import Mathlib.Analysis.Matrix.PosDef
import Mathlib.LinearAlgebra.Matrix.Charpoly.Coeff

set_option linter.unusedSectionVars false
set_option linter.unusedVariables false

namespace QuOCS
open Matrix
open scoped ComplexOrder MatrixOrder

namespace Fidelity
variable {d : ℕ}

theorem root_psd (a : CMat d) : (CFC.sqrt a).PosSemidef := (CFC.sqrt_nonneg a).posSemidef

theorem root_herm (a : CMat d) : (CFC.sqrt a)ᴴ = CFC.sqrt a := (root_psd a).1

theorem root_mul {a : CMat d} (h : a.PosSemidef) : CFC.sqrt a * CFC.sqrt a = a := CFC.sqrt_mul_sqrt_self a h.nonneg

theorem root_eq {a b : CMat d} (hb : b.PosSemidef) (h : b * b = a) : CFC.sqrt a = b := Density.sqrtm_eq Density.exists_sqrtm hb h

theorem sandwich_psd {a b : CMat d} (hb : b.PosSemidef) : (CFC.sqrt a * b * CFC.sqrt a).PosSemidef := by
  have := hb.mul_mul_conjTranspose_same (CFC.sqrt a)
  rwa [root_herm] at this

theorem unitary_comm {V : CMat d} (h : Vᴴ * V = 1) : V * Vᴴ = 1 := mul_eq_one_comm.1 h

/-- a matrix `V diag(f) Vᴴ` with nonnegative entries -/
theorem conj_diag_psd {V : CMat d} {f : Fin d → ℝ} (hf : ∀ i, 0 ≤ f i) : (V * diagonal (fun i => (f i : ℂ)) * Vᴴ).PosSemidef :=
  (PosSemidef.diagonal fun i => by simpa using Complex.zero_le_real.2 (hf i)).mul_mul_conjTranspose_same V

theorem conj_diag_mul {V : CMat d} (h : Vᴴ * V = 1) (f g : Fin d → ℝ) :
    (V * diagonal (fun i => (f i : ℂ)) * Vᴴ) * (V * diagonal (fun i => (g i : ℂ)) * Vᴴ)
      = V * diagonal (fun i => ((f i * g i : ℝ) : ℂ)) * Vᴴ := by
  calc _ = V * diagonal (fun i => (f i : ℂ)) * (Vᴴ * V) * diagonal (fun i => (g i : ℂ)) * Vᴴ := by simp only [Matrix.mul_assoc]
    _ = _ := by
      rw [h, Matrix.mul_one, Matrix.mul_assoc V, Matrix.diagonal_mul_diagonal]
      simp only [Complex.ofReal_mul]

theorem diag_psd_nonneg {V : CMat d} {f : Fin d → ℝ} {a : CMat d} (ha : a.PosSemidef) (h : Vᴴ * V = 1)
    (e : a = V * diagonal (fun i => (f i : ℂ)) * Vᴴ) : ∀ i, 0 ≤ f i := fun i => by
  have h1 := ha.conjTranspose_mul_mul_same V
  have h2 : Vᴴ * a * V = diagonal (fun i => (f i : ℂ)) := by
    rw [e]
    calc _ = (Vᴴ * V) * diagonal (fun i => (f i : ℂ)) * (Vᴴ * V) := by simp only [Matrix.mul_assoc]
      _ = _ := by rw [h]; simp
  rw [h2] at h1
  have := (Matrix.posSemidef_diagonal_iff.1 h1) i
  exact Complex.zero_le_real.1 this

/-- `_sqrtm` returns the positive square root of a positive semidefinite matrix -/
theorem jaxSqrtm_isSqrtm {eigh : CMat d → (Fin d → ℝ) × CMat d} (he : IsEigh eigh) : IsSqrtm (jaxSqrtm eigh) := fun a ha => by
  obtain ⟨h1, h2⟩ := he a ha.1
  have e : a = (eigh a).2 * diagonal (fun i => ((eigh a).1 i : ℂ)) * (eigh a).2ᴴ := by
    rw [← h2, Matrix.mul_assoc, unitary_comm h1, Matrix.mul_one]
  have hi : (eigh a).2⁻¹ = (eigh a).2ᴴ := Matrix.inv_eq_left_inv h1
  have hn := diag_psd_nonneg ha h1 e
  unfold jaxSqrtm
  rw [hi]
  refine ⟨conj_diag_psd fun i => Real.sqrt_nonneg _, ?_⟩
  rw [conj_diag_mul h1]
  conv_rhs => rw [e]
  congr 3
  funext i
  simp only [Real.mul_self_sqrt (hn i)]

/-- the sum of the roots of the eigenvalues is the trace of the root -/
theorem sum_sqrt_roots {m : CMat d} (hm : m.PosSemidef) {l : List ℂ} (hl : (↑l : Multiset ℂ) = m.charpoly.roots) :
    (l.map fun e => Real.sqrt (if e.re > 0 then e.re else 0)).sum = (CFC.sqrt m).trace.re := by
  have hH : m.IsHermitian := hm.1
  let V : CMat d := hH.eigenvectorUnitary
  have hV : Vᴴ * V = 1 := by
    have := (Matrix.mem_unitaryGroup_iff'.1 hH.eigenvectorUnitary.2)
    exact this
  have e : m = V * diagonal (fun i => (hH.eigenvalues i : ℂ)) * Vᴴ := by
    have := hH.spectral_theorem
    exact this
  have hn := diag_psd_nonneg hm hV e
  have hr : CFC.sqrt m = V * diagonal (fun i => ((Real.sqrt (hH.eigenvalues i) : ℝ) : ℂ)) * Vᴴ := by
    refine root_eq (conj_diag_psd fun i => Real.sqrt_nonneg _) ?_
    rw [conj_diag_mul hV]
    conv_rhs => rw [e]
    congr 3
    funext i
    simp only [Real.mul_self_sqrt (hn i)]
  have ht : (CFC.sqrt m).trace.re = ∑ i, Real.sqrt (hH.eigenvalues i) := by
    rw [hr, Matrix.trace_mul_comm, ← Matrix.mul_assoc, hV, Matrix.one_mul, Matrix.trace_diagonal, ← Complex.ofReal_sum, Complex.ofReal_re]
  rw [ht, ← Multiset.sum_coe, ← Multiset.map_coe, hl, hH.roots_charpoly_eq_eigenvalues, Multiset.map_map]
  show ∑ i, _ = _
  refine Finset.sum_congr rfl fun i _ => ?_
  show Real.sqrt (if ((hH.eigenvalues i : ℂ)).re > 0 then ((hH.eigenvalues i : ℂ)).re else 0) = _
  rw [Complex.ofReal_re]
  split
  · rfl
  · next h => rw [le_antisymm (not_lt.1 h) (hn i)]

theorem trace_root_real (m : CMat d) : ((CFC.sqrt m).trace.re : ℂ) = (CFC.sqrt m).trace ∧ 0 ≤ (CFC.sqrt m).trace.re := by
  have h := (root_psd m).trace_nonneg
  obtain ⟨h1, h2⟩ := Complex.le_def.1 h
  exact ⟨by apply Complex.ext <;> simp [← h2], by simpa using h1⟩

theorem fidelityAD_eq {eigh : CMat d → (Fin d → ℝ) × CMat d} {eigvals : CMat d → List ℂ} (he : IsEigh eigh) (hv : IsEigvals eigvals)
    {a b : CMat d} (ha : a.PosSemidef) (hb : b.PosSemidef) : fidelityAD eigvals (jaxSqrtm eigh a) b = uhlmann a b := by
  have h1 : jaxSqrtm eigh a = CFC.sqrt a :=
    Density.sqrtm_eq (jaxSqrtm_isSqrtm he) (root_psd a) (root_mul ha)
  unfold fidelityAD uhlmann
  rw [h1, sum_sqrt_roots (sandwich_psd hb) (hv _)]

theorem sqrtm_sandwich {sqrtm : CMat d → CMat d} (hs : IsSqrtm sqrtm) {a b : CMat d} (ha : a.PosSemidef) (hb : b.PosSemidef) :
    sqrtm (sqrtm a * b * sqrtm a) = CFC.sqrt (CFC.sqrt a * b * CFC.sqrt a) := by
  have h1 : sqrtm a = CFC.sqrt a := Density.sqrtm_eq hs (root_psd a) (root_mul ha)
  rw [h1]
  exact Density.sqrtm_eq hs (root_psd _) (root_mul (sandwich_psd hb))

theorem fidelitySqrtm_eq {sqrtm : CMat d → CMat d} (hs : IsSqrtm sqrtm) {a b : CMat d} (ha : a.PosSemidef) (hb : b.PosSemidef) :
    fidelitySqrtm sqrtm a b = uhlmann a b := by
  unfold fidelitySqrtm uhlmann
  rw [sqrtm_sandwich hs ha hb]
  obtain ⟨h1, h2⟩ := trace_root_real (CFC.sqrt a * b * CFC.sqrt a)
  rw [← h1, Complex.norm_real, Real.norm_of_nonneg h2, Complex.ofReal_re]

theorem fidelityNotDiff_eq {sqrtm : CMat d → CMat d} (hs : IsSqrtm sqrtm) {a b : CMat d} (ha : a.PosSemidef) (hb : b.PosSemidef) :
    fidelityNotDiff sqrtm a b = Real.sqrt (uhlmann a b) := by
  unfold fidelityNotDiff uhlmann
  rw [sqrtm_sandwich hs ha hb, Real.sqrt_sq (trace_root_real _).2]

/-- the trace of the root is the overlap of the two roots up to a unitary -/
theorem exists_overlap {a b : CMat d} (hb : b.PosSemidef) : ∃ W : CMat d, Wᴴ * W = 1 ∧
    (CFC.sqrt (CFC.sqrt a * b * CFC.sqrt a)).trace = (Wᴴ * (CFC.sqrt b * CFC.sqrt a)).trace := by
  obtain ⟨W, h1, h2⟩ := Polar.exists_polar (CFC.sqrt b * CFC.sqrt a) (CFC.sqrt (CFC.sqrt a * b * CFC.sqrt a)) (by
    rw [root_herm, root_mul (sandwich_psd hb), Matrix.conjTranspose_mul, root_herm, root_herm]
    conv_lhs => rw [← root_mul hb]
    simp only [Matrix.mul_assoc])
  refine ⟨W, h1, ?_⟩
  rw [← h2, ← Matrix.mul_assoc, h1, Matrix.one_mul]

/-- squared Hilbert-Schmidt distance of `√b W` and `√a` -/
theorem distance {a b W : CMat d} (ha : a.PosSemidef) (hb : b.PosSemidef) (hW : Wᴴ * W = 1) :
    ((CFC.sqrt b * W - CFC.sqrt a)ᴴ * (CFC.sqrt b * W - CFC.sqrt a)).trace
      = b.trace + a.trace - (Wᴴ * (CFC.sqrt b * CFC.sqrt a)).trace - star (Wᴴ * (CFC.sqrt b * CFC.sqrt a)).trace := by
  have e1 : (Wᴴ * CFC.sqrt b * (CFC.sqrt b * W)).trace = b.trace := by
    rw [Matrix.mul_assoc, ← Matrix.mul_assoc (CFC.sqrt b), root_mul hb, Matrix.trace_mul_comm, Matrix.mul_assoc, unitary_comm hW, Matrix.mul_one]
  have e2 : star (Wᴴ * (CFC.sqrt b * CFC.sqrt a)).trace = (CFC.sqrt a * (CFC.sqrt b * W)).trace := by
    rw [← Matrix.trace_conjTranspose, Matrix.conjTranspose_mul, Matrix.conjTranspose_mul, Matrix.conjTranspose_conjTranspose, root_herm,
      root_herm, Matrix.mul_assoc]
  rw [e2, Matrix.conjTranspose_sub, Matrix.conjTranspose_mul, root_herm, root_herm, Matrix.sub_mul, Matrix.mul_sub, Matrix.mul_sub,
    Matrix.trace_sub, Matrix.trace_sub, Matrix.trace_sub, e1, root_mul ha, Matrix.mul_assoc]
  ring

theorem root_overlap_le {a b : CMat d} (ha : IsDensity a) (hb : IsDensity b) :
    (CFC.sqrt (CFC.sqrt a * b * CFC.sqrt a)).trace.re ≤ 1
      ∧ ((CFC.sqrt (CFC.sqrt a * b * CFC.sqrt a)).trace.re = 1 → a = b) := by
  obtain ⟨W, h1, h2⟩ := exists_overlap (a := a) hb.1
  obtain ⟨h3, h4⟩ := trace_root_real (CFC.sqrt a * b * CFC.sqrt a)
  have hd := distance ha.1 hb.1 h1
  rw [← h2, ha.2, hb.2, ← h3] at hd
  have hp := (Matrix.posSemidef_conjTranspose_mul_self (CFC.sqrt b * W - CFC.sqrt a)).trace_nonneg
  set t := (CFC.sqrt (CFC.sqrt a * b * CFC.sqrt a)).trace.re with ht
  have hd' : ((CFC.sqrt b * W - CFC.sqrt a)ᴴ * (CFC.sqrt b * W - CFC.sqrt a)).trace = ((2 - 2 * t : ℝ) : ℂ) := by
    rw [hd, Complex.star_def, Complex.conj_ofReal]; push_cast; ring
  refine ⟨?_, fun h => ?_⟩
  · rw [hd'] at hp
    have := Complex.zero_le_real.1 hp
    linarith
  · have hz : ((CFC.sqrt b * W - CFC.sqrt a)ᴴ * (CFC.sqrt b * W - CFC.sqrt a)).trace = 0 := by rw [hd', h]; norm_num
    have he := Matrix.trace_conjTranspose_mul_self_eq_zero_iff.1 hz
    have he' : CFC.sqrt b * W = CFC.sqrt a := sub_eq_zero.1 he
    calc a = CFC.sqrt a * (CFC.sqrt a)ᴴ := by rw [root_herm, root_mul ha.1]
      _ = CFC.sqrt b * (W * Wᴴ) * CFC.sqrt b := by
        rw [← he', Matrix.conjTranspose_mul, root_herm]; simp only [Matrix.mul_assoc]
      _ = b := by rw [unitary_comm h1, Matrix.mul_one, root_mul hb.1]

theorem uhlmann_range {a b : CMat d} (ha : IsDensity a) (hb : IsDensity b) : 0 ≤ uhlmann a b ∧ uhlmann a b ≤ 1 :=
  ⟨sq_nonneg _, by
    have h1 := (root_overlap_le ha hb).1
    have h2 := (trace_root_real (CFC.sqrt a * b * CFC.sqrt a)).2
    unfold uhlmann
    nlinarith⟩

theorem uhlmann_self {a : CMat d} (ha : IsDensity a) : uhlmann a a = 1 := by
  unfold uhlmann
  rw [root_eq (a := CFC.sqrt a * a * CFC.sqrt a) (b := a) ha.1, ha.2]
  · norm_num
  · conv_rhs => rw [← root_mul ha.1]
    have := root_mul ha.1
    calc a * a = (CFC.sqrt a * CFC.sqrt a) * (CFC.sqrt a * CFC.sqrt a) := by rw [this]
      _ = CFC.sqrt a * (CFC.sqrt a * CFC.sqrt a) * CFC.sqrt a := by simp only [Matrix.mul_assoc]
      _ = _ := by rw [this]

theorem uhlmann_eq_one {a b : CMat d} (ha : IsDensity a) (hb : IsDensity b) (h : uhlmann a b = 1) : a = b := by
  refine (root_overlap_le ha hb).2 ?_
  have h2 := (trace_root_real (CFC.sqrt a * b * CFC.sqrt a)).2
  unfold uhlmann at h
  nlinarith

/-- the fidelity is symmetric: `√a b √a` and `√b a √b` have the same eigenvalues -/
theorem uhlmann_symm {a b : CMat d} (ha : a.PosSemidef) (hb : b.PosSemidef) : uhlmann a b = uhlmann b a := by
  have hc : (CFC.sqrt a * b * CFC.sqrt a).charpoly = (CFC.sqrt b * a * CFC.sqrt b).charpoly := by
    calc (CFC.sqrt a * b * CFC.sqrt a).charpoly = (CFC.sqrt a * (b * CFC.sqrt a)).charpoly := by rw [Matrix.mul_assoc]
      _ = (b * CFC.sqrt a * CFC.sqrt a).charpoly := Matrix.charpoly_mul_comm _ _
      _ = (b * a).charpoly := by rw [Matrix.mul_assoc, root_mul ha]
      _ = (CFC.sqrt b * (CFC.sqrt b * a)).charpoly := by rw [← Matrix.mul_assoc, root_mul hb]
      _ = (CFC.sqrt b * a * CFC.sqrt b).charpoly := by rw [Matrix.charpoly_mul_comm]
  unfold uhlmann
  rw [← sum_sqrt_roots (sandwich_psd hb) (l := (CFC.sqrt a * b * CFC.sqrt a).charpoly.roots.toList) (Multiset.coe_toList _),
    ← sum_sqrt_roots (sandwich_psd ha) (l := (CFC.sqrt a * b * CFC.sqrt a).charpoly.roots.toList) (by rw [Multiset.coe_toList, hc])]

theorem conj_root {U a : CMat d} (hU : Uᴴ * U = 1) (ha : a.PosSemidef) : CFC.sqrt (U * a * Uᴴ) = U * CFC.sqrt a * Uᴴ := by
  refine root_eq ((root_psd a).mul_mul_conjTranspose_same U) ?_
  calc _ = U * CFC.sqrt a * (Uᴴ * U) * CFC.sqrt a * Uᴴ := by simp only [Matrix.mul_assoc]
    _ = _ := by rw [hU, Matrix.mul_one, Matrix.mul_assoc U, root_mul ha]

/-- evolving both states by the same unitary does not change the fidelity -/
theorem uhlmann_unitary {U a b : CMat d} (hU : Uᴴ * U = 1) (ha : a.PosSemidef) (hb : b.PosSemidef) :
    uhlmann (U * a * Uᴴ) (U * b * Uᴴ) = uhlmann a b := by
  unfold uhlmann
  rw [conj_root hU ha]
  have : U * CFC.sqrt a * Uᴴ * (U * b * Uᴴ) * (U * CFC.sqrt a * Uᴴ) = U * (CFC.sqrt a * b * CFC.sqrt a) * Uᴴ := by
    calc _ = U * CFC.sqrt a * (Uᴴ * U) * b * (Uᴴ * U) * CFC.sqrt a * Uᴴ := by simp only [Matrix.mul_assoc]
      _ = _ := by rw [hU, Matrix.mul_one, Matrix.mul_one]; simp only [Matrix.mul_assoc]
  rw [this, conj_root hU (sandwich_psd hb), Matrix.trace_mul_comm, ← Matrix.mul_assoc, hU, Matrix.one_mul]

end Fidelity
end QuOCS

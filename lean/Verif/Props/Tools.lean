/-
C69 - C72: fidelities, displacement operator, Ornstein-Uhlenbeck noise, resampling of pulses.
-/
import Verif.Lemmas.Fidelity
import Verif.Props.TimeEvolution
import Mathlib.Probability.HasLawExists
import Mathlib.Algebra.Order.Floor.Ring
import Mathlib.Tactic.FieldSimp

set_option linter.unusedSectionVars false
set_option linter.unusedVariables false

namespace QuOCS
open Matrix
open scoped ComplexOrder MatrixOrder

section
variable {d : ℕ} {eigh : CMat d → (Fin d → ℝ) × CMat d} {eigvals : CMat d → List ℂ} {sqrtm : CMat d → CMat d}

/-! ### C69: fidelities of density matrices -/

/-- `_sqrtm` of a positive semidefinite matrix is its positive semidefinite square root. -/
theorem C69_sqrtm (he : IsEigh eigh) {a : CMat d} (ha : a.PosSemidef) :
    (jaxSqrtm eigh a).PosSemidef ∧ jaxSqrtm eigh a * jaxSqrtm eigh a = a := Fidelity.jaxSqrtm_isSqrtm he a ha

/-- `fidelity_AD(_sqrtm(a), b)` is the Uhlmann fidelity of `a` and `b`. -/
theorem C69_fidelity_AD (he : IsEigh eigh) (hv : IsEigvals eigvals) {a b : CMat d} (ha : a.PosSemidef) (hb : b.PosSemidef) :
    fidelityAD eigvals (jaxSqrtm eigh a) b = uhlmann a b := Fidelity.fidelityAD_eq he hv ha hb

/-- The fidelity of two density matrices is between zero and one; it is one exactly for equal states. -/
theorem C69_range_and_optimum (he : IsEigh eigh) (hv : IsEigvals eigvals) {a b : CMat d} (ha : IsDensity a) (hb : IsDensity b) :
    0 ≤ fidelityAD eigvals (jaxSqrtm eigh a) b ∧ fidelityAD eigvals (jaxSqrtm eigh a) b ≤ 1
      ∧ (fidelityAD eigvals (jaxSqrtm eigh a) b = 1 ↔ a = b) := by
  rw [C69_fidelity_AD he hv ha.1 hb.1]
  refine ⟨(Fidelity.uhlmann_range ha hb).1, (Fidelity.uhlmann_range ha hb).2, Fidelity.uhlmann_eq_one ha hb, ?_⟩
  rintro rfl
  exact Fidelity.uhlmann_self ha

/-- The fidelity is symmetric. -/
theorem C69_symmetric (he : IsEigh eigh) (hv : IsEigvals eigvals) {a b : CMat d} (ha : a.PosSemidef) (hb : b.PosSemidef) :
    fidelityAD eigvals (jaxSqrtm eigh a) b = fidelityAD eigvals (jaxSqrtm eigh b) a := by
  rw [C69_fidelity_AD he hv ha hb, C69_fidelity_AD he hv hb ha, Fidelity.uhlmann_symm ha hb]

/-- Evolving both states with the same unitary does not change the fidelity. -/
theorem C69_unitary_invariant (he : IsEigh eigh) (hv : IsEigvals eigvals) {U a b : CMat d} (hU : Uᴴ * U = 1) (ha : a.PosSemidef)
    (hb : b.PosSemidef) :
    fidelityAD eigvals (jaxSqrtm eigh (U * a * Uᴴ)) (U * b * Uᴴ) = fidelityAD eigvals (jaxSqrtm eigh a) b := by
  rw [C69_fidelity_AD he hv (ha.mul_mul_conjTranspose_same U) (hb.mul_mul_conjTranspose_same U), C69_fidelity_AD he hv ha hb,
    Fidelity.uhlmann_unitary hU ha hb]

theorem stateToDm_eq (v : Fin d → ℂ) : stateToDm v = pureState v := by
  ext i j
  rfl

/-- `state_to_dm` of a normalized state is a density matrix. -/
theorem C69_state_to_dm {v : Fin d → ℂ} (hv : IsUnitKet v) : IsDensity (stateToDm v) := by
  rw [stateToDm_eq]
  exact ⟨Density.pure_posSemidef v, Density.trace_pure hv⟩

/-- The fidelity of two pure states is their transition probability. -/
theorem C69_pure_states (he : IsEigh eigh) (hv : IsEigvals eigvals) {v w : Fin d → ℂ} (h : IsUnitKet v) :
    fidelityAD eigvals (jaxSqrtm eigh (stateToDm v)) (stateToDm w) = transition v w := by
  rw [stateToDm_eq, stateToDm_eq, C69_fidelity_AD he hv (Density.pure_posSemidef v) (Density.pure_posSemidef w),
    ← Fidelity.fidelitySqrtm_eq Density.exists_sqrtm (Density.pure_posSemidef v) (Density.pure_posSemidef w),
    Density.fidelitySqrtm_pure Density.exists_sqrtm h]

/-- The fidelity of the Ising example (with scipy's `sqrtm`) is the same number. -/
theorem C69_same_as_example (he : IsEigh eigh) (hv : IsEigvals eigvals) (hs : IsSqrtm sqrtm) {a b : CMat d} (ha : a.PosSemidef)
    (hb : b.PosSemidef) : fidelitySqrtm sqrtm a b = fidelityAD eigvals (jaxSqrtm eigh a) b := by
  rw [C69_fidelity_AD he hv ha hb, Fidelity.fidelitySqrtm_eq hs ha hb]

/-- `fidelity_not_diff_due_to_sqrtm` returns the root of the fidelity. -/
theorem C69_not_diff_is_root_partial (he : IsEigh eigh) (hv : IsEigvals eigvals) (hs : IsSqrtm sqrtm) {a b : CMat d} (ha : a.PosSemidef)
    (hb : b.PosSemidef) : fidelityNotDiff sqrtm a b = Real.sqrt (fidelityAD eigvals (jaxSqrtm eigh a) b) := by
  rw [C69_fidelity_AD he hv ha hb, Fidelity.fidelityNotDiff_eq hs ha hb]

/-- there is such a diagonalization -/
theorem exists_eigh (d : ℕ) : ∃ eigh : CMat d → (Fin d → ℝ) × CMat d, IsEigh eigh := by
  classical
  refine ⟨fun a => if h : a.IsHermitian then (h.eigenvalues, h.eigenvectorUnitary) else (0, 1), fun a ha => ?_⟩
  have h : a.IsHermitian := ha
  simp only [h, dite_true]
  have h1 : (h.eigenvectorUnitary : CMat d)ᴴ * (h.eigenvectorUnitary : CMat d) = 1 := Matrix.mem_unitaryGroup_iff'.1 h.eigenvectorUnitary.2
  refine ⟨h1, ?_⟩
  have e : a = (h.eigenvectorUnitary : CMat d) * diagonal (fun i => (h.eigenvalues i : ℂ)) * (h.eigenvectorUnitary : CMat d)ᴴ :=
    h.spectral_theorem
  have e' := congrArg (· * (h.eigenvectorUnitary : CMat d)) e
  simp only [Matrix.mul_assoc] at e'
  rw [h1, Matrix.mul_one] at e'
  exact e'

/-- there is such a function -/
theorem exists_eigvals (d : ℕ) : ∃ eigvals : CMat d → List ℂ, IsEigvals eigvals :=
  ⟨fun a => a.charpoly.roots.toList, fun a => Multiset.coe_toList _⟩

end

/-- **C69 is violated by `fidelity_not_diff_due_to_sqrtm`** (fidelities.py:46-51 omits the square): there are two pure states of a
qubit with fidelity 9/25 for which it returns 3/5. -/
theorem C69_not_diff_differs : ∃ a b : CMat 2, IsDensity a ∧ IsDensity b ∧
    ∀ (eigh : CMat 2 → (Fin 2 → ℝ) × CMat 2) (eigvals : CMat 2 → List ℂ) (sqrtm : CMat 2 → CMat 2),
      IsEigh eigh → IsEigvals eigvals → IsSqrtm sqrtm →
      fidelityAD eigvals (jaxSqrtm eigh a) b = 9 / 25 ∧ fidelityNotDiff sqrtm a b = 3 / 5 := by
  have hv : IsUnitKet (![1, 0] : Fin 2 → ℂ) := by simp [IsUnitKet, Fin.sum_univ_two]
  have hw : IsUnitKet (![3 / 5, 4 / 5] : Fin 2 → ℂ) := by
    simp [IsUnitKet, Fin.sum_univ_two]; norm_num
  refine ⟨stateToDm ![1, 0], stateToDm ![3 / 5, 4 / 5], C69_state_to_dm hv, C69_state_to_dm hw, fun eigh eigvals sqrtm he hvv hs => ?_⟩
  have h1 : fidelityAD eigvals (jaxSqrtm eigh (stateToDm ![1, 0])) (stateToDm ![3 / 5, 4 / 5]) = 9 / 25 := by
    rw [C69_pure_states he hvv hv]
    simp [transition, Fin.sum_univ_two]; norm_num
  refine ⟨h1, ?_⟩
  rw [C69_not_diff_is_root_partial he hvv hs (C69_state_to_dm hv).1 (C69_state_to_dm hw).1, h1,
    show (9 / 25 : ℝ) = (3 / 5) ^ 2 by norm_num, Real.sqrt_sq (by norm_num)]

/-- functions as in the hypotheses exist, and the maximally mixed state is a density matrix -/
example : (∃ (eigh : CMat 2 → (Fin 2 → ℝ) × CMat 2) (eigvals : CMat 2 → List ℂ) (sqrtm : CMat 2 → CMat 2),
    IsEigh eigh ∧ IsEigvals eigvals ∧ IsSqrtm sqrtm) ∧ IsDensity (Matrix.diagonal fun _ => (1 / 2 : ℂ) : CMat 2) := by
  obtain ⟨a, ha⟩ := exists_eigh 2
  obtain ⟨b, hb⟩ := exists_eigvals 2
  refine ⟨⟨a, b, _, ha, hb, Density.exists_sqrtm⟩, ?_, ?_⟩
  · exact PosSemidef.diagonal fun i => by
      show (0 : ℂ) ≤ 1 / 2
      rw [Complex.le_def]; norm_num
  · rw [Matrix.trace_diagonal]; norm_num

/-! ### C70: the displacement operator -/

section
variable {d : ℕ}

theorem displace_skew (a : CMat d) (alpha : ℂ) :
    (alpha • aᴴ - star alpha • a)ᴴ = -(alpha • aᴴ - star alpha • a) := by
  rw [Matrix.conjTranspose_sub, Matrix.conjTranspose_smul, Matrix.conjTranspose_smul, Matrix.conjTranspose_conjTranspose, star_star]
  abel

theorem displace_neg (a : CMat d) (alpha : ℂ) : -(alpha • aᴴ - star alpha • a) = (-alpha) • aᴴ - star (-alpha) • a := by
  rw [star_neg, neg_smul, neg_smul]; abel

/-- The displacement operator is unitary, its inverse is the displacement by `-alpha`, and no displacement is the
identity. -/
theorem C70_displacement (a : CMat d) (alpha : ℂ) :
    (displace NormedSpace.exp a alpha)ᴴ * displace NormedSpace.exp a alpha = 1
      ∧ displace NormedSpace.exp a (-alpha) * displace NormedSpace.exp a alpha = 1
      ∧ displace NormedSpace.exp a 0 = 1 := by
  have key : NormedSpace.exp (-(alpha • aᴴ - star alpha • a)) * NormedSpace.exp (alpha • aᴴ - star alpha • a) = 1 := by
    rw [← Matrix.exp_add_of_commute _ _ (Commute.refl (alpha • aᴴ - star alpha • a)).neg_left, neg_add_cancel, NormedSpace.exp_zero]
  refine ⟨?_, ?_, ?_⟩
  · unfold displace
    rw [← Matrix.exp_conjTranspose, displace_skew, key]
  · unfold displace
    rw [← displace_neg, key]
  · unfold displace
    rw [star_zero, zero_smul, zero_smul, sub_zero, NormedSpace.exp_zero]

/-- Displacements in the same direction add up. -/
theorem C70_same_direction (a : CMat d) (alpha : ℂ) (s t : ℝ) :
    displace NormedSpace.exp a (s * alpha) * displace NormedSpace.exp a (t * alpha) = displace NormedSpace.exp a ((s + t) * alpha) := by
  have e : ∀ s : ℝ, ((s * alpha) • aᴴ - star (s * alpha) • a) = (s : ℂ) • (alpha • aᴴ - star alpha • a) := fun s => by
    rw [smul_sub, smul_smul, smul_smul, star_mul', Complex.star_def, Complex.conj_ofReal]
  unfold displace
  rw [e, e, show ((s : ℂ) + t) * alpha = ((s + t : ℝ) : ℂ) * alpha by push_cast; ring, e,
    ← Matrix.exp_add_of_commute _ _ (((Commute.refl _).smul_left _).smul_right _), ← add_smul, Complex.ofReal_add]

end

/-- the truncated annihilation operator of two levels is displaced by i pi/2: a non-trivial displacement -/
example : displace NormedSpace.exp (!![0, 1; 0, 0] : CMat 2) 1 * displace NormedSpace.exp (!![0, 1; 0, 0] : CMat 2) (-1) = 1 := by
  have := (C70_displacement (!![0, 1; 0, 0] : CMat 2) (-1)).2.1
  rwa [neg_neg] at this

/-! ### C71: Ornstein-Uhlenbeck noise -/

namespace OU
open MeasureTheory ProbabilityTheory

/-- closed form of the values -/
theorem value (p : OUParams) : ∀ (k n : ℕ) (x : ℝ) (rs : List ℝ), k ≤ n → (x :: ouLoop p n x rs)[k]? =
    some (x * p.mu ^ k + ∑ j ∈ Finset.range k, Real.sqrt p.sigma * p.mu ^ (k - 1 - j) * rs.getD j 0)
  | 0, n, x, rs, _ => by simp
  | k + 1, n + 1, x, rs, h => by
    rw [List.getElem?_cons_succ]
    show ((x * p.mu + Real.sqrt p.sigma * rs.headD 0) :: ouLoop p n (x * p.mu + Real.sqrt p.sigma * rs.headD 0) rs.tail)[k]? = _
    rw [value p k n _ _ (by omega), Finset.sum_range_succ']
    congr 1
    have e1 : rs.getD 0 0 = rs.headD 0 := by cases rs <;> rfl
    have e2 : ∀ j, rs.tail.getD j 0 = rs.getD (j + 1) 0 := fun j => by cases rs <;> simp
    have e3 : ∑ j ∈ Finset.range k, Real.sqrt p.sigma * p.mu ^ (k + 1 - 1 - (j + 1)) * rs.getD (j + 1) 0
        = ∑ j ∈ Finset.range k, Real.sqrt p.sigma * p.mu ^ (k - 1 - j) * rs.tail.getD j 0 :=
      Finset.sum_congr rfl fun j hj => by
        rw [e2, show k + 1 - 1 - (j + 1) = k - 1 - j by omega]
    rw [e3, e1, Nat.add_sub_cancel, Nat.sub_zero, pow_succ]
    ring

theorem loop_length (p : OUParams) : ∀ (n : ℕ) (x : ℝ) (rs : List ℝ), (ouLoop p n x rs).length = n
  | 0, _, _ => rfl
  | n + 1, x, rs => by rw [ouLoop, List.length_cons, loop_length p n]

theorem slices {p : OUParams} {T : ℝ} (hd : 0 < p.dt) (hT : 0 ≤ T) : ouSlices p T = .ok ⌊T / p.dt⌋₊ := by
  unfold ouSlices
  rw [if_neg hd.ne', if_neg (not_lt.2 (Int.floor_nonneg.2 (div_nonneg hT hd.le)))]
  rfl

theorem realization {p : OUParams} {T : ℝ} (hd : 0 < p.dt) (ht : p.tau ≠ 0) (hT : p.dt ≤ T) (rs : List ℝ) :
    ouRealization p T rs = .ok (p.x0 :: ouLoop p (⌊T / p.dt⌋₊ - 1) p.x0 rs) ∧ 1 ≤ ⌊T / p.dt⌋₊ := by
  have h1 : 1 ≤ ⌊T / p.dt⌋₊ := Nat.one_le_floor_iff _ |>.2 ((one_le_div hd).2 hT)
  refine ⟨?_, h1⟩
  obtain ⟨n, hn⟩ := Nat.exists_eq_add_of_le' h1
  unfold ouRealization
  rw [slices hd (hd.le.trans hT), hn]
  simp only [if_neg ht, Nat.add_sub_cancel]

theorem sigma_eq {p : OUParams} : p.sigma = p.c * p.tau / 2 * (1 - p.mu ^ 2) := by
  unfold OUParams.sigma OUParams.mu
  rw [← Real.exp_nat_mul]
  congr 3
  push_cast
  ring

theorem sigma_nonneg {p : OUParams} (hd : 0 < p.dt) (ht : 0 < p.tau) (hc : 0 ≤ p.c) : 0 ≤ p.sigma := by
  unfold OUParams.sigma
  have : Real.exp (-2 / p.tau * p.dt) ≤ 1 := Real.exp_le_one_iff.2 (by
    have : 0 < 2 / p.tau * p.dt := by positivity
    have e : -2 / p.tau * p.dt = -(2 / p.tau * p.dt) := by ring
    linarith)
  have := mul_nonneg hc ht.le
  nlinarith

theorem mu_pow {p : OUParams} (k : ℕ) : p.mu ^ k = Real.exp (-(k * p.dt) / p.tau) := by
  unfold OUParams.mu
  rw [← Real.exp_nat_mul]
  congr 1
  ring

theorem geom (q : ℝ) (k m : ℕ) :
    (1 - q ^ 2) * ∑ i ∈ Finset.range k, q ^ (k - 1 - i) * q ^ (k + m - 1 - i) = q ^ m * (1 - (q ^ k) ^ 2) := by
  have h1 : ∑ i ∈ Finset.range k, q ^ (k - 1 - i) * q ^ (k + m - 1 - i) = ∑ i ∈ Finset.range k, q ^ m * (q ^ 2) ^ (k - 1 - i) :=
    Finset.sum_congr rfl fun i hi => by
      have := Finset.mem_range.1 hi
      rw [show k + m - 1 - i = m + (k - 1 - i) by omega, pow_add, ← pow_mul, mul_comm 2, pow_mul]
      ring
  have h2 : ∑ i ∈ Finset.range k, (q ^ 2) ^ (k - 1 - i) = ∑ i ∈ Finset.range k, (q ^ 2) ^ i := Finset.sum_range_reflect (fun i => (q ^ 2) ^ i) k
  rw [h1, ← Finset.mul_sum, h2]
  have h3 := mul_neg_geom_sum (q ^ 2) k
  rw [← pow_mul, mul_comm 2 k, pow_mul] at h3
  calc _ = q ^ m * ((1 - q ^ 2) * ∑ i ∈ Finset.range k, (q ^ 2) ^ i) := by ring
    _ = _ := by rw [h3]

variable {Ω : Type*} [MeasurableSpace Ω] {P : Measure Ω} {r : ℕ → Ω → ℝ}

theorem normals_prob (h : StandardNormals P r) : IsProbabilityMeasure P := (h.1 0).isProbabilityMeasure

theorem memLp (h : StandardNormals P r) (j : ℕ) : MemLp (r j) 2 P := by
  have h1 : MemLp id 2 (gaussianReal 0 1) := memLp_id_gaussianReal 2
  have h2 := (h.1 j)
  rw [← h2.map_eq] at h1
  exact (memLp_map_measure_iff h1.1 h2.aemeasurable).1 h1

theorem mean_zero (h : StandardNormals P r) (j : ℕ) : ∫ ω, r j ω ∂P = 0 := by
  rw [(h.1 j).integral_eq, integral_id_gaussianReal]

theorem cov_eq (h : StandardNormals P r) (i j : ℕ) : cov[r i, r j; P] = if i = j then 1 else 0 := by
  have := normals_prob h
  split
  · next e =>
    subst e
    rw [covariance_self (h.1 i).aemeasurable, (h.1 i).variance_eq, variance_id_gaussianReal]
    rfl
  · next e => exact (h.2.indepFun e).covariance_eq_zero (memLp h i) (memLp h j)

theorem stats (h : StandardNormals P r) (p : OUParams) (hs : 0 ≤ p.sigma) (k m : ℕ) :
    (∫ ω, (p.x0 * p.mu ^ k + ∑ j ∈ Finset.range k, Real.sqrt p.sigma * p.mu ^ (k - 1 - j) * r j ω) ∂P = p.x0 * p.mu ^ k)
    ∧ cov[fun ω => p.x0 * p.mu ^ k + ∑ j ∈ Finset.range k, Real.sqrt p.sigma * p.mu ^ (k - 1 - j) * r j ω,
        fun ω => p.x0 * p.mu ^ (k + m) + ∑ j ∈ Finset.range (k + m), Real.sqrt p.sigma * p.mu ^ (k + m - 1 - j) * r j ω; P]
      = p.c * p.tau / 2 * (p.mu ^ m * (1 - (p.mu ^ k) ^ 2)) := by
  have := normals_prob h
  have hm : ∀ (c : ℝ) (j : ℕ), MemLp (fun ω => c * r j ω) 2 P := fun c j => (memLp h j).const_mul c
  have hi : ∀ (c : ℝ) (j : ℕ), Integrable (fun ω => c * r j ω) P := fun c j => (hm c j).integrable (by norm_num)
  have hsum : ∀ (f : ℕ → ℝ) (n : ℕ), Integrable (fun ω => ∑ j ∈ Finset.range n, f j * r j ω) P :=
    fun f n => integrable_finsetSum _ fun j _ => hi _ _
  constructor
  · rw [integral_add (integrable_const _) (hsum _ _), integral_const, integral_finsetSum _ fun j _ => hi _ _]
    simp [integral_const_mul, mean_zero h]
  · rw [covariance_const_add_left (hsum _ _), covariance_const_add_right (hsum _ _),
      covariance_fun_sum_fun_sum' (fun i _ => hm _ _) (fun j _ => hm _ _)]
    have e : ∀ i ∈ Finset.range k, ∑ j ∈ Finset.range (k + m), cov[fun ω => Real.sqrt p.sigma * p.mu ^ (k - 1 - i) * r i ω,
        fun ω => Real.sqrt p.sigma * p.mu ^ (k + m - 1 - j) * r j ω; P]
        = p.sigma * (p.mu ^ (k - 1 - i) * p.mu ^ (k + m - 1 - i)) := fun i hi' => by
      have hmem : i ∈ Finset.range (k + m) := Finset.mem_range.2 (by have := Finset.mem_range.1 hi'; omega)
      rw [Finset.sum_eq_single_of_mem i hmem]
      · rw [covariance_const_mul_left, covariance_const_mul_right, cov_eq h, if_pos rfl]
        have := Real.mul_self_sqrt hs
        linear_combination (p.mu ^ (k - 1 - i) * p.mu ^ (k + m - 1 - i)) * this
      · intro j _ hj
        rw [covariance_const_mul_left, covariance_const_mul_right, cov_eq h, if_neg (Ne.symm hj), mul_zero, mul_zero]
    rw [Finset.sum_congr rfl e, ← Finset.mul_sum, sigma_eq, mul_assoc, geom]

end OU

/-- A realization has one value for each complete time step, starts at `x0`, and each value follows from the previous one
and the next random number. -/
theorem C71_realization {p : OUParams} {T : ℝ} (hd : 0 < p.dt) (ht : p.tau ≠ 0) (hT : p.dt ≤ T) (randn : List ℝ) :
    ∃ xs, ouRealization p T randn = .ok xs ∧ xs.length = ⌊T / p.dt⌋₊ ∧ xs[0]? = some p.x0 ∧
      ∀ k, k + 1 < xs.length → ∃ x y, xs[k]? = some x ∧ xs[k + 1]? = some y ∧
        y = Real.exp (-p.dt / p.tau) * x + Real.sqrt (p.c * p.tau / 2 * (1 - Real.exp (-2 * p.dt / p.tau))) * randn.getD k 0 := by
  obtain ⟨h1, h2⟩ := OU.realization hd ht hT randn
  refine ⟨_, h1, by rw [List.length_cons, OU.loop_length]; omega, rfl, fun k hk => ?_⟩
  rw [List.length_cons, OU.loop_length] at hk
  refine ⟨_, _, OU.value p k _ _ _ (by omega), OU.value p (k + 1) _ _ _ (by omega), ?_⟩
  have em : Real.exp (-p.dt / p.tau) = p.mu := by unfold OUParams.mu; congr 1; ring
  have es : p.c * p.tau / 2 * (1 - Real.exp (-2 * p.dt / p.tau)) = p.sigma := by unfold OUParams.sigma; congr 3; ring
  rw [em, es, Finset.sum_range_succ, mul_add, Finset.mul_sum]
  have e : ∑ j ∈ Finset.range k, Real.sqrt p.sigma * p.mu ^ (k + 1 - 1 - j) * randn.getD j 0
      = ∑ j ∈ Finset.range k, p.mu * (Real.sqrt p.sigma * p.mu ^ (k - 1 - j) * randn.getD j 0) :=
    Finset.sum_congr rfl fun j hj => by
      have := Finset.mem_range.1 hj
      rw [show k + 1 - 1 - j = (k - 1 - j) + 1 by omega, pow_succ]
      ring
  rw [e, show k + 1 - 1 - k = 0 by omega, pow_zero, pow_succ]
  ring

/-- With independent standard normal random numbers the values have the mean and the covariance of the
Ornstein-Uhlenbeck process at the times `k dt`, whatever the step size `dt` is. -/
theorem C71_statistics {Ω : Type*} [MeasurableSpace Ω] {P : MeasureTheory.Measure Ω} {r : ℕ → Ω → ℝ} (hr : StandardNormals P r)
    {p : OUParams} {T : ℝ} (hd : 0 < p.dt) (ht : 0 < p.tau) (hc : 0 ≤ p.c) (hT : p.dt ≤ T) {N : ℕ} (hN : ⌊T / p.dt⌋₊ ≤ N + 1)
    {xs : Ω → List ℝ} (hx : ∀ ω, ouRealization p T ((List.range N).map fun j => r j ω) = .ok (xs ω)) {k l : ℕ}
    (hk : k < ⌊T / p.dt⌋₊) (hl : l < ⌊T / p.dt⌋₊) :
    (∫ ω, (xs ω).getD k 0 ∂P) = ouMean p.tau p.x0 (k * p.dt)
      ∧ ProbabilityTheory.covariance (fun ω => (xs ω).getD k 0) (fun ω => (xs ω).getD l 0) P
        = ouCovariance p.tau p.c (k * p.dt) (l * p.dt) := by
  have hv : ∀ i, i < ⌊T / p.dt⌋₊ → (fun ω => (xs ω).getD i 0)
      = fun ω => p.x0 * p.mu ^ i + ∑ j ∈ Finset.range i, Real.sqrt p.sigma * p.mu ^ (i - 1 - j) * r j ω := fun i hi => by
    funext ω
    have h1 := (OU.realization hd ht.ne' hT ((List.range N).map fun j => r j ω)).1
    rw [hx ω] at h1
    rw [Except.ok.inj h1, List.getD_eq_getElem?_getD, OU.value p i _ _ _ (by omega), Option.getD_some]
    congr 1
    refine Finset.sum_congr rfl fun j hj => ?_
    have hj' := Finset.mem_range.1 hj
    congr 1
    have : j < N := by omega
    simp [List.getD_eq_getElem?_getD, this]
  have hs := OU.sigma_nonneg hd ht hc
  have key : ∀ k m : ℕ, k + m < ⌊T / p.dt⌋₊ →
      ProbabilityTheory.covariance (fun ω => (xs ω).getD k 0) (fun ω => (xs ω).getD (k + m) 0) P
        = ouCovariance p.tau p.c (k * p.dt) ((k + m : ℕ) * p.dt) := fun k m h => by
    rw [hv k (by omega), hv (k + m) h, (OU.stats hr p hs k m).2]
    unfold ouCovariance
    have e1 : |((k + m : ℕ) : ℝ) * p.dt - k * p.dt| = m * p.dt := by
      rw [show ((k + m : ℕ) : ℝ) * p.dt - k * p.dt = m * p.dt by push_cast; ring]
      exact abs_of_nonneg (by positivity)
    have e2 : Real.exp (-(((k + m : ℕ) : ℝ) * p.dt + k * p.dt) / p.tau) = p.mu ^ m * (p.mu ^ k) ^ 2 := by
      rw [OU.mu_pow, OU.mu_pow, ← Real.exp_nat_mul, ← Real.exp_add]
      congr 1
      push_cast
      ring
    rw [e1, e2, ← OU.mu_pow]
    ring
  refine ⟨?_, ?_⟩
  · rw [hv k hk, (OU.stats hr p hs k 0).1, OU.mu_pow]
    rfl
  · rcases Nat.le_total k l with h | h
    · obtain ⟨m, rfl⟩ := Nat.exists_eq_add_of_le h
      exact key k m hl
    · obtain ⟨m, rfl⟩ := Nat.exists_eq_add_of_le h
      rw [ProbabilityTheory.covariance_comm, key l m hk]
      unfold ouCovariance
      rw [abs_sub_comm, add_comm ((l : ℝ) * p.dt)]

/-- If the total time is shorter than one step, `IndexError` is raised. -/
theorem C71_too_short {p : OUParams} {T : ℝ} (hd : 0 < p.dt) (h0 : 0 ≤ T) (hT : T < p.dt) (randn : List ℝ) :
    ouRealization p T randn = .error .indexError := by
  unfold ouRealization
  rw [OU.slices hd h0, Nat.floor_eq_zero.2 ((div_lt_one hd).2 hT)]

/-- An ensemble consists of one realization per trajectory, each with its own random numbers. -/
theorem C71_ensemble {p : OUParams} {T : ℝ} (hd : 0 < p.dt) (ht : p.tau ≠ 0) (hT : p.dt ≤ T) (randn : List (List ℝ)) :
    ∃ out, ouEnsemble p T randn = .ok out ∧ out.length = randn.length ∧
      ∀ (i : ℕ) rs, randn[i]? = some rs → ∃ xs, out[i]? = some xs ∧ ouRealization p T rs = .ok xs ∧ xs.length = ⌊T / p.dt⌋₊ := by
  have h : ∀ l : List (List ℝ), l.mapM (ouRealization p T) = .ok (l.map fun rs => p.x0 :: ouLoop p (⌊T / p.dt⌋₊ - 1) p.x0 rs) := by
    intro l
    induction l with
    | nil => rfl
    | cons rs l ih => rw [List.mapM_cons, (OU.realization hd ht hT rs).1, ih]; rfl
  refine ⟨randn.map fun rs => p.x0 :: ouLoop p (⌊T / p.dt⌋₊ - 1) p.x0 rs, ?_, List.length_map _, fun i rs hi => ?_⟩
  · unfold ouEnsemble
    rw [OU.slices hd (hd.le.trans hT)]
    exact h randn
  · obtain ⟨h1, h2⟩ := OU.realization hd ht hT rs
    exact ⟨_, by rw [List.getElem?_map, hi]; rfl, h1, by rw [List.length_cons, OU.loop_length]; omega⟩

/-- such random numbers exist, and the default parameters with a total time of one are covered -/
example : (∃ (Ω : Type) (_ : MeasurableSpace Ω) (P : MeasureTheory.Measure Ω) (r : ℕ → Ω → ℝ), StandardNormals P r) ∧
    (∃ xs, ouRealization ⟨1, 1, 0, 1 / 100⟩ 1 (List.replicate 99 1) = .ok xs ∧ xs.length = 100) := by
  refine ⟨?_, ?_⟩
  · obtain ⟨Ω, _, P, X, -, h2, h3, -⟩ := ProbabilityTheory.exists_iid ℕ (ProbabilityTheory.gaussianReal 0 1)
    exact ⟨Ω, _, P, X, h2, h3⟩
  · obtain ⟨xs, h1, h2, -⟩ := C71_realization (p := ⟨1, 1, 0, 1 / 100⟩) (T := 1) (by norm_num) (by norm_num) (by norm_num) (List.replicate 99 1)
    refine ⟨xs, h1, h2.trans ?_⟩
    norm_num

/-! ### C72: resampling of pulses -/

namespace Resample

theorem countP_range {q : ℕ → Bool} : ∀ {n : ℕ}, (∀ i j, i ≤ j → j < n → q j = true → q i = true) →
    (List.range n).countP q ≤ n ∧ ∀ j < n, (q j = true ↔ j < (List.range n).countP q)
  | 0, _ => by simp
  | n + 1, h => by
    obtain ⟨h1, h2⟩ := countP_range (q := q) (n := n) fun i j hij hj => h i j hij (by omega)
    rw [List.range_succ, List.countP_append, List.countP_singleton]
    by_cases hq : q n = true
    · have hall : ∀ j ≤ n, q j = true := fun j hj => h j n hj (by omega) hq
      have hn : (List.range n).countP q = n := by
        refine le_antisymm h1 (not_lt.1 fun hlt => ?_)
        exact absurd ((h2 _ hlt).1 (hall _ hlt.le)) (lt_irrefl _)
      rw [if_pos hq, hn]
      exact ⟨le_rfl, fun j hj => ⟨fun _ => hj, fun _ => hall j (by omega)⟩⟩
    · rw [if_neg hq]
      refine ⟨by omega, fun j hj => ?_⟩
      rcases Nat.lt_succ_iff_lt_or_eq.1 hj with h' | rfl
      · exact h2 j h'
      · exact ⟨fun h => absurd h hq, fun h => by omega⟩

/-- the midpoints of neighbouring samples -/
theorem midpoints (dt : ℝ) (n : ℕ) :
    List.zipWith (fun a b => (a + b) / 2) ((List.range (n + 1)).map fun k : ℕ => (k : ℝ) * dt).tail ((List.range (n + 1)).map fun k : ℕ => (k : ℝ) * dt)
      = (List.range n).map fun k : ℕ => ((k : ℝ) + 1 / 2) * dt := by
  refine List.ext_getElem (by simp) fun k h1 h2 => ?_
  simp
  ring

theorem nearest {dt : ℝ} (hd : 0 < dt) (e0 : ℝ) (rest : List ℝ) (t : ℝ) :
    IsNearestSample dt (e0 :: rest) t (interpNearest ((List.range (rest.length + 1)).map fun k : ℕ => (k : ℝ) * dt) (e0 :: rest) e0
      ((e0 :: rest).getLastD 0) t) := by
  unfold interpNearest
  have hh : ((List.range (rest.length + 1)).map fun k : ℕ => (k : ℝ) * dt).headD 0 = 0 := by
    rw [List.range_succ_eq_map]; simp
  have hl : ((List.range (rest.length + 1)).map fun k : ℕ => (k : ℝ) * dt).getLastD 0 = rest.length * dt := by
    rw [List.range_succ]; simp
  rw [hh, hl, midpoints]
  split
  · next h =>
    refine ⟨0, rfl, fun j _ => ?_⟩
    have : (0 : ℝ) ≤ j * dt := by positivity
    rw [abs_of_neg (by simpa using h), abs_of_neg (by linarith)]
    push_cast
    linarith
  · next h0 =>
    split
    · next h =>
      refine ⟨rest.length, ?_, fun j hj => ?_⟩
      · rw [List.getLastD_cons, List.getLastD_eq_getLast?]
        rcases List.eq_nil_or_concat rest with rfl | ⟨l, x, rfl⟩
        · rfl
        · simp
      · have hj' : (j : ℝ) ≤ rest.length := by exact_mod_cast (by simpa [Nat.lt_succ_iff] using hj)
        have : (j : ℝ) * dt ≤ rest.length * dt := mul_le_mul_of_nonneg_right hj' hd.le
        rw [abs_of_pos (by linarith), abs_of_pos (by linarith)]
        linarith
    · next h1 =>
      have h0' := not_lt.1 h0
      have h1' := not_lt.1 h1
      rw [List.countP_map]
      set q : ℕ → Bool := (fun m : ℝ => decide (m < t)) ∘ fun k : ℕ => ((k : ℝ) + 1 / 2) * dt with hq
      have hqi : ∀ k, q k = true ↔ ((k : ℝ) + 1 / 2) * dt < t := fun k => by simp [hq]
      obtain ⟨hK, hK2⟩ := countP_range (q := q) (n := rest.length) fun i j hij hj h => by
        rw [hqi] at h ⊢
        have : (i : ℝ) ≤ j := by exact_mod_cast hij
        nlinarith
      set K := (List.range rest.length).countP q with hKdef
      refine ⟨K, ?_, fun j hj => ?_⟩
      · have : K < (e0 :: rest).length := by simp; omega
        rw [List.getD_eq_getElem?_getD, List.getElem?_eq_getElem this, Option.getD_some]
      · rcases Nat.lt_trichotomy j K with hjK | rfl | hjK
        · have hm : ((K - 1 : ℕ) : ℝ) = K - 1 := by rw [Nat.cast_sub (by omega)]; simp
          have h2 := (hqi (K - 1)).1 ((hK2 (K - 1) (by omega)).2 (by omega))
          rw [hm] at h2
          have h3 : (j : ℝ) ≤ K - 1 := by
            have : j + 1 ≤ K := hjK
            have : ((j + 1 : ℕ) : ℝ) ≤ K := by exact_mod_cast this
            push_cast at this; linarith
          have h4 : (j : ℝ) * dt ≤ (K - 1) * dt := mul_le_mul_of_nonneg_right h3 hd.le
          rw [abs_le]
          have h5 : t - j * dt ≤ |t - j * dt| := le_abs_self _
          constructor <;> nlinarith
        · exact le_rfl
        · have hKl : K < rest.length := by simp at hj; omega
          have h2 : ¬ ((K : ℝ) + 1 / 2) * dt < t := fun h => absurd ((hK2 K hKl).1 ((hqi K).2 h)) (lt_irrefl _)
          have h3 : (K : ℝ) + 1 ≤ j := by
            have : K + 1 ≤ j := hjK
            exact_mod_cast this
          have h4 : ((K : ℝ) + 1) * dt ≤ j * dt := mul_le_mul_of_nonneg_right h3 hd.le
          rw [abs_le]
          have h5 : -(t - j * dt) ≤ |t - j * dt| := neg_le_abs _
          have h6 := not_lt.1 h2
          constructor <;> nlinarith

/-- on the grid the nearest sample is unique -/
theorem unique {dt : ℝ} (hd : 0 < dt) {pulse : List ℝ} {k : ℕ} (hk : k < pulse.length) {v : ℝ}
    (h : IsNearestSample dt pulse (k * dt) v) : pulse[k]? = some v := by
  obtain ⟨i, h1, h2⟩ := h
  have := h2 k hk
  rw [sub_self, abs_zero] at this
  have h3 : (k : ℝ) * dt - i * dt = 0 := abs_nonpos_iff.1 this
  have h4 : ((k : ℝ) - i) * dt = 0 := by rw [sub_mul]; exact h3
  have h5 : (k : ℝ) = i := sub_eq_zero.1 ((mul_eq_zero.1 h4).resolve_right hd.ne')
  have h6 : k = i := by exact_mod_cast h5
  rw [h6, h1]

end Resample

/-- Resampling a pulse gives, for each new time, the value of a nearest sample: in particular the first value before the
start and the last value after the end. -/
theorem C72_nearest {dt : ℝ} (hd : 0 < dt) {pulse : List ℝ} (hp : pulse ≠ []) (times : List ℝ) :
    ∃ out, resampleColumn dt pulse times = .ok out ∧ out.length = times.length ∧
      ∀ (i : ℕ) t, times[i]? = some t → ∃ v, out[i]? = some v ∧ IsNearestSample dt pulse t v := by
  cases pulse with
  | nil => exact absurd rfl hp
  | cons e0 rest =>
    refine ⟨_, rfl, List.length_map _, fun i t h => ⟨_, by rw [List.getElem?_map, h]; rfl, Resample.nearest hd e0 rest t⟩⟩

/-- Resampling on the original time grid changes nothing. -/
theorem C72_same_grid {dt : ℝ} (hd : 0 < dt) {pulse : List ℝ} (hp : pulse ≠ []) :
    resampleColumn dt pulse ((List.range pulse.length).map fun k : ℕ => (k : ℝ) * dt) = .ok pulse := by
  obtain ⟨out, h1, h2, h3⟩ := C72_nearest hd hp ((List.range pulse.length).map fun k : ℕ => (k : ℝ) * dt)
  rw [h1]
  congr 1
  rw [List.length_map, List.length_range] at h2
  refine List.ext_getElem? fun k => ?_
  rcases lt_or_ge k pulse.length with hk | hk
  · obtain ⟨v, h4, h5⟩ := h3 k (k * dt) (by simp [hk])
    rw [h4, Resample.unique hd hk h5]
  · rw [List.getElem?_eq_none (by omega), List.getElem?_eq_none hk]

/-- Resampling on a grid that is `m` times finer and covers the pulse, and then on the original grid, restores the pulse. -/
theorem C72_refine_and_back {dt : ℝ} (hd : 0 < dt) {pulse : List ℝ} (hp : pulse ≠ []) {m N : ℕ} (hm : 0 < m)
    (hN : m * (pulse.length - 1) < N) : ∃ fine,
    resampleColumn dt pulse ((List.range N).map fun k : ℕ => (k : ℝ) * (dt / m)) = .ok fine ∧
    resampleColumn (dt / m) fine ((List.range pulse.length).map fun k : ℕ => (k : ℝ) * dt) = .ok pulse := by
  have hl : 0 < pulse.length := List.length_pos_iff.2 hp
  have hmR : (0 : ℝ) < m := by exact_mod_cast hm
  obtain ⟨fine, h1, h2, h3⟩ := C72_nearest hd hp ((List.range N).map fun k : ℕ => (k : ℝ) * (dt / m))
  rw [List.length_map, List.length_range] at h2
  have hf : fine ≠ [] := List.length_pos_iff.1 (by omega)
  refine ⟨fine, h1, ?_⟩
  obtain ⟨out, k1, k2, k3⟩ := C72_nearest (div_pos hd hmR) hf ((List.range pulse.length).map fun k : ℕ => (k : ℝ) * dt)
  rw [k1]
  congr 1
  rw [List.length_map, List.length_range] at k2
  refine List.ext_getElem? fun k => ?_
  rcases lt_or_ge k pulse.length with hk | hk
  · have hkN : m * k < N := lt_of_le_of_lt (Nat.mul_le_mul_left m (by omega)) hN
    have e : ((m * k : ℕ) : ℝ) * (dt / m) = k * dt := by push_cast; field_simp
    obtain ⟨v, h4, h5⟩ := k3 k (k * dt) (by simp [hk])
    obtain ⟨w, h6, h7⟩ := h3 (m * k) (k * dt) (by rw [List.getElem?_map, List.getElem?_range hkN]; exact congrArg some e)
    rw [← e] at h5
    have h8 := Resample.unique (div_pos hd hmR) (by omega) h5
    rw [h6] at h8
    rw [h4, ← h8, Resample.unique hd hk h7]
  · rw [List.getElem?_eq_none (by omega), List.getElem?_eq_none hk]

/-- Each column of the array is resampled on its own. -/
theorem C72_columns {dt : ℝ} {columns out : List (List ℝ)} {times : List ℝ} (h : resamplePulse dt columns times = .ok out) :
    List.Forall₂ (fun c o => resampleColumn dt c times = .ok o) columns out := by
  induction columns generalizing out with
  | nil => cases h; exact .nil
  | cons c cs ih =>
    unfold resamplePulse at h ih
    rw [List.mapM_cons] at h
    cases hc : resampleColumn dt c times with
    | error e => rw [hc] at h; cases h
    | ok o =>
      rw [hc] at h
      cases hcs : cs.mapM (fun c => resampleColumn dt c times) with
      | error e => rw [hcs] at h; cases h
      | ok os =>
        rw [hcs] at h
        cases h
        exact .cons hc (ih hcs)

/-- a pulse with three samples on a finer grid -/
example : ∃ fine, resampleColumn (1 : ℝ) [5, 7, 6] ((List.range 5).map fun k : ℕ => (k : ℝ) * (1 / (2 : ℕ))) = .ok fine ∧ fine.length = 5 := by
  obtain ⟨out, h1, h2, -⟩ := C72_nearest one_pos (pulse := [5, 7, 6]) (by simp) ((List.range 5).map fun k : ℕ => (k : ℝ) * (1 / (2 : ℕ)))
  exact ⟨out, h1, by simpa using h2⟩

end QuOCS

/-
C104. The open-system example `Examples/LindbladProblem.py`.
-/
import Verif.Lemmas.Lindblad
import Verif.Props.Problems

set_option linter.unusedSectionVars false
set_option linter.unusedVariables false

namespace QuOCS
open Matrix

section
variable {E gamma : ℝ} {drive grid : List ℝ} {ps gs : List (List ℝ)}

/-- what `get_FoM` computes -/
theorem lindbladFoM_eq (E gamma : ℝ) (ps gs : List (List ℝ)) (h : drive.length = grid.length) (hg : grid ≠ []) :
    lindbladFoM NormedSpace.exp E gamma (drive :: ps) (grid :: gs) =
      .ok (fidelityLFS (drive.foldl (lbSlice E gamma (grid.getLast hg / grid.length)) (toLFS lbInitial)) (toLFS lbTarget)) := by
  show (lbEvolution NormedSpace.exp (toLFS lbInitial) (lbConst E gamma) lbDrive drive grid >>= _) = _
  rw [lbEvolution_eq E gamma h hg]
  rfl

/-- **C104** (the trace). For all pulses, time grids, level splittings and decay rates, and every initial state, the evolved matrix has the trace of
the initial one. -/
theorem C104_trace_preserved (h : drive.length = grid.length) (hg : grid ≠ []) (rho : CMat 2) :
    ∃ v, lbEvolution NormedSpace.exp (toLFS rho) (lbConst E gamma) lbDrive drive grid = .ok v ∧ (fromLFS v).trace = rho.trace := by
  refine ⟨_, lbEvolution_eq E gamma h hg _, ?_⟩
  have := lb_trace E gamma (grid.getLast hg / grid.length) drive (toLFS rho)
  simpa [fromLFS, toLFS, Matrix.trace, Fin.sum_univ_two] using this

/-- the propagator of the closed system: later slices act from the left -/
noncomputable def closedPropagator (E : ℝ) (drive : List ℝ) (dt : ℝ) : CMat 2 :=
  ordered (fun i => stepPropagator dt (drivenQubit E (drive.getD i 0))) drive.length

theorem closedPropagator_unitary (E : ℝ) (drive : List ℝ) (dt : ℝ) : (closedPropagator E drive dt)ᴴ * closedPropagator E drive dt = 1 :=
  ordered_unitary fun i _ => exp_skew_unitary (drivenQubit_hermitian _ _) dt

theorem lb_closed (E dt : ℝ) (drive : List ℝ) (rho : CMat 2) : drive.foldl (lbSlice E 0 dt) (toLFS rho) =
    toLFS (closedPropagator E drive dt * rho * (closedPropagator E drive dt)ᴴ) := by
  unfold closedPropagator
  induction drive using List.reverseRecOn with
  | nil => simp [ordered]
  | append_singleton l a ih =>
    rw [List.foldl_append, List.foldl_cons, List.foldl_nil, ih, List.length_append, List.length_singleton, ordered]
    unfold lbSlice
    rw [lb_step_closed]
    have e1 : (l ++ [a]).getD l.length 0 = a := by simp
    have e2 : ordered (fun i => stepPropagator dt (drivenQubit E ((l ++ [a]).getD i 0))) l.length =
        ordered (fun i => stepPropagator dt (drivenQubit E (l.getD i 0))) l.length := TE.ordered_congr fun i hi => by
      simp [List.getD_eq_getElem?_getD, List.getElem?_append_left hi]
    rw [e1, e2, conjTranspose_mul]
    simp only [Matrix.mul_assoc]

/-- the initial state of the example -/
def lbKet0 : Fin 2 → ℂ := ![1, 0]

/-- the target state of the example -/
noncomputable def lbKetT : Fin 2 → ℂ := ![((Real.sqrt 2)⁻¹ : ℝ), -Complex.I * ((Real.sqrt 2)⁻¹ : ℝ)]

theorem lb_half : (((Real.sqrt 2)⁻¹ : ℝ) : ℂ) * (((Real.sqrt 2)⁻¹ : ℝ) : ℂ) = 1 / 2 := by
  rw [← Complex.ofReal_mul, ← mul_inv, Real.mul_self_sqrt (by norm_num)]
  push_cast
  norm_num

theorem lbInitial_pure : lbInitial = pureState lbKet0 := by
  ext i j
  fin_cases i <;> fin_cases j <;> simp [lbInitial, pureState, lbKet0, vecMulVec]

theorem lbTarget_pure : lbTarget = pureState lbKetT := by
  have h := lb_half
  ext i j
  fin_cases i <;> fin_cases j <;> simp [lbTarget, pureState, lbKetT, vecMulVec] at h ⊢
  · linear_combination -h
  · linear_combination -Complex.I * h
  · linear_combination Complex.I * h
  · linear_combination -h - (((Real.sqrt 2 : ℝ) : ℂ)⁻¹ * ((Real.sqrt 2 : ℝ) : ℂ)⁻¹) * (-Complex.I_mul_I - 1)

theorem lbKet0_unit : IsUnitKet lbKet0 := by
  simp [IsUnitKet, lbKet0, Fin.sum_univ_two]

theorem lbKetT_unit : IsUnitKet lbKetT := by
  simp [IsUnitKet, lbKetT, Fin.sum_univ_two]
  norm_num

theorem fidelityLFS_pure (psi phi : Fin 2 → ℂ) : fidelityLFS (toLFS (pureState psi)) (toLFS (pureState phi)) ^ 2 = transition psi phi := by
  unfold fidelityLFS transition
  rw [Real.sq_sqrt (norm_nonneg _), ← norm_pow, Fin.sum_univ_two]
  have : star (toLFS (pureState psi)) ⬝ᵥ toLFS (pureState phi) =
      (star (psi 0) * phi 0 + star (psi 1) * phi 1) * star (star (psi 0) * phi 0 + star (psi 1) * phi 1) := by
    simp [toLFS, pureState, vecMulVec, dotProduct, Fin.sum_univ_succ]
    ring
  rw [this, norm_mul, norm_star, norm_pow, sq]

/-- **C104** (without decay). The figure of merit is the root of the probability to find the state reached under the drive in the target state; it
lies between 0 and 1. -/
theorem C104_closed_partial (E : ℝ) (ps gs : List (List ℝ)) (h : drive.length = grid.length) (hg : grid ≠ []) :
    ∃ f, lindbladFoM NormedSpace.exp E 0 (drive :: ps) (grid :: gs) = .ok f ∧ 0 ≤ f ∧ f ≤ 1 ∧
      f ^ 2 = transition (closedPropagator E drive (grid.getLast hg / grid.length) *ᵥ lbKet0) lbKetT := by
  have hU := closedPropagator_unitary E drive (grid.getLast hg / grid.length)
  have hp : closedPropagator E drive (grid.getLast hg / grid.length) * lbInitial * (closedPropagator E drive (grid.getLast hg / grid.length))ᴴ =
      pureState (closedPropagator E drive (grid.getLast hg / grid.length) *ᵥ lbKet0) := by
    rw [lbInitial_pure]
    unfold pureState
    rw [Matrix.mul_vecMulVec, Matrix.vecMulVec_mul, Matrix.star_mulVec]
  have hf := fidelityLFS_pure (closedPropagator E drive (grid.getLast hg / grid.length) *ᵥ lbKet0) lbKetT
  have h0 : 0 ≤ fidelityLFS (toLFS (pureState (closedPropagator E drive (grid.getLast hg / grid.length) *ᵥ lbKet0))) (toLFS (pureState lbKetT)) :=
    Real.sqrt_nonneg _
  refine ⟨_, by rw [lindbladFoM_eq E 0 ps gs h hg, lb_closed, hp, lbTarget_pure], h0, ?_, hf⟩
  have h1 := Ket.transition_le_one (Ket.unit_mulVec hU lbKet0_unit) lbKetT_unit
  rw [← hf] at h1
  exact (sq_le_one_iff₀ h0).1 h1

/-- **C104 is violated** (the equation). The generator of the example is the one of the Lindblad equation of a driven qubit with decay, except for one
sign (line 49: `+ gamma_decay / 2`): the coherence between the two states grows instead of decaying. -/
theorem C104_wrong_sign (E u : ℝ) (hg : 0 ≤ gamma) (rho : CMat 2) :
    fromLFS ((lbConst E gamma + (u : ℂ) • lbDrive).mulVec (toLFS rho)) =
      lindbladRhs (drivenQubit E u) (decayOperator gamma) rho + !![0, gamma * rho 0 1; 0, 0] := lb_generator E u hg rho

/-- **C104 is violated** (the range). With any decay rate the figure of merit, which is to be maximized, is unbounded: a short pulse at the beginning of
a sufficiently long time grid gives a value above every bound. The evolved matrix is then no density matrix. -/
theorem C104_figure_of_merit_unbounded (E : ℝ) (hγ : 0 < gamma) (bound : ℝ) : ∃ (m : ℕ) (T f : ℝ), 0 < T ∧
    lindbladFoM NormedSpace.exp E gamma [1 :: List.replicate m 0] [linspace0 T (m + 1)] = .ok f ∧ bound < f := by
  obtain ⟨dt, hdt, hv⟩ := lb_coherence E gamma
  set v := lbSlice E gamma dt (toLFS lbInitial) 1 with hvdef
  have htr : v 0 + v 3 = 1 := by
    have := lbSlice_trace E gamma dt 1 (toLFS lbInitial)
    rw [← hvdef] at this
    simpa [toLFS, lbInitial] using this
  have hpos : 0 < ‖v 1‖ := norm_pos_iff.2 hv
  -- the coherence grows
  obtain ⟨m, hm1, hm⟩ : ∃ m : ℕ, 1 ≤ m ∧ 2 * bound ^ 2 + 1 + ‖v 2‖ < (1 + m * (dt * (gamma / 2))) * ‖v 1‖ := by
    obtain ⟨m, hm⟩ := exists_nat_gt ((2 * bound ^ 2 + 1 + ‖v 2‖) / (dt * (gamma / 2) * ‖v 1‖))
    have hk : 0 < dt * (gamma / 2) * ‖v 1‖ := by positivity
    rw [div_lt_iff₀ hk] at hm
    refine ⟨m + 1, by omega, ?_⟩
    push_cast
    nlinarith [norm_nonneg (v 1), mul_pos hdt hγ]
  have h1 : lbConst E gamma 1 = (-Complex.I * E + gamma / 2) • Pi.single 1 1 := by
    funext j; fin_cases j <;> simp [lbConst]
  have h2 : lbConst E gamma 2 = (Complex.I * E - gamma / 2) • Pi.single 2 1 := by
    funext j; fin_cases j <;> simp [lbConst]
  set w := (List.replicate m (0 : ℝ)).foldl (lbSlice E gamma dt) v with hw
  have w1 : w 1 = Complex.exp (m * dt * (-Complex.I * E + gamma / 2)) * v 1 := lb_idle h1 m v
  have w2 : w 2 = Complex.exp (m * dt * (Complex.I * E - gamma / 2)) * v 2 := lb_idle h2 m v
  have w03 : w 0 + w 3 = 1 := by rw [hw, lb_trace, htr]
  have n1 : (1 + m * (dt * (gamma / 2))) * ‖v 1‖ ≤ ‖w 1‖ := by
    rw [w1, norm_mul, Complex.norm_exp]
    have : ((m : ℂ) * dt * (-Complex.I * E + gamma / 2)).re = m * (dt * (gamma / 2)) := by
      simp [Complex.mul_re, Complex.div_re]
      ring
    rw [this]
    refine mul_le_mul_of_nonneg_right ?_ (norm_nonneg _)
    have := Real.add_one_le_exp (m * (dt * (gamma / 2)))
    linarith
  have n2 : ‖w 2‖ ≤ ‖v 2‖ := by
    rw [w2, norm_mul, Complex.norm_exp]
    have : ((m : ℂ) * dt * (Complex.I * E - gamma / 2)).re = -(m * (dt * (gamma / 2))) := by
      simp [Complex.mul_re, Complex.div_re]
      ring
    rw [this]
    have h3 : Real.exp (-(m * (dt * (gamma / 2)))) ≤ 1 := Real.exp_le_one_iff.2 (by
      have : 0 ≤ (m : ℝ) * (dt * (gamma / 2)) := by positivity
      linarith)
    nlinarith [norm_nonneg (v 2)]
  have hT : (linspace0 (((m + 1 : ℕ) : ℝ) * dt) (m + 1)).length = m + 1 := by simp [linspace0]
  have hne : linspace0 (((m + 1 : ℕ) : ℝ) * dt) (m + 1) ≠ [] := by
    intro h
    rw [h] at hT
    simp at hT
  have hlast : (linspace0 (((m + 1 : ℕ) : ℝ) * dt) (m + 1)).getLast hne / ((linspace0 (((m + 1 : ℕ) : ℝ) * dt) (m + 1)).length : ℝ) = dt := by
    have hm0 : (m : ℝ) ≠ 0 := by
      have : (1 : ℝ) ≤ m := by exact_mod_cast hm1
      linarith
    have hm1' : ((m : ℝ) + 1) ≠ 0 := by positivity
    rw [hT, List.getLast_eq_getElem]
    simp only [linspace0, List.getElem_map, List.length_map, List.length_range, List.getElem_range, Nat.add_sub_cancel]
    push_cast
    field_simp
  refine ⟨m, ((m + 1 : ℕ) : ℝ) * dt, _, by positivity, lindbladFoM_eq E gamma [] [] (by rw [hT]; simp) hne, ?_⟩
  rw [hlast, List.foldl_cons, ← hvdef, ← hw]
  unfold fidelityLFS
  refine Real.lt_sqrt_of_sq_lt ?_
  have hd : star w ⬝ᵥ toLFS lbTarget = 1 / 2 + (Complex.I / 2) * (star (w 1) - star (w 2)) := by
    have h := congrArg star w03
    simp only [star_add, star_one] at h
    simp [toLFS, lbTarget, dotProduct, Fin.sum_univ_succ] at h ⊢
    linear_combination (1 / 2 : ℂ) * h
  rw [hd]
  have t1 : ‖(Complex.I / 2) * (star (w 1) - star (w 2))‖ = ‖w 1 - w 2‖ / 2 := by
    rw [norm_mul, ← star_sub, norm_star, norm_div, Complex.norm_I]
    norm_num
    ring
  have t2 := norm_sub_norm_le (w 1) (w 2)
  have t3 := norm_sub_norm_le ((Complex.I / 2) * (star (w 1) - star (w 2))) (-(1 / 2 : ℂ))
  rw [sub_neg_eq_add, norm_neg, t1] at t3
  have t4 : ‖(1 / 2 : ℂ)‖ = 1 / 2 := by norm_num
  rw [t4] at t3
  rw [add_comm]
  nlinarith
end

/-- The hypotheses of the theorems above are met, e.g. with a pulse of three samples. -/
example : ([1, 0, 2] : List ℝ).length = (linspace0 (3 : ℝ) 3).length ∧ linspace0 (3 : ℝ) 3 ≠ [] := by
  refine ⟨by simp [linspace0], fun h => ?_⟩
  have := congrArg List.length h
  simp [linspace0] at this

/-- The default decay rate of the example is positive. -/
example : (0 : ℝ) < 0.1 := by norm_num

end QuOCS

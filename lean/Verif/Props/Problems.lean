/-
The example problems: C63 (one qubit), C64 (one qubit, two fields), C65 (Rosenbrock).
-/
import Verif.Model.Problems
import Verif.Spec.Problems
import Verif.Props.TimeEvolution
import Verif.Lemmas.Prog
import Mathlib.Analysis.InnerProductSpace.PiL2
import Mathlib.Analysis.SpecialFunctions.Exponential

set_option linter.unusedSectionVars false
set_option linter.unusedVariables false

namespace QuOCS
open Matrix

namespace Ket
variable {d : ℕ}

theorem dot_eq (psi phi : Fin d → ℂ) : star psi ⬝ᵥ phi = ∑ i, star (psi i) * phi i := rfl

theorem dot_self (psi : Fin d → ℂ) : star psi ⬝ᵥ psi = ((∑ i, ‖psi i‖ ^ 2 : ℝ) : ℂ) := by
  rw [dot_eq, Complex.ofReal_sum]
  refine Finset.sum_congr rfl fun i _ => ?_
  rw [Complex.star_def, Complex.conj_mul', Complex.ofReal_pow]

/-- unitary matrices preserve the norm -/
theorem unit_mulVec {U : CMat d} (hU : Uᴴ * U = 1) {psi : Fin d → ℂ} (h : IsUnitKet psi) : IsUnitKet (U *ᵥ psi) := by
  have e : star (U *ᵥ psi) ⬝ᵥ (U *ᵥ psi) = star psi ⬝ᵥ psi := by
    rw [Matrix.star_mulVec, ← Matrix.dotProduct_mulVec, Matrix.mulVec_mulVec, hU, Matrix.one_mulVec]
  rw [dot_self, dot_self] at e
  unfold IsUnitKet at *
  rw [← h]; exact_mod_cast e

theorem unit_smul {psi : Fin d → ℂ} (h : IsUnitKet psi) {c : ℂ} (hc : ‖c‖ = 1) : IsUnitKet (c • psi) := by
  unfold IsUnitKet at *
  simpa [hc] using h

theorem transition_nonneg (psi phi : Fin d → ℂ) : 0 ≤ transition psi phi := sq_nonneg _

/-- the vectors as elements of the inner product space -/
theorem inner_eq (psi phi : Fin d → ℂ) :
    inner ℂ (WithLp.toLp 2 psi : EuclideanSpace ℂ (Fin d)) (WithLp.toLp 2 phi) = ∑ i, star (psi i) * phi i := by
  rw [PiLp.inner_apply]
  refine Finset.sum_congr rfl fun i _ => ?_
  simp [mul_comm]

theorem norm_one {psi : Fin d → ℂ} (h : IsUnitKet psi) : ‖(WithLp.toLp 2 psi : EuclideanSpace ℂ (Fin d))‖ = 1 := by
  rw [EuclideanSpace.norm_eq]
  have : ∑ i, ‖(WithLp.toLp 2 psi : EuclideanSpace ℂ (Fin d)).ofLp i‖ ^ 2 = 1 := h
  rw [this, Real.sqrt_one]

theorem transition_le_one {psi phi : Fin d → ℂ} (h1 : IsUnitKet psi) (h2 : IsUnitKet phi) : transition psi phi ≤ 1 := by
  have := norm_inner_le_norm (𝕜 := ℂ) (WithLp.toLp 2 psi : EuclideanSpace ℂ (Fin d)) (WithLp.toLp 2 phi)
  rw [inner_eq, norm_one h1, norm_one h2, mul_one] at this
  exact pow_le_one₀ (norm_nonneg _) this

theorem transition_eq_one_iff {psi phi : Fin d → ℂ} (h1 : IsUnitKet psi) (h2 : IsUnitKet phi) :
    transition psi phi = 1 ↔ SameState psi phi := by
  have n1 := norm_one h1
  have n2 := norm_one h2
  have e := inner_eq psi phi
  constructor
  · intro h
    have h' : ‖inner ℂ (WithLp.toLp 2 psi : EuclideanSpace ℂ (Fin d)) (WithLp.toLp 2 phi)‖ =
        ‖(WithLp.toLp 2 psi : EuclideanSpace ℂ (Fin d))‖ * ‖(WithLp.toLp 2 phi : EuclideanSpace ℂ (Fin d))‖ := by
      rw [n1, n2, e, mul_one]
      unfold transition at h
      exact (pow_eq_one_iff_of_nonneg (norm_nonneg _) two_ne_zero).1 h
    rw [norm_inner_eq_norm_iff (by rw [← norm_pos_iff, n1]; exact one_pos) (by rw [← norm_pos_iff, n2]; exact one_pos)] at h'
    obtain ⟨c, -, hc⟩ := h'
    refine ⟨c, ?_, ?_⟩
    · have := congrArg norm hc
      rw [norm_smul, n1, n2, mul_one] at this
      exact this.symm
    · exact congrArg WithLp.ofLp hc
  · rintro ⟨c, hc, rfl⟩
    unfold transition
    have : ∑ i, star (psi i) * (c • psi) i = c * (star psi ⬝ᵥ psi) := by
      rw [dot_eq, Finset.mul_sum]
      refine Finset.sum_congr rfl fun i _ => ?_
      rw [Pi.smul_apply, smul_eq_mul]; ring
    rw [this, dot_self, h1, norm_mul, hc]
    simp

theorem transition_smul (psi phi : Fin d → ℂ) {c c' : ℂ} (hc : ‖c‖ = 1) (hc' : ‖c'‖ = 1) :
    transition (c • psi) (c' • phi) = transition psi phi := by
  unfold transition
  have : ∑ i, star ((c • psi) i) * (c' • phi) i = star c * c' * ∑ i, star (psi i) * phi i := by
    rw [Finset.mul_sum]
    refine Finset.sum_congr rfl fun i _ => ?_
    rw [Pi.smul_apply, Pi.smul_apply, smul_eq_mul, smul_eq_mul, star_mul']; ring
  rw [this, norm_mul, norm_mul, norm_star, hc, hc', one_mul, one_mul]

theorem ketNorm_one {psi : Ket} (h : IsUnitKet psi) : ketNorm psi = 1 := by
  unfold ketNorm; rw [h, Real.sqrt_one]

theorem fidelity_eq {psi phi : Ket} (h1 : IsUnitKet psi) (h2 : IsUnitKet phi) : ketFidelity psi phi = transition psi phi := by
  unfold ketFidelity transition
  rw [ketNorm_one h1, ketNorm_one h2, mul_one, div_one, dot_eq]

end Ket

/-! ### C63: one qubit -/

namespace OneQubitProblem

theorem ham_eq (a d1 d2 : ℝ) : oneQubitHam a d1 d2 = qubitHamiltonian a d1 d2 := by
  unfold oneQubitHam qubitHamiltonian sigmaX sigmaZ
  ext i j
  fin_cases i <;> fin_cases j <;> simp

theorem qubit_hermitian (a d1 d2 : ℝ) : (qubitHamiltonian a d1 d2)ᴴ = qubitHamiltonian a d1 d2 := by
  unfold qubitHamiltonian
  ext i j
  fin_cases i <;> fin_cases j <;> simp [Matrix.conjTranspose_apply, Complex.conj_ofReal]

theorem evolution_eq (drive : List ℝ) (dt d1 d2 : ℝ) : oneQubitEvolution NormedSpace.exp drive dt d1 d2 =
    ordered (fun i => stepPropagator dt (qubitHamiltonian (drive.getD i 0) d1 d2)) drive.length := by
  unfold oneQubitEvolution
  induction drive using List.reverseRecOn with
  | nil => rfl
  | append_singleton l a ih =>
    rw [List.foldl_append, List.foldl_cons, List.foldl_nil, ih, List.length_append, List.length_singleton, ordered]
    congr 1
    · rw [ham_eq]; simp [stepPropagator]
    · refine TE.ordered_congr fun i hi => ?_
      simp [List.getD_eq_getElem?_getD, List.getElem?_append_left hi]

/-- the part of `get_FoM` before the bookkeeping -/
theorem fom_eq (expm : CMat 2 → CMat 2) (rand : ℝ) (drive : List ℝ) (ps : List (List ℝ)) (params : List ℝ) (t0 t1 : ℝ)
    (ts : List ℝ) (gs : List (List ℝ)) (o : OneQubit) :
    oneQubitFoM expm rand (drive :: ps) params ((t0 :: t1 :: ts) :: gs) o =
      oneQubitFinish rand (1 - ketFidelity o.target
        (oneQubitEvolution expm drive (t1 - t0) (params.headD o.delta1) o.delta2 *ᵥ o.psi0))
        { o with delta1 := params.headD o.delta1 } := by
  cases params <;> rfl

end OneQubitProblem
open OneQubitProblem

section
variable {o : OneQubit} {rand : ℝ} {drive : List ℝ} {ps gs : List (List ℝ)} {params ts : List ℝ} {t0 t1 : ℝ}

/-- the propagator of the drive: later slices act from the left, the detuning is the first parameter if there is one -/
noncomputable def qubitPropagator (o : OneQubit) (drive params : List ℝ) (dt : ℝ) : CMat 2 :=
  ordered (fun i => stepPropagator dt (qubitHamiltonian (drive.getD i 0) (params.headD o.delta1) o.delta2)) drive.length

theorem qubitPropagator_unitary (o : OneQubit) (drive params : List ℝ) (dt : ℝ) :
    (qubitPropagator o drive params dt)ᴴ * qubitPropagator o drive params dt = 1 :=
  ordered_unitary fun i _ => exp_skew_unitary (qubit_hermitian _ _ _) dt

/-- **C63.** For normalized states, without noise and drift, the figure of merit is the infidelity between the target and
the state reached from the initial state under the drive (with the sign of the optimization direction). -/
theorem C63_is_infidelity (hn : o.isNoisy = false) (hd : o.includeDrift = false) (ht : IsUnitKet o.target)
    (h0 : IsUnitKet o.psi0) :
    (oneQubitFoM NormedSpace.exp rand (drive :: ps) params ((t0 :: t1 :: ts) :: gs) o).1 =
      .ok ⟨-o.optFactor * (1 - transition o.target (qubitPropagator o drive params (t1 - t0) *ᵥ o.psi0)), 1e-4⟩ := by
  rw [fom_eq, evolution_eq]
  have hU := qubitPropagator_unitary o drive params (t1 - t0)
  have := Ket.fidelity_eq ht (Ket.unit_mulVec hU h0)
  unfold qubitPropagator at this
  simp only [oneQubitFinish, hn, hd, this, qubitPropagator]
  norm_num

/-- **C63.** It lies between 0 and 1 in a minimization, and between -1 and 0 in a maximization. -/
theorem C63_range (hn : o.isNoisy = false) (hd : o.includeDrift = false) (ht : IsUnitKet o.target) (h0 : IsUnitKet o.psi0) :
    ∃ r, (oneQubitFoM NormedSpace.exp rand (drive :: ps) params ((t0 :: t1 :: ts) :: gs) o).1 = .ok r ∧
      (o.optFactor = -1 → 0 ≤ r.fom ∧ r.fom ≤ 1) ∧ (o.optFactor = 1 → -1 ≤ r.fom ∧ r.fom ≤ 0) := by
  refine ⟨_, C63_is_infidelity hn hd ht h0, ?_, ?_⟩ <;> intro hf <;> dsimp only <;> rw [hf]
  all_goals
    have a := Ket.transition_nonneg o.target (qubitPropagator o drive params (t1 - t0) *ᵥ o.psi0)
    have b := Ket.transition_le_one ht (Ket.unit_mulVec (qubitPropagator_unitary o drive params (t1 - t0)) h0)
    constructor <;> linarith

/-- **C63.** It is zero exactly if the drive reaches the target state (up to a phase). -/
theorem C63_zero_iff_target_reached (hn : o.isNoisy = false) (hd : o.includeDrift = false) (ht : IsUnitKet o.target)
    (h0 : IsUnitKet o.psi0) (hf : o.optFactor ≠ 0) :
    ∃ r, (oneQubitFoM NormedSpace.exp rand (drive :: ps) params ((t0 :: t1 :: ts) :: gs) o).1 = .ok r ∧
      (r.fom = 0 ↔ SameState o.target (qubitPropagator o drive params (t1 - t0) *ᵥ o.psi0)) := by
  refine ⟨_, C63_is_infidelity hn hd ht h0, ?_⟩
  rw [← Ket.transition_eq_one_iff ht (Ket.unit_mulVec (qubitPropagator_unitary o drive params (t1 - t0)) h0)]
  dsimp only
  rw [mul_eq_zero, neg_eq_zero, or_iff_right hf, sub_eq_zero, eq_comm]

/-- **C63.** Global phases of the initial and the target state do not matter. -/
theorem C63_global_phase (hn : o.isNoisy = false) (hd : o.includeDrift = false) (ht : IsUnitKet o.target)
    (h0 : IsUnitKet o.psi0) {c c' : ℂ} (hc : ‖c‖ = 1) (hc' : ‖c'‖ = 1) :
    (oneQubitFoM NormedSpace.exp rand (drive :: ps) params ((t0 :: t1 :: ts) :: gs)
      { o with target := c • o.target, psi0 := c' • o.psi0 }).1 =
    (oneQubitFoM NormedSpace.exp rand (drive :: ps) params ((t0 :: t1 :: ts) :: gs) o).1 := by
  rw [C63_is_infidelity hn hd ht h0, C63_is_infidelity (o := { o with target := c • o.target, psi0 := c' • o.psi0 }) hn hd
    (Ket.unit_smul ht hc) (Ket.unit_smul h0 hc')]
  have : qubitPropagator { o with target := c • o.target, psi0 := c' • o.psi0 } drive params (t1 - t0) =
      qubitPropagator o drive params (t1 - t0) := rfl
  dsimp only
  rw [this, Matrix.mulVec_smul, Ket.transition_smul _ _ hc hc']

/-- **C63.** With noise the figure of merit deviates from the ideal one by at most the noise factor; with drift it moves by
the drift per evaluation. -/
theorem C63_noise_and_drift (ht : IsUnitKet o.target) (h0 : IsUnitKet o.psi0) (hr : 0 ≤ rand ∧ rand < 1)
    (hf : o.optFactor = -1 ∨ o.optFactor = 1) (hnf : 0 ≤ o.noiseFactor) :
    ∃ r, (oneQubitFoM NormedSpace.exp rand (drive :: ps) params ((t0 :: t1 :: ts) :: gs) o).1 = .ok r ∧
      |r.fom - -o.optFactor * ((1 - transition o.target (qubitPropagator o drive params (t1 - t0) *ᵥ o.psi0)) +
        (if o.includeDrift then o.driftSlope * o.evalNumber else 0))| ≤ (if o.isNoisy then o.noiseFactor else 0) := by
  rw [fom_eq, evolution_eq]
  have hU := qubitPropagator_unitary o drive params (t1 - t0)
  have := Ket.fidelity_eq ht (Ket.unit_mulVec hU h0)
  unfold qubitPropagator at this
  refine ⟨_, rfl, ?_⟩
  simp only [this, qubitPropagator]
  have hb : |o.noiseFactor * 2 * (0.5 - rand)| ≤ o.noiseFactor := by
    rw [abs_le]
    constructor <;> nlinarith [hr.1, hr.2]
  obtain ⟨hb1, hb2⟩ := abs_le.1 hb
  rcases hf with hf | hf <;> rw [hf] <;> cases o.isNoisy <;> cases o.includeDrift <;>
    simp only [if_true, if_false, Bool.false_eq_true, abs_le] <;> constructor <;> linarith

end

/-- A history of evaluations: random number, pulses, parameters, time grids of each call. -/
noncomputable def oneQubitAfter (calls : List (ℝ × List (List ℝ) × List ℝ × List (List ℝ))) (o : OneQubit) : OneQubit :=
  calls.foldl (fun o c => (oneQubitFoM NormedSpace.exp c.1 c.2.1 c.2.2.1 c.2.2.2 o).2) o

namespace OneQubitProblem

/-- what a call does to the object -/
theorem step (expm : CMat 2 → CMat 2) (rand : ℝ) (pulses : List (List ℝ)) (params : List ℝ) (grids : List (List ℝ))
    (o : OneQubit) : ∃ d1 l n, (oneQubitFoM expm rand pulses params grids o).2 =
      { o with delta1 := d1, fomList := l, evalNumber := n } ∧ (params = [] → d1 = o.delta1) := by
  unfold oneQubitFoM
  rw [Prog.bind_apply, Prog.lift_apply]
  rcases getIdx pulses 0 with e | drive
  · exact ⟨_, _, _, rfl, fun _ => rfl⟩
  dsimp only
  rw [Prog.modify_bind, Prog.bind_apply, Prog.lift_apply]
  rcases getIdx grids 0 with e | grid
  · cases params
    · exact ⟨_, _, _, rfl, fun _ => rfl⟩
    · exact ⟨_, _, _, rfl, by simp⟩
  dsimp only
  rw [Prog.bind_apply, Prog.lift_apply]
  rcases getIdx grid 1 with e | t1
  · cases params
    · exact ⟨_, _, _, rfl, fun _ => rfl⟩
    · exact ⟨_, _, _, rfl, by simp⟩
  dsimp only
  rw [Prog.bind_apply, Prog.lift_apply]
  rcases getIdx grid 0 with e | t0
  · cases params
    · exact ⟨_, _, _, rfl, fun _ => rfl⟩
    · exact ⟨_, _, _, rfl, by simp⟩
  cases params
  · exact ⟨_, _, _, rfl, fun _ => rfl⟩
  · exact ⟨_, _, _, rfl, by simp⟩

theorem after (calls : List (ℝ × List (List ℝ) × List ℝ × List (List ℝ))) (o : OneQubit) :
    ∃ d1 l n, oneQubitAfter calls o = { o with delta1 := d1, fomList := l, evalNumber := n } ∧
      ((∀ c ∈ calls, c.2.2.1 = []) → d1 = o.delta1) := by
  induction calls using List.reverseRecOn with
  | nil => exact ⟨_, _, _, rfl, fun _ => rfl⟩
  | append_singleton cs c ih =>
    obtain ⟨d1, l, n, h, hd⟩ := ih
    have e : oneQubitAfter (cs ++ [c]) o = (oneQubitFoM NormedSpace.exp c.1 c.2.1 c.2.2.1 c.2.2.2 (oneQubitAfter cs o)).2 := by
      simp [oneQubitAfter]
    rw [e, h]
    obtain ⟨d1', l', n', h', hd'⟩ := step NormedSpace.exp c.1 c.2.1 c.2.2.1 c.2.2.2
      { o with delta1 := d1, fomList := l, evalNumber := n }
    refine ⟨d1', l', n', h', fun hc => ?_⟩
    rw [hd' (hc c (by simp)), hd fun x hx => hc x (by simp [hx])]

end OneQubitProblem

section
variable {o : OneQubit} {rand rand' : ℝ} {pulses grids : List (List ℝ)} {params : List ℝ}

/-- **C63, partial.** Without noise and drift the figure of merit of a call does not depend on earlier evaluations, if the
call has parameters, or no call ever had one. Missing: the mixed case, see below. -/
theorem C63_history_independent_partial (hn : o.isNoisy = false) (hd : o.includeDrift = false)
    (calls : List (ℝ × List (List ℝ) × List ℝ × List (List ℝ)))
    (h : params ≠ [] ∨ ∀ c ∈ calls, c.2.2.1 = []) :
    (oneQubitFoM NormedSpace.exp rand pulses params grids (oneQubitAfter calls o)).1 =
      (oneQubitFoM NormedSpace.exp rand' pulses params grids o).1 := by
  obtain ⟨d1, l, n, h1, h2⟩ := after calls o
  rw [h1]
  have hp : params.headD d1 = params.headD o.delta1 := by
    rcases h with h | h
    · cases params
      · exact absurd rfl h
      · rfl
    · rw [h2 h]
  rcases pulses with _ | ⟨drive, ps⟩
  · rfl
  rcases grids with _ | ⟨grid, gs⟩
  · cases params <;> rfl
  rcases grid with _ | ⟨t0, _ | ⟨t1, ts⟩⟩
  · cases params <;> rfl
  · cases params <;> rfl
  rw [fom_eq, fom_eq]
  simp only [oneQubitFinish, hn, hd, hp, Bool.false_eq_true, if_false]

end

namespace OneQubitProblem

/-- evolution over one slice without drive -/
theorem free (o : OneQubit) (h : o.delta2 = 0) (params : List ℝ) : qubitPropagator o [0] params (1 - 0) =
    Matrix.diagonal ![Complex.exp (-(params.headD o.delta1 / 2 : ℝ) * Complex.I), Complex.exp ((params.headD o.delta1 / 2 : ℝ) * Complex.I)] := by
  have e : (-Complex.I * ((1 - 0 : ℝ) : ℂ)) • qubitHamiltonian 0 (params.headD o.delta1) 0 =
      Matrix.diagonal ![-(params.headD o.delta1 / 2 : ℝ) * Complex.I, (params.headD o.delta1 / 2 : ℝ) * Complex.I] := by
    unfold qubitHamiltonian
    ext i j
    fin_cases i <;> fin_cases j <;> simp <;> ring
  show stepPropagator (1 - 0) (qubitHamiltonian 0 (params.headD o.delta1) o.delta2) * 1 = _
  rw [h, mul_one, stepPropagator, e, Matrix.exp_diagonal]
  congr 1
  funext i
  rw [Pi.coe_exp]
  fin_cases i <;> simp [Complex.exp_eq_exp_ℂ]

/-- `(|0⟩ + |1⟩)/√2`, target `(|0⟩ - |1⟩)/√2`, no detuning -/
noncomputable def exQubit : OneQubit :=
  { target := ![(Real.sqrt 2 / 2 : ℝ), (-(Real.sqrt 2 / 2) : ℝ)], psi0 := ![(Real.sqrt 2 / 2 : ℝ), (Real.sqrt 2 / 2 : ℝ)]
    delta1 := 0, delta2 := 0, isNoisy := false, noiseFactor := 0, includeDrift := false, driftSlope := 0, optFactor := -1
    fomList := [], evalNumber := 0 }

theorem half : ‖Real.sqrt 2 / 2‖ ^ 2 = 1 / 2 := by
  rw [Real.norm_eq_abs, sq_abs, div_pow, Real.sq_sqrt (by norm_num)]; norm_num

theorem exTarget_unit : IsUnitKet exQubit.target := by
  unfold IsUnitKet exQubit
  rw [Fin.sum_univ_two]
  simp only [Matrix.cons_val_zero, Matrix.cons_val_one, Complex.norm_real, norm_neg, half]
  norm_num

theorem exPsi_unit : IsUnitKet exQubit.psi0 := by
  unfold IsUnitKet exQubit
  rw [Fin.sum_univ_two]
  simp only [Matrix.cons_val_zero, Matrix.cons_val_one, Complex.norm_real, half]
  norm_num

theorem exTransition (d : ℝ) (l : List ℝ) (n : ℕ) (o : OneQubit) (ho : o = { exQubit with delta1 := d, fomList := l, evalNumber := n }) :
    transition o.target (qubitPropagator o [0] [] (1 - 0) *ᵥ o.psi0) = Real.sin (d / 2) ^ 2 := by
  rw [free o (by rw [ho]; rfl)]
  subst ho
  unfold transition exQubit
  rw [Fin.sum_univ_two]
  simp only [Matrix.mulVec_diagonal, Matrix.cons_val_zero, Matrix.cons_val_one, List.headD_nil]
  have : star ((Real.sqrt 2 / 2 : ℝ) : ℂ) * (Complex.exp (-(d / 2 : ℝ) * Complex.I) * (Real.sqrt 2 / 2 : ℝ)) +
      star ((-(Real.sqrt 2 / 2) : ℝ) : ℂ) * (Complex.exp ((d / 2 : ℝ) * Complex.I) * (Real.sqrt 2 / 2 : ℝ)) =
      -Complex.I * Real.sin (d / 2) := by
    have hs : ((Real.sqrt 2 / 2 : ℝ) : ℂ) * ((Real.sqrt 2 / 2 : ℝ) : ℂ) = 1 / 2 := by
      rw [← Complex.ofReal_mul]
      have : Real.sqrt 2 / 2 * (Real.sqrt 2 / 2) = 1 / 2 := by
        rw [div_mul_div_comm, Real.mul_self_sqrt (by norm_num)]; norm_num
      rw [this]; norm_num
    rw [Complex.star_def, Complex.conj_ofReal, Complex.conj_ofReal, Complex.ofReal_neg, Complex.ofReal_sin, Complex.sin]
    linear_combination (Complex.exp (-((d / 2 : ℝ) : ℂ) * Complex.I) - Complex.exp (((d / 2 : ℝ) : ℂ) * Complex.I)) * hs +
      (1 / 2) * (Complex.exp (-((d / 2 : ℝ) : ℂ) * Complex.I) - Complex.exp (((d / 2 : ℝ) : ℂ) * Complex.I)) * Complex.I_mul_I
  rw [this, norm_mul, norm_neg, Complex.norm_I, one_mul, Complex.norm_real, Real.norm_eq_abs, sq_abs]

end OneQubitProblem

/-- The hypotheses of C63 are met by this object. -/
example : exQubit.isNoisy = false ∧ exQubit.includeDrift = false ∧ IsUnitKet exQubit.target ∧ IsUnitKet exQubit.psi0 ∧
    exQubit.optFactor = -1 := ⟨rfl, rfl, exTarget_unit, exPsi_unit, rfl⟩

/-- **C63 is violated by mixed histories** (OneQubitProblem.py:91-93: the attribute keeps the parameter): the same call
gives 1 on a fresh object, and 0 after a call with the parameter π. -/
theorem C63_remembers_parameter : ∃ o : OneQubit, o.isNoisy = false ∧ o.includeDrift = false ∧
    (oneQubitFoM NormedSpace.exp 0 [[0]] [] [[0, 1]] o).1 = .ok ⟨1, 1e-4⟩ ∧
    (oneQubitFoM NormedSpace.exp 0 [[0]] [] [[0, 1]] (oneQubitAfter [(0, [[0]], [Real.pi], [[0, 1]])] o)).1 = .ok ⟨0, 1e-4⟩ := by
  refine ⟨exQubit, rfl, rfl, ?_, ?_⟩
  · rw [C63_is_infidelity rfl rfl exTarget_unit exPsi_unit, exTransition 0 [] 0 exQubit rfl]
    simp [exQubit]
  · obtain ⟨l, n, h⟩ : ∃ l n, oneQubitAfter [(0, [[0]], [Real.pi], [[0, 1]])] exQubit =
        { exQubit with delta1 := Real.pi, fomList := l, evalNumber := n } := ⟨_, _, rfl⟩
    generalize oneQubitAfter [(0, [[0]], [Real.pi], [[0, 1]])] exQubit = o at h
    rw [C63_is_infidelity (o := o) (by rw [h]; rfl) (by rw [h]; rfl) (by rw [h]; exact exTarget_unit)
      (by rw [h]; exact exPsi_unit), exTransition Real.pi l n _ h, Real.sin_pi_div_two]
    simp

/-- **C63 is violated for states that are not normalized** (OneQubitProblem.py:145 divides by the norms, not by their
squares): a drive that reaches the target exactly has the figure of merit -3. -/
theorem C63_unnormalized : ∃ o : OneQubit, o.isNoisy = false ∧ o.includeDrift = false ∧ o.optFactor = -1 ∧
    o.psi0 = o.target ∧ oneQubitEvolution NormedSpace.exp [0] (1 - 0) o.delta1 o.delta2 = 1 ∧
    (oneQubitFoM NormedSpace.exp 0 [[0]] [] [[0, 1]] o).1 = .ok ⟨-3, 1e-4⟩ := by
  have hU : oneQubitEvolution NormedSpace.exp [0] (1 - 0) 0 0 = 1 := by
    have := evolution_eq [0] (1 - 0) 0 0
    rw [this]
    have h := free { exQubit with psi0 := ![2, 0], target := ![2, 0] } rfl []
    refine Eq.trans h ?_
    ext i j
    fin_cases i <;> fin_cases j <;> simp [exQubit]
  refine ⟨{ exQubit with psi0 := ![2, 0], target := ![2, 0] }, rfl, rfl, rfl, rfl, hU, ?_⟩
  rw [fom_eq]
  have e : ketFidelity ![2, 0] (oneQubitEvolution NormedSpace.exp [0] (1 - 0) 0 0 *ᵥ ![2, 0]) = 4 := by
    rw [hU, Matrix.one_mulVec]
    unfold ketFidelity ketNorm
    simp [Fin.sum_univ_two, dotProduct]
    norm_num
  show (oneQubitFinish 0 (1 - ketFidelity ![2, 0] (oneQubitEvolution NormedSpace.exp [0] (1 - 0) 0 0 *ᵥ ![2, 0])) _).1 = _
  rw [e]
  simp [oneQubitFinish, exQubit]
  norm_num

/-! ### C64: one qubit, two fields -/

namespace TwoFieldsProblem

theorem ham_eq (a p d1 d2 : ℝ) : twoFieldsHam a p d1 d2 = qubitHamiltonian2 a p d1 d2 := by
  have e1 : Complex.exp (-(p * Complex.I)) = (Real.cos p : ℝ) - (Real.sin p : ℝ) * Complex.I := by
    rw [← neg_mul, Complex.exp_mul_I, Complex.cos_neg, Complex.sin_neg, Complex.ofReal_cos, Complex.ofReal_sin]; ring
  have e2 : Complex.exp (p * Complex.I) = (Real.cos p : ℝ) + (Real.sin p : ℝ) * Complex.I := by
    rw [Complex.exp_mul_I, Complex.ofReal_cos, Complex.ofReal_sin]
  unfold twoFieldsHam qubitHamiltonian2 sigmaX sigmaY sigmaZ
  rw [e1, e2]
  ext i j
  fin_cases i <;> fin_cases j <;> simp
  exact .inl (by ring)

theorem hermitian (a p d1 d2 : ℝ) : (qubitHamiltonian2 a p d1 d2)ᴴ = qubitHamiltonian2 a p d1 d2 := by
  rw [← ham_eq]
  unfold twoFieldsHam
  have hx : sigmaXᴴ = sigmaX := by ext i j; fin_cases i <;> fin_cases j <;> simp [sigmaX]
  have hy : sigmaYᴴ = sigmaY := by ext i j; fin_cases i <;> fin_cases j <;> simp [sigmaY]
  have hz : sigmaZᴴ = sigmaZ := by ext i j; fin_cases i <;> fin_cases j <;> simp [sigmaZ]
  have hr : ∀ r : ℝ, star (r : ℂ) = r := Complex.conj_ofReal
  have h2 : star ((d1 : ℂ) / 2) = (d1 : ℂ) / 2 := by
    have := hr (d1 / 2); push_cast at this; exact this
  rw [Matrix.conjTranspose_add, Matrix.conjTranspose_smul, Matrix.conjTranspose_smul, Matrix.conjTranspose_add,
    Matrix.conjTranspose_smul, Matrix.conjTranspose_smul, hx, hy, hz, h2, hr, hr, hr]

theorem prefix_eq (amp ph : List ℝ) (dt d1 d2 : ℝ) (n : ℕ) (h1 : n ≤ amp.length) (h2 : n ≤ ph.length) :
    (List.range n).foldlM (fun U i => getIdx amp i >>= fun a => getIdx ph i >>= fun p =>
      .ok (NormedSpace.exp ((-Complex.I * dt) • twoFieldsHam a p d1 d2) * U)) (1 : CMat 2) =
      (.ok (ordered (fun i => stepPropagator dt (qubitHamiltonian2 (amp.getD i 0) (ph.getD i 0) d1 d2)) n) : Py (CMat 2)) := by
  induction n with
  | zero => rfl
  | succ n ih =>
    rw [List.range_succ, TE.foldlM_append_ok _ (ih (by omega) (by omega))]
    have h1 : amp[n]? = some (amp.getD n 0) := by
      rw [List.getD_eq_getElem?_getD, List.getElem?_eq_getElem (by omega)]; rfl
    have h2 : ph[n]? = some (ph.getD n 0) := by
      rw [List.getD_eq_getElem?_getD, List.getElem?_eq_getElem (by omega)]; rfl
    simp only [getIdx, h1, h2, ham_eq, ordered, stepPropagator]
    rfl

theorem evolution_eq (amp ph : List ℝ) (dt d1 d2 : ℝ) (h : amp.length ≤ ph.length) :
    twoFieldsEvolution NormedSpace.exp amp ph dt d1 d2 =
      .ok (ordered (fun i => stepPropagator dt (qubitHamiltonian2 (amp.getD i 0) (ph.getD i 0) d1 d2)) amp.length) :=
  prefix_eq _ _ _ _ _ _ le_rfl h

theorem fom_eq (expm : CMat 2 → CMat 2) (rand : ℝ) (o : TwoFields) (amp ph : List ℝ) (ps : List (List ℝ)) (t0 t1 : ℝ)
    (ts : List ℝ) (gs : List (List ℝ)) :
    twoFieldsFoM expm rand o (amp :: ph :: ps) ((t0 :: t1 :: ts) :: gs) =
      twoFieldsEvolution expm amp ph (t1 - t0) o.delta1 o.delta2 >>= fun U =>
        .ok ⟨|if o.isNoisy then 1 - ketFidelity o.target (U *ᵥ o.psi0) + o.noiseFactor * 2 * (0.5 - rand)
          else 1 - ketFidelity o.target (U *ᵥ o.psi0)|, if o.isNoisy then o.noiseFactor * 0.6827 else 0⟩ := rfl

end TwoFieldsProblem
open TwoFieldsProblem

section
variable {o : TwoFields} {rand : ℝ} {amp ph : List ℝ} {ps gs : List (List ℝ)} {ts : List ℝ} {t0 t1 : ℝ}

/-- the propagator of the two fields -/
noncomputable def twoFieldsPropagator (o : TwoFields) (amp ph : List ℝ) (dt : ℝ) : CMat 2 :=
  ordered (fun i => stepPropagator dt (qubitHamiltonian2 (amp.getD i 0) (ph.getD i 0) o.delta1 o.delta2)) amp.length

theorem twoFieldsPropagator_unitary (o : TwoFields) (amp ph : List ℝ) (dt : ℝ) :
    (twoFieldsPropagator o amp ph dt)ᴴ * twoFieldsPropagator o amp ph dt = 1 :=
  ordered_unitary fun i _ => exp_skew_unitary (TwoFieldsProblem.hermitian _ _ _ _) dt

/-- **C64.** For normalized states and without noise the figure of merit is the infidelity between the target and the state
reached under the two fields (amplitude and phase). -/
theorem C64_is_infidelity (hn : o.isNoisy = false) (ht : IsUnitKet o.target) (h0 : IsUnitKet o.psi0)
    (hl : amp.length ≤ ph.length) :
    twoFieldsFoM NormedSpace.exp rand o (amp :: ph :: ps) ((t0 :: t1 :: ts) :: gs) =
      .ok ⟨1 - transition o.target (twoFieldsPropagator o amp ph (t1 - t0) *ᵥ o.psi0), 0⟩ := by
  have hu := Ket.unit_mulVec (twoFieldsPropagator_unitary o amp ph (t1 - t0)) h0
  have h1 := Ket.fidelity_eq ht hu
  have h2 := Ket.transition_le_one ht hu
  rw [TwoFieldsProblem.fom_eq, TwoFieldsProblem.evolution_eq _ _ _ _ _ hl]
  show Except.ok _ = _
  unfold twoFieldsPropagator at *
  rw [hn, h1]
  simp only [Bool.false_eq_true, if_false]
  rw [abs_of_nonneg (by linarith)]

/-- **C64.** It lies between 0 and 1 and is zero exactly if the target state is reached (up to a phase). -/
theorem C64_range_and_zero (hn : o.isNoisy = false) (ht : IsUnitKet o.target) (h0 : IsUnitKet o.psi0)
    (hl : amp.length ≤ ph.length) :
    ∃ r, twoFieldsFoM NormedSpace.exp rand o (amp :: ph :: ps) ((t0 :: t1 :: ts) :: gs) = .ok r ∧ 0 ≤ r.fom ∧ r.fom ≤ 1 ∧
      (r.fom = 0 ↔ SameState o.target (twoFieldsPropagator o amp ph (t1 - t0) *ᵥ o.psi0)) := by
  have hu := Ket.unit_mulVec (twoFieldsPropagator_unitary o amp ph (t1 - t0)) h0
  refine ⟨_, C64_is_infidelity hn ht h0 hl, ?_, ?_, ?_⟩ <;> dsimp only
  · linarith [Ket.transition_le_one ht hu]
  · linarith [Ket.transition_nonneg o.target (twoFieldsPropagator o amp ph (t1 - t0) *ᵥ o.psi0)]
  · rw [← Ket.transition_eq_one_iff ht hu, sub_eq_zero, eq_comm]

/-- **C64.** Equivalent controls have the same figure of merit: in any slices the phase may be shifted by a full turn, or by
half a turn together with a change of the sign of the amplitude. This holds with noise and for all states. -/
theorem C64_equivalent_controls {amp' ph' : List ℝ} (hl : amp.length ≤ ph.length) (hl' : amp'.length ≤ ph'.length)
    (he : amp'.length = amp.length)
    (h : ∀ i < amp.length, (amp'.getD i 0 = amp.getD i 0 ∧ ∃ k : ℤ, ph'.getD i 0 = ph.getD i 0 + k * (2 * Real.pi)) ∨
      (amp'.getD i 0 = -amp.getD i 0 ∧ ph'.getD i 0 = ph.getD i 0 + Real.pi)) :
    twoFieldsFoM NormedSpace.exp rand o (amp' :: ph' :: ps) ((t0 :: t1 :: ts) :: gs) =
      twoFieldsFoM NormedSpace.exp rand o (amp :: ph :: ps) ((t0 :: t1 :: ts) :: gs) := by
  rw [TwoFieldsProblem.fom_eq, TwoFieldsProblem.fom_eq, TwoFieldsProblem.evolution_eq _ _ _ _ _ hl,
    TwoFieldsProblem.evolution_eq _ _ _ _ _ hl', he]
  have : ordered (fun i => stepPropagator (t1 - t0) (qubitHamiltonian2 (amp'.getD i 0) (ph'.getD i 0) o.delta1 o.delta2)) amp.length =
      ordered (fun i => stepPropagator (t1 - t0) (qubitHamiltonian2 (amp.getD i 0) (ph.getD i 0) o.delta1 o.delta2)) amp.length := by
    refine TE.ordered_congr fun i hi => ?_
    congr 1
    rw [← TwoFieldsProblem.ham_eq, ← TwoFieldsProblem.ham_eq]
    unfold twoFieldsHam
    rcases h i hi with ⟨h1, k, h2⟩ | ⟨h1, h2⟩
    · rw [h1, h2, Real.cos_add_int_mul_two_pi, Real.sin_add_int_mul_two_pi]
    · rw [h1, h2, Real.cos_add_pi, Real.sin_add_pi]
      congr 1
      push_cast
      rw [neg_mul, neg_smul, ← smul_neg]
      congr 1
      rw [neg_smul, neg_smul, ← neg_add, neg_neg]
  rw [this]

/-- **C64.** With noise it deviates by at most the noise factor and is never negative. -/
theorem C64_noise (ht : IsUnitKet o.target) (h0 : IsUnitKet o.psi0) (hl : amp.length ≤ ph.length)
    (hr : 0 ≤ rand ∧ rand < 1) (hnf : 0 ≤ o.noiseFactor) :
    ∃ r, twoFieldsFoM NormedSpace.exp rand o (amp :: ph :: ps) ((t0 :: t1 :: ts) :: gs) = .ok r ∧ 0 ≤ r.fom ∧
      |r.fom - (1 - transition o.target (twoFieldsPropagator o amp ph (t1 - t0) *ᵥ o.psi0))| ≤ o.noiseFactor := by
  have hu := Ket.unit_mulVec (twoFieldsPropagator_unitary o amp ph (t1 - t0)) h0
  have h1 := Ket.fidelity_eq ht hu
  have h2 := Ket.transition_le_one ht hu
  have h3 := Ket.transition_nonneg o.target (twoFieldsPropagator o amp ph (t1 - t0) *ᵥ o.psi0)
  rw [TwoFieldsProblem.fom_eq, TwoFieldsProblem.evolution_eq _ _ _ _ _ hl]
  refine ⟨_, rfl, abs_nonneg _, ?_⟩
  unfold twoFieldsPropagator at *
  rw [h1]
  dsimp only
  have hb : |o.noiseFactor * 2 * (0.5 - rand)| ≤ o.noiseFactor := by
    rw [abs_le]
    constructor <;> nlinarith [hr.1, hr.2]
  cases o.isNoisy <;> simp only [if_true, if_false, Bool.false_eq_true]
  · generalize transition o.target _ = x at *
    rw [abs_of_nonneg (by linarith : 0 ≤ 1 - x), sub_self, abs_zero]; exact hnf
  · refine le_trans ?_ hb
    generalize o.noiseFactor * 2 * (0.5 - rand) = e
    generalize hx : 1 - transition o.target _ = x
    have hx0 : 0 ≤ x := by linarith
    have := abs_abs_sub_abs_le (x + e) x
    rw [abs_of_nonneg hx0, add_sub_cancel_left] at this
    exact this

/-- a phase pulse that is too short raises an exception -/
theorem C64_short_phase (hl : ph.length < amp.length) :
    twoFieldsFoM NormedSpace.exp rand o (amp :: ph :: ps) ((t0 :: t1 :: ts) :: gs) = .error .indexError := by
  rw [TwoFieldsProblem.fom_eq]
  have : twoFieldsEvolution NormedSpace.exp amp ph (t1 - t0) o.delta1 o.delta2 = .error .indexError := by
    unfold twoFieldsEvolution
    obtain ⟨k, hk⟩ := Nat.exists_eq_add_of_lt hl
    have h0 := TwoFieldsProblem.prefix_eq amp ph (t1 - t0) o.delta1 o.delta2 ph.length hl.le le_rfl
    have hr : List.range amp.length = List.range ph.length ++ ph.length :: (List.range' (ph.length + 1) k) := by
      rw [hk, List.range_eq_range', List.range_eq_range', show ph.length + k + 1 = ph.length + (k + 1) by ring,
        ← List.range'_append_1]
      simp [List.range'_succ]
    rw [hr, List.foldlM_append, h0]
    show ((getIdx amp ph.length >>= fun a => getIdx ph ph.length >>= _) >>= _ : Py (CMat 2)) = _
    have h2 : amp[ph.length]? = some amp[ph.length] := List.getElem?_eq_getElem hl
    have h3 : ph[ph.length]? = none := List.getElem?_eq_none le_rfl
    simp only [getIdx, h2, h3]
    rfl
  rw [this]; rfl

end

/-- the hypotheses are met; in the second slice the amplitude changes its sign -/
example : IsUnitKet (![1, 0] : Ket) ∧ ([1, 2] : List ℝ).length ≤ ([3, 4] : List ℝ).length ∧
    ∀ i < 2, (([1, -2] : List ℝ).getD i 0 = ([1, 2] : List ℝ).getD i 0 ∧
        ∃ k : ℤ, ([3, 4 + Real.pi] : List ℝ).getD i 0 = ([3, 4] : List ℝ).getD i 0 + k * (2 * Real.pi)) ∨
      (([1, -2] : List ℝ).getD i 0 = -([1, 2] : List ℝ).getD i 0 ∧
        ([3, 4 + Real.pi] : List ℝ).getD i 0 = ([3, 4] : List ℝ).getD i 0 + Real.pi) := by
  refine ⟨by simp [IsUnitKet, Fin.sum_univ_two], le_rfl, fun i hi => ?_⟩
  interval_cases i
  · exact .inl ⟨rfl, 0, by simp⟩
  · exact .inr ⟨rfl, rfl⟩

/-- **C64 is violated for states that are not normalized** (OneQubitProblem_2fields.py:115): a drive that reaches the target
exactly has the figure of merit 3. -/
theorem C64_unnormalized : ∃ o : TwoFields, o.isNoisy = false ∧ o.psi0 = o.target ∧
    twoFieldsEvolution NormedSpace.exp [0] [0] (1 - 0) o.delta1 o.delta2 = .ok 1 ∧
    twoFieldsFoM NormedSpace.exp 0 o [[0], [0]] [[0, 1]] = .ok ⟨3, 0⟩ := by
  have hU : twoFieldsEvolution NormedSpace.exp [0] [0] (1 - 0) 0 0 = .ok 1 := by
    rw [TwoFieldsProblem.evolution_eq _ _ _ _ _ le_rfl]
    show Except.ok (stepPropagator (1 - 0) (qubitHamiltonian2 0 0 0 0) * 1) = _
    have : qubitHamiltonian2 0 0 0 0 = 0 := by
      unfold qubitHamiltonian2
      ext i j
      fin_cases i <;> fin_cases j <;> simp
    rw [this, stepPropagator, smul_zero, NormedSpace.exp_zero, mul_one]
  refine ⟨⟨![2, 0], ![2, 0], 0, 0, false, 0⟩, rfl, rfl, hU, ?_⟩
  rw [TwoFieldsProblem.fom_eq]
  dsimp only
  rw [hU]
  have e : ketFidelity ![2, 0] ((1 : CMat 2) *ᵥ ![2, 0]) = 4 := by
    rw [Matrix.one_mulVec]
    unfold ketFidelity ketNorm
    simp [Fin.sum_univ_two, dotProduct]
    norm_num
  show Except.ok _ = _
  simp only [Bool.false_eq_true, if_false]
  rw [e]
  norm_num

/-! ### C65: Rosenbrock -/

theorem rosen_cons (a b : ℝ) (x : List ℝ) : rosen (a :: b :: x) = 100 * (b - a ^ 2) ^ 2 + (1 - a) ^ 2 + rosen (b :: x) := by
  simp [rosen]

theorem rosen_nonneg (x : List ℝ) : 0 ≤ rosen x := by
  induction x with
  | nil => simp [rosen]
  | cons a x ih =>
    rcases x with _ | ⟨b, x⟩
    · simp [rosen]
    · rw [rosen_cons]; positivity

theorem rosen_one (x : List ℝ) : rosen (1 :: x) = 0 ↔ ∀ a ∈ x, a = 1 := by
  induction x with
  | nil => simp [rosen]
  | cons b x ih =>
    rw [rosen_cons]
    have h0 := rosen_nonneg (b :: x)
    constructor
    · intro h
      have hb : b = 1 := by nlinarith [sq_nonneg (b - 1)]
      subst hb
      intro a ha
      rcases List.mem_cons.1 ha with rfl | ha
      · rfl
      · exact ih.1 (by linarith) a ha
    · intro h
      have hb : b = 1 := h b (by simp)
      subst hb
      rw [ih.2 fun a ha => h a (by simp [ha])]; norm_num

/-- **C65.** Without noise the figure of merit is never negative, and zero exactly at the point with all parameters equal
to one (two parameters or more). -/
theorem C65_unique_minimum (nf rand : ℝ) (x : List ℝ) (h : 2 ≤ x.length) :
    0 ≤ (rosenbrockFoM false nf rand x).fom ∧ ((rosenbrockFoM false nf rand x).fom = 0 ↔ ∀ a ∈ x, a = 1) := by
  refine ⟨rosen_nonneg x, ?_⟩
  show rosen x = 0 ↔ _
  rcases x with _ | ⟨a, _ | ⟨b, x⟩⟩
  · simp at h
  · simp at h
  constructor
  · intro h1
    have ha : a = 1 := by
      rw [rosen_cons] at h1
      nlinarith [rosen_nonneg (b :: x), sq_nonneg (1 - a), sq_nonneg (b - a ^ 2)]
    subst ha
    intro c hc
    rcases List.mem_cons.1 hc with rfl | hc
    · rfl
    · exact (rosen_one _).1 h1 c hc
  · intro h1
    have ha : a = 1 := h1 a (by simp)
    subst ha
    exact (rosen_one _).2 fun c hc => h1 c (List.mem_cons_of_mem _ hc)

/-- **C65.** The value is the sum over neighbouring parameters. -/
theorem C65_value (nf rand : ℝ) (x : List ℝ) : (rosenbrockFoM false nf rand x).fom =
    ∑ i ∈ Finset.range (x.length - 1), (100 * (x.getD (i + 1) 0 - x.getD i 0 ^ 2) ^ 2 + (1 - x.getD i 0) ^ 2) := by
  show rosen x = _
  induction x with
  | nil => simp [rosen]
  | cons a x ih =>
    rcases x with _ | ⟨b, x⟩
    · simp [rosen]
    · rw [rosen_cons, ih, show (a :: b :: x).length - 1 = (b :: x).length - 1 + 1 from rfl, Finset.sum_range_succ', add_comm]
      simp

/-- **C65.** With noise it deviates from that value by at most the noise factor. -/
theorem C65_noise {nf rand : ℝ} (hr : 0 ≤ rand ∧ rand < 1) (hnf : 0 ≤ nf) (x : List ℝ) :
    |(rosenbrockFoM true nf rand x).fom - (rosenbrockFoM false nf rand x).fom| ≤ nf := by
  show |rosen x + nf * 2 * (0.5 - rand) - rosen x| ≤ nf
  rw [add_sub_cancel_left, abs_le]
  constructor <;> nlinarith [hr.1, hr.2]

/-- the hypotheses are met; the usual start point of the examples is not optimal -/
example : 2 ≤ ([-1, 2, 0.5] : List ℝ).length ∧ (rosenbrockFoM false 0 0 [-1, 2, 0.5]).fom = 100 + 4 + (100 * 12.25 + 1) := by
  refine ⟨by norm_num, ?_⟩
  show rosen [-1, 2, 0.5] = _
  simp [rosen]; norm_num

end QuOCS

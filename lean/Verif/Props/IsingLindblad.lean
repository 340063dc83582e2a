/-
C105. The ring of spins with dephasing, `Examples/IsingModelProblem_AD_Lindblad.py`.
-/
import Verif.Lemmas.IsingLindblad

set_option linter.unusedSectionVars false
set_option linter.unusedVariables false

namespace QuOCS
open Matrix Set IsingL Density

section
variable {d : ℕ}

theorem pulseAt_eq {pulse : List ℝ} {T t : ℝ} (hT : 0 < T) (hp : 2 ≤ pulse.length) (ht : t ∈ Ico 0 T) :
    pulseAt pulse T pulse.length t = heldPulse pulse T t := by
  have h1 : (0 : ℝ) < pulse.length - 1 := by
    have : (2 : ℝ) ≤ pulse.length := by exact_mod_cast hp
    linarith
  have e : t / T * ((pulse.length : ℝ) - 1) = t / (T / (pulse.length - 1)) := by field_simp
  unfold pulseAt heldPulse sampleIndex
  rw [e]
  have h0 : 0 ≤ t / (T / ((pulse.length : ℝ) - 1)) := by have := ht.1; positivity
  have hlt : ⌊t / (T / ((pulse.length : ℝ) - 1))⌋₊ < pulse.length - 1 := by
    rw [Nat.floor_lt h0, ← e, Nat.cast_sub (by omega), Nat.cast_one]
    have : t / T < 1 := (div_lt_one hT).2 ht.2
    nlinarith
  have h2 : (⌊t / (T / ((pulse.length : ℝ) - 1))⌋).toNat = ⌊t / (T / ((pulse.length : ℝ) - 1))⌋₊ := Int.floor_toNat _
  rw [h2, min_eq_left hlt.le]

theorem solvesOn_congr {f g : CMat d → ℝ → CMat d} {rho0 : CMat d} {T : ℝ} {rho : ℝ → CMat d} (h : ∀ r, ∀ t ∈ Ico 0 T, f r t = g r t)
    (hs : SolvesOn f rho0 T rho) : SolvesOn g rho0 T rho :=
  ⟨hs.start, hs.cont, fun t ht i j => by rw [← h _ t ht]; exact hs.deriv t ht i j⟩

theorem linspace0_last {T : ℝ} {n : ℕ} (hn : 2 ≤ n) : (linspace0 T n).getLast? = some T := by
  have h1 : ((n - 1 : ℕ) : ℝ) ≠ 0 := by
    have : 1 ≤ n - 1 := by omega
    have : (1 : ℝ) ≤ ((n - 1 : ℕ) : ℝ) := by exact_mod_cast this
    linarith
  rw [List.getLast?_eq_getElem?]
  simp only [linspace0, List.length_map, List.length_range, List.getElem?_map]
  rw [List.getElem?_range (by omega)]
  simp only [Option.map_some]
  congr 1
  field_simp

/-- the equation with a held pulse has a solution -/
theorem held_solution {A B L rho0 : CMat d} {pulse : List ℝ} {T : ℝ} (hT : 0 < T) (hp : 2 ≤ pulse.length) :
    ∃ rho, SolvesOn (LFlow.eqn (fun t => A + ((heldPulse pulse T t : ℝ) : ℂ) • B) L) rho0 T rho := by
  have h1 : (0 : ℝ) < pulse.length - 1 := by
    have : (2 : ℝ) ≤ pulse.length := by exact_mod_cast hp
    linarith
  have hh : 0 < T / ((pulse.length : ℝ) - 1) := by positivity
  obtain ⟨rho, hr⟩ := LFlow.exists_solution (H := fun t => A + ((heldPulse pulse T t : ℝ) : ℂ) • B) (L := L) (rho0 := rho0) hh
    (fun k => A + ((pulse.getD k 0 : ℝ) : ℂ) • B) (pulse.length - 1) (fun k hk t ht => by
      have : ⌊t / (T / ((pulse.length : ℝ) - 1))⌋₊ = k := by
        have h0 : 0 ≤ t := le_trans (by positivity) ht.1
        rw [Nat.floor_eq_iff (by positivity), le_div_iff₀ hh, div_lt_iff₀ hh]
        exact ht
      simp only [heldPulse, this])
  have e : ((pulse.length - 1 : ℕ) : ℝ) * (T / ((pulse.length : ℝ) - 1)) = T := by
    rw [Nat.cast_sub (by omega), Nat.cast_one]
    field_simp
  rw [e] at hr
  exact ⟨rho, hr⟩

theorem held_hermitian {A B : CMat d} (hA : A.IsHermitian) (hB : B.IsHermitian) (u : ℝ) : (A + ((u : ℝ) : ℂ) • B).IsHermitian :=
  hA.add (by
    unfold Matrix.IsHermitian
    rw [conjTranspose_smul, hB.eq]
    congr 1
    exact Complex.conj_ofReal _)

theorem held_bounded (A B : CMat d) (pulse : List ℝ) (T : ℝ) :
    ∃ C, ∀ t i j, ‖(A + ((heldPulse pulse T t : ℝ) : ℂ) • B) i j‖ ≤ C := by
  refine ⟨∑ i, ∑ j, ‖A i j‖ + (pulse.map (|·|)).sum * ∑ i, ∑ j, ‖B i j‖, fun t i j => ?_⟩
  have one : ∀ M : CMat d, ‖M i j‖ ≤ ∑ i, ∑ j, ‖M i j‖ := fun M =>
    (Finset.single_le_sum (f := fun j => ‖M i j‖) (fun j _ => norm_nonneg (M i j)) (Finset.mem_univ j)).trans
      (Finset.single_le_sum (f := fun i => ∑ j, ‖M i j‖) (fun i _ => Finset.sum_nonneg fun j _ => norm_nonneg (M i j)) (Finset.mem_univ i))
  have hu : |heldPulse pulse T t| ≤ (pulse.map (|·|)).sum := by
    unfold heldPulse
    rcases lt_or_ge ⌊t / (T / ((pulse.length : ℝ) - 1))⌋₊ pulse.length with h | h
    · rw [List.getD_eq_getElem?_getD, List.getElem?_eq_getElem h, Option.getD_some]
      exact List.single_le_sum (l := pulse.map (|·|)) (by simp) _ (List.mem_map_of_mem (List.getElem_mem h))
    · rw [List.getD_eq_getElem?_getD, List.getElem?_eq_none h, Option.getD_none, abs_zero]
      exact List.sum_nonneg (by simp)
  rw [Matrix.add_apply, Matrix.smul_apply, smul_eq_mul]
  refine (norm_add_le _ _).trans (add_le_add (one A) ?_)
  rw [norm_mul, Complex.norm_real, Real.norm_eq_abs]
  exact mul_le_mul hu (one B) (norm_nonneg _) ((abs_nonneg _).trans hu)

theorem population_trace (r : CMat d) (psi : Fin d → ℂ) : (r * pureState psi).trace = star psi ⬝ᵥ (r *ᵥ psi) := by
  unfold pureState
  rw [Matrix.mul_vecMulVec, Matrix.trace_vecMulVec, dotProduct_comm]

open scoped ComplexOrder in
theorem population_range {r : CMat d} (h : IsDensity r) {psi : Fin d → ℂ} (hpsi : IsUnitKet psi) : 0 ≤ population r psi ∧ population r psi ≤ 1 := by
  refine ⟨(Complex.nonneg_iff.1 (h.1.dotProduct_mulVec_nonneg psi)).1, ?_⟩
  have hP : (1 - pureState psi)ᴴ = 1 - pureState psi := by
    rw [conjTranspose_sub, conjTranspose_one, (pure_posSemidef psi).isHermitian.eq]
  have hPP : (1 - pureState psi) * (1 - pureState psi) = 1 - pureState psi := by
    rw [Matrix.mul_sub, Matrix.sub_mul, Matrix.sub_mul, pure_sq hpsi]
    simp
  have h1 := (h.1.mul_mul_conjTranspose_same (1 - pureState psi)).trace_nonneg
  rw [hP, Matrix.trace_mul_comm, ← Matrix.mul_assoc, hPP, Matrix.sub_mul, Matrix.one_mul, trace_sub, h.2, Matrix.trace_mul_comm,
    population_trace] at h1
  have := (Complex.nonneg_iff.1 h1).1
  rw [Complex.sub_re, Complex.one_re] at this
  unfold population
  linarith

open scoped ComplexOrder in
/-- what `get_FoM` computes, for every Hermitian problem -/
theorem open_general {o : OpenIsing d} (hA : o.drift.IsHermitian) (hB : o.control.IsHermitian) (hL : o.jump.IsHermitian) (hr : IsDensity o.rho0)
    {psi : Fin d → ℂ} (ht : o.target = pureState psi) {odeint : OdeSolver d} (hode : ExactSolver odeint) {pulse : List ℝ} {T : ℝ}
    (hT : 0 < T) (hp : 2 ≤ pulse.length) (ps gs : List (List ℝ)) :
    ∃ rho, SolvesOn (fun r t => lindbladRhs (o.drift + ((heldPulse pulse T t : ℝ) : ℂ) • o.control) o.jump r) o.rho0 T rho ∧
      (∀ sig, SolvesOn (fun r t => lindbladRhs (o.drift + ((heldPulse pulse T t : ℝ) : ℂ) • o.control) o.jump r) o.rho0 T sig →
        ∀ t ∈ Icc 0 T, sig t = rho t) ∧
      (∀ t ∈ Icc 0 T, IsDensity (rho t)) ∧
      openIsingFoM odeint o (pulse :: ps) (linspace0 T pulse.length :: gs) = .ok (Real.sqrt (population (rho T) psi)) := by
  have hH : ∀ t, (o.drift + ((heldPulse pulse T t : ℝ) : ℂ) • o.control).IsHermitian := fun t => held_hermitian hA hB _
  have hrhs : ∀ r, ∀ t ∈ Ico 0 T, lmeRhs (o.drift + ((pulseAt pulse T (linspace0 T pulse.length).length t : ℝ) : ℂ) • o.control) o.jump r =
      lindbladRhs (o.drift + ((heldPulse pulse T t : ℝ) : ℂ) • o.control) o.jump r := fun r t htt => by
    rw [lmeRhs_eq _ _ _ hL, show (linspace0 T pulse.length).length = pulse.length by simp [linspace0], pulseAt_eq hT hp htt]
  have hlast := linspace0_last (T := T) hp
  have hlastD : (linspace0 T pulse.length).getLastD 0 = T := by
    rw [List.getLastD_eq_getLast?, hlast, Option.getD_some]
  obtain ⟨rho, hs, hsol⟩ := hode
    (fun r t => lmeRhs (o.drift + ((pulseAt pulse T (linspace0 T pulse.length).length t : ℝ) : ℂ) • o.control) o.jump r) o.rho0
    (linspace0 T pulse.length) (by
      rw [hlastD]
      obtain ⟨rho, h⟩ := held_solution (A := o.drift) (B := o.control) (L := o.jump) (rho0 := o.rho0) hT hp
      exact ⟨rho, solvesOn_congr (fun r t ht => (hrhs r t ht).symm) h⟩)
  rw [hlastD] at hs
  have hs' := solvesOn_congr hrhs hs
  obtain ⟨C, hC⟩ := held_bounded o.drift o.control pulse T
  have hd : ∀ t ∈ Icc 0 T, IsDensity (rho t) := fun t htt =>
    ⟨LFlow.pos hH hC hL hr.1 hs' htt, by rw [LFlow.trace_const hs' htt, hr.2]⟩
  refine ⟨rho, hs', fun sig hsig t htt => LFlow.unique hH hL hsig hs' htt, hd, ?_⟩
  have h1 : openEvolve odeint o pulse (linspace0 T pulse.length) = .ok (rho T) := by
    unfold openEvolve
    have e1 : lastIdx (linspace0 T pulse.length) = .ok T := by unfold lastIdx; rw [hlast]
    rw [e1]
    show (odeint _ _ _ >>= fun rhos => lastIdx rhos) = _
    rw [hsol]
    show lastIdx ((linspace0 T pulse.length).map rho) = _
    unfold lastIdx
    rw [List.getLast?_map, hlast]
    rfl
  show (openEvolve odeint o pulse (linspace0 T pulse.length) >>= fun rho => .ok (rootOverlap rho o.target)) = _
  rw [h1]
  show Except.ok (rootOverlap (rho T) o.target) = _
  congr 1
  have hdT := hd T ⟨hT.le, le_rfl⟩
  have hn := hdT.1.dotProduct_mulVec_nonneg psi
  unfold rootOverlap population
  rw [ht, hdT.1.isHermitian.eq, population_trace]
  congr 1
  have := congrArg Complex.re (Complex.norm_of_nonneg' hn)
  rwa [Complex.ofReal_re] at this

end

/-- Solvers without error exist. -/
theorem exactSolver_exists (d : ℕ) : ∃ odeint : OdeSolver d, ExactSolver odeint := by
  classical
  refine ⟨fun rhs rho0 grid => if h : ∃ rho, SolvesOn rhs rho0 (grid.getLastD 0) rho then .ok (grid.map h.choose) else .error .valueError, ?_⟩
  intro rhs rho0 grid h
  exact ⟨h.choose, h.choose_spec, by simp only [dif_pos h]⟩

/-- **C105** (the state). For two or more qubits, all couplings, dephasing rates, pulses and durations: the state follows an equation of the Lindblad
form with a Hermitian Hamiltonian, and is a density matrix at every time; the equation has no other solution. The figure of merit is the root of the
probability of the target state and lies between 0 and 1. -/
theorem C105_density {n : ℕ} (hn : 2 ≤ n) (J g : ℝ) {gamma : ℝ} (hγ : 0 ≤ gamma) {odeint : OdeSolver (2 ^ n)} (hode : ExactSolver odeint)
    {pulse : List ℝ} {T : ℝ} (hT : 0 < T) (hp : 2 ≤ pulse.length) (ps gs : List (List ℝ)) :
    ∃ o rho f, openIsingInit n J g gamma = .ok o ∧
      SolvesOn (fun r t => lindbladRhs (o.drift + ((heldPulse pulse T t : ℝ) : ℂ) • o.control) (totalSpin n gamma) r) (pureState (allUp n)) T rho ∧
      (∀ sig, SolvesOn (fun r t => lindbladRhs (o.drift + ((heldPulse pulse T t : ℝ) : ℂ) • o.control) (totalSpin n gamma) r)
        (pureState (allUp n)) T sig → ∀ t ∈ Icc 0 T, sig t = rho t) ∧
      o.drift.IsHermitian ∧ o.control.IsHermitian ∧ (∀ t ∈ Icc 0 T, IsDensity (rho t)) ∧
      openIsingFoM odeint o (pulse :: ps) (linspace0 T pulse.length :: gs) = .ok f ∧ f ^ 2 = population (rho T) (allDown n) ∧ 0 ≤ f ∧ f ≤ 1 := by
  obtain ⟨o, h1, hA, hB, hL, hr, ht, -, -⟩ := openInit_ok hn J g gamma
  have hLh : o.jump.IsHermitian := by rw [hL]; exact totalSpin_hermitian n gamma
  have hd : IsDensity o.rho0 := by rw [hr]; exact ⟨pure_posSemidef _, trace_pure (up_unit n)⟩
  obtain ⟨rho, a1, a2, a3, a4⟩ := open_general hA hB hLh hd ht hode hT hp ps gs
  rw [hL, hr] at a1 a2
  obtain ⟨p0, p1⟩ := population_range (a3 T ⟨hT.le, le_rfl⟩) (down_unit n)
  exact ⟨o, rho, _, h1, a1, a2, hA, hB, a3, a4, Real.sq_sqrt p0, Real.sqrt_nonneg _, Real.sqrt_le_one.2 p1⟩

/-- **C105, partial.** For three or more qubits the figure of merit is the root of the probability to find all spins down, after the time `T`, in a
driven ring of spins 1/2 with collective dephasing that starts with all spins up. Missing: two qubits, the default (see below), and the last sample of
the pulse. -/
theorem C105_dephasing_ring_partial {n : ℕ} (hn : 3 ≤ n) (J g : ℝ) {gamma : ℝ} (hγ : 0 ≤ gamma) {odeint : OdeSolver (2 ^ n)}
    (hode : ExactSolver odeint) {pulse : List ℝ} {T : ℝ} (hT : 0 < T) (hp : 2 ≤ pulse.length) (ps gs : List (List ℝ)) :
    ∃ o f, openIsingInit n J g gamma = .ok o ∧
      openIsingFoM odeint o (pulse :: ps) (linspace0 T pulse.length :: gs) = .ok f ∧ 0 ≤ f ∧ f ≤ 1 ∧
      (∃ rho, SolvesOn (fun r t => lindbladRhs (drivenRing n J g (heldPulse pulse T t)) (totalSpin n gamma) r) (pureState (allUp n)) T rho) ∧
      ∀ rho, SolvesOn (fun r t => lindbladRhs (drivenRing n J g (heldPulse pulse T t)) (totalSpin n gamma) r) (pureState (allUp n)) T rho →
        (∀ t ∈ Icc 0 T, IsDensity (rho t)) ∧ f ^ 2 = population (rho T) (allDown n) := by
  obtain ⟨o', h1', -, -, -, -, -, hring, -⟩ := openInit_ok (by omega : 2 ≤ n) J g gamma
  obtain ⟨o, rho, f, h1, a1, a2, -, -, a3, a4, a5, a6, a7⟩ := C105_density (by omega : 2 ≤ n) J g hγ hode hT hp ps gs
  have e : o' = o := Except.ok.inj (h1'.symm.trans h1)
  subst e
  have hring' := hring hn
  simp only [hring'] at a1 a2
  refine ⟨o', f, h1, a4, a6, a7, ⟨rho, a1⟩, fun sig hsig => ?_⟩
  have hT' : T ∈ Icc 0 T := ⟨hT.le, le_rfl⟩
  exact ⟨fun t ht => by rw [a2 sig hsig t ht]; exact a3 t ht, by rw [a2 sig hsig T hT', a5]⟩

/-- **C105 is violated** (two qubits, the default). The drift Hamiltonian of two qubits is not the one of the ring if there is a coupling of next-nearest
neighbours: the spin itself is taken for the square of the spin. -/
theorem C105_two_qubits_wrong {J g gamma : ℝ} (hg : g ≠ 0) :
    ∃ o, openIsingInit 2 J g gamma = .ok o ∧ o.drift ≠ drivenRing 2 J g 0 := by
  obtain ⟨o, h1, -, -, -, -, -, -, h2⟩ := openInit_ok le_rfl J g gamma
  refine ⟨o, h1, fun h => hg ?_⟩
  have h3 := h2 ⟨3, by norm_num⟩
  rw [h] at h3
  simp only [drivenRing, Complex.ofReal_zero, zero_smul, add_zero, Matrix.diagonal_apply_eq, Complex.ofReal_inj] at h3
  simp [ringEnergy, Finset.sum_range_succ, halves, couple, nearIdx, nextIdx, spin, qubit] at h3
  linarith

/-- **C105 is violated** (the last sample). The last sample of the pulse has no effect on the figure of merit: the other samples share the whole time. -/
theorem C105_last_sample_ignored {n : ℕ} (hn : 2 ≤ n) (J g : ℝ) {gamma : ℝ} (hγ : 0 ≤ gamma) {odeint : OdeSolver (2 ^ n)} (hode : ExactSolver odeint)
    {us : List ℝ} {T : ℝ} (hT : 0 < T) (hu : us ≠ []) (a b : ℝ) (ps gs : List (List ℝ)) :
    ∃ o f, openIsingInit n J g gamma = .ok o ∧
      openIsingFoM odeint o ((us ++ [a]) :: ps) (linspace0 T (us.length + 1) :: gs) = .ok f ∧
      openIsingFoM odeint o ((us ++ [b]) :: ps) (linspace0 T (us.length + 1) :: gs) = .ok f := by
  have hl : 1 ≤ us.length := List.length_pos_iff.2 hu
  have hla : (us ++ [a]).length = us.length + 1 := by simp
  have hlb : (us ++ [b]).length = us.length + 1 := by simp
  obtain ⟨o, h1, hA, hB, hL, hr, ht, -, -⟩ := openInit_ok hn J g gamma
  have hLh : o.jump.IsHermitian := by rw [hL]; exact totalSpin_hermitian n gamma
  have hd : IsDensity o.rho0 := by rw [hr]; exact ⟨pure_posSemidef _, trace_pure (up_unit n)⟩
  obtain ⟨rho, a1, a2, -, a4⟩ := open_general (pulse := us ++ [a]) hA hB hLh hd ht hode hT (by omega) ps gs
  obtain ⟨sig, b1, -, -, b4⟩ := open_general (pulse := us ++ [b]) hA hB hLh hd ht hode hT (by omega) ps gs
  rw [hla] at a4
  rw [hlb] at b4
  refine ⟨o, _, h1, a4, ?_⟩
  rw [b4, a2 sig (solvesOn_congr (fun r t htt => ?_) b1) T ⟨hT.le, le_rfl⟩]
  have : heldPulse (us ++ [b]) T t = heldPulse (us ++ [a]) T t := by
    have h1 : (0 : ℝ) < us.length := by exact_mod_cast hl
    have h0 : 0 ≤ t / (T / us.length) := by have := htt.1; positivity
    have hlt : ⌊t / (T / us.length)⌋₊ < us.length := by
      rw [Nat.floor_lt h0, div_lt_iff₀ (by positivity), mul_div_cancel₀ _ h1.ne']
      exact htt.2
    unfold heldPulse
    rw [hla, hlb]
    push_cast
    rw [add_sub_cancel_right]
    simp [List.getD_eq_getElem?_getD, List.getElem?_append_left hlt]
  rw [this]

/-- The hypotheses of the theorems above are met, e.g. by three qubits, the default dephasing rate, and a pulse of three samples. -/
example : ∃ odeint : OdeSolver (2 ^ 3), ExactSolver odeint ∧ (0 : ℝ) ≤ 0.1 ∧ (0 : ℝ) < 1 ∧ 2 ≤ ([1, 0, 2] : List ℝ).length := by
  obtain ⟨s, hs⟩ := exactSolver_exists (2 ^ 3)
  exact ⟨s, hs, by norm_num, by norm_num, by norm_num⟩

end QuOCS

/-
The Ising problem: C66 (Hamiltonians and states), C67 (figure of merit), C68 (stored propagators).
-/
import Verif.Lemmas.Ising
import Verif.Lemmas.Density
import Verif.Props.Problems
import Verif.Props.Grape

set_option linter.unusedSectionVars false
set_option linter.unusedVariables false

namespace QuOCS
open Matrix

namespace IsingL

theorem near_eq {n j : ℕ} (hj : j < n) : nearIdx n j = (j + 1) % n := by
  unfold nearIdx
  split
  · next h => rw [h, Nat.mod_self]
  · rw [Nat.mod_eq_of_lt (by omega)]

theorem next_eq {n j : ℕ} (hn : 2 ≤ n) (hj : j < n) : nextIdx n j = (j + 2) % n := by
  unfold nextIdx
  split
  · next h => rw [show j + 2 = n + 1 by omega, Nat.add_mod_left, Nat.mod_eq_of_lt (by omega)]
  · split
    · next h => rw [h, Nat.mod_self]
    · rw [Nat.mod_eq_of_lt (by omega)]

theorem near_ne {n j : ℕ} (hn : 2 ≤ n) (hj : j < n) : j ≠ nearIdx n j := by
  unfold nearIdx; split <;> omega

theorem next_ne {n j : ℕ} (hn : 3 ≤ n) (hj : j < n) : j ≠ nextIdx n j := by
  unfold nextIdx; split_ifs <;> omega

theorem energy_eq {n : ℕ} (hn : 3 ≤ n) (J g : ℝ) (x : ℕ) :
    -J * ∑ j ∈ Finset.range n, couple n x j (nearIdx n j) - g * ∑ j ∈ Finset.range n, couple n x j (nextIdx n j) =
      ringEnergy n J g x := by
  unfold ringEnergy
  congr 2 <;> refine Finset.sum_congr rfl fun j hj => ?_ <;> rw [Finset.mem_range] at hj
  · rw [couple, if_neg (near_ne (by omega) hj), near_eq hj]
  · rw [couple, if_neg (next_ne hn hj), next_eq (by omega) hj]

theorem up_iff {n : ℕ} (x : Fin (2 ^ n)) : (∀ j < n, qubit n x j = 0) ↔ (x : ℕ) = 0 :=
  all_qubits (by positivity) (fun j _ => qubit_zero n j) x.2

theorem down_iff {n : ℕ} (x : Fin (2 ^ n)) : (∀ j < n, qubit n x j = 1) ↔ (x : ℕ) = 2 ^ n - 1 :=
  all_qubits (by have := Nat.one_le_two_pow (n := n); omega) (fun j hj => qubit_ones hj) x.2

/-- everything that is known about a new object -/
theorem init_ok {n : ℕ} (hn : 2 ≤ n) (J g : ℝ) (slices : ℕ) (maximize : Bool) : ∃ o, isingInit n J g slices maximize = .ok o ∧
    (∀ x y : Fin (2 ^ n), o.drift x y = if x = y then ((-J * ∑ j ∈ Finset.range n, couple n x j (nearIdx n j) -
        g * ∑ j ∈ Finset.range n, couple n x j (nextIdx n j) : ℝ) : ℂ) else 0) ∧
    (∀ x y : Fin (2 ^ n), o.control x y = if flips n x y = 1 then 1 else 0) ∧
    o.rho0 = pureState (allUp n) ∧ o.target = pureState (allDown n) ∧ o.slices = slices ∧
    o.factor = (if maximize then -1 else 1) ∧ o.store.length = slices ∧ o.computed = false ∧ o.fomList = [] := by
  obtain ⟨H, h1, -, h3⟩ := static_ok hn J g
  obtain ⟨B, b1, -, b3⟩ := control_ok hn
  obtain ⟨R, r1, -, r3⟩ := initial_ok hn
  obtain ⟨T, t1, -, t3⟩ := target_ok hn
  refine ⟨_, by unfold isingInit; rw [h1, b1, r1, t1]; rfl, ?_, ?_, ?_, ?_, rfl, rfl, by simp, rfl, rfl⟩
  · intro x y
    show H.at_ x y = _
    rw [h3 x y x.2 y.2]
    simp only [Fin.val_inj]
  · intro x y
    exact b3 x y x.2 y.2
  · ext x y
    show R.at_ x y = _
    rw [r3 x y x.2 y.2]
    simp only [pureState, Matrix.vecMulVec_apply, Pi.star_apply, allUp, up_iff]
    by_cases hx : (x : ℕ) = 0 <;> by_cases hy : (y : ℕ) = 0 <;> simp [hx, hy]
  · ext x y
    show T.at_ x y = _
    rw [t3 x y x.2 y.2]
    simp only [pureState, Matrix.vecMulVec_apply, Pi.star_apply, allDown, down_iff]
    by_cases hx : (x : ℕ) = 2 ^ n - 1 <;> by_cases hy : (y : ℕ) = 2 ^ n - 1 <;> simp [hx, hy]

theorem flips_comm (n x y : ℕ) : flips n x y = flips n y x := by
  unfold flips
  congr 1
  refine Finset.filter_congr fun j _ => ?_
  exact ne_comm

theorem unit_single {d : ℕ} (z : Fin d) : IsUnitKet (fun x : Fin d => if x = z then (1 : ℂ) else 0) := by
  unfold IsUnitKet
  rw [Finset.sum_eq_single z]
  · simp
  · intro b _ hb; simp [hb]
  · simp

theorem allUp_eq (n : ℕ) : allUp n = fun x => if x = ⟨0, by positivity⟩ then 1 else 0 := by
  funext x
  unfold allUp
  simp only [up_iff, Fin.ext_iff]

theorem allDown_eq (n : ℕ) : allDown n = fun x => if x = ⟨2 ^ n - 1, by have := Nat.one_le_two_pow (n := n); omega⟩ then 1 else 0 := by
  funext x
  unfold allDown
  simp only [down_iff, Fin.ext_iff]

theorem up_unit (n : ℕ) : IsUnitKet (allUp n) := by rw [allUp_eq]; exact unit_single _
theorem down_unit (n : ℕ) : IsUnitKet (allDown n) := by rw [allDown_eq]; exact unit_single _

end IsingL
open IsingL

/-! ### C66 -/

/-- **C66, partial.** For three or more qubits the drift Hamiltonian of the Ising problem is diagonal, and its entries are
the energies of a ring of spins with couplings of neighbours and next-nearest neighbours. Missing: two qubits, where the
code computes something else (see below). -/
theorem C66_drift_is_ring_energy_partial {n : ℕ} (hn : 3 ≤ n) (J g : ℝ) (slices : ℕ) (maximize : Bool) :
    ∃ o, isingInit n J g slices maximize = .ok o ∧
      ∀ x y : Fin (2 ^ n), o.drift x y = if x = y then ((ringEnergy n J g x : ℝ) : ℂ) else 0 := by
  obtain ⟨o, h1, h2, -⟩ := init_ok (by omega : 2 ≤ n) J g slices maximize
  refine ⟨o, h1, fun x y => ?_⟩
  rw [h2 x y, energy_eq hn]

/-- **C66.** For two qubits the next-nearest neighbour of a qubit is the qubit itself, and the code sets a field instead of
the product of the spin with itself. -/
theorem C66_two_qubits (J g : ℝ) (slices : ℕ) (maximize : Bool) :
    ∃ o, isingInit 2 J g slices maximize = .ok o ∧
      ∀ x y : Fin (2 ^ 2), o.drift x y =
        if x = y then ((-2 * J * (spin 2 x 0 * spin 2 x 1) - g * (spin 2 x 0 + spin 2 x 1) : ℝ) : ℂ) else 0 := by
  obtain ⟨o, h1, h2, -⟩ := init_ok le_rfl J g slices maximize
  refine ⟨o, h1, fun x y => ?_⟩
  rw [h2 x y]
  congr 2
  simp [Finset.sum_range_succ, couple, nearIdx, nextIdx]
  ring

/-- Violation found: for two qubits and `g ≠ 0` the drift Hamiltonian is not the energy of the ring. -/
theorem C66_two_qubits_wrong {J g : ℝ} (hg : g ≠ 0) (slices : ℕ) (maximize : Bool) :
    ∃ o, isingInit 2 J g slices maximize = .ok o ∧ ∃ x : Fin (2 ^ 2), o.drift x x ≠ ((ringEnergy 2 J g x : ℝ) : ℂ) := by
  obtain ⟨o, h1, h2⟩ := C66_two_qubits J g slices maximize
  refine ⟨o, h1, ⟨3, by norm_num⟩, ?_⟩
  rw [h2, if_pos rfl]
  intro h
  have h' : -2 * J * (spin 2 3 0 * spin 2 3 1) - g * (spin 2 3 0 + spin 2 3 1) = ringEnergy 2 J g 3 := by exact_mod_cast h
  have e0 : spin 2 3 0 = -1 := by norm_num [spin, qubit]
  have e1 : spin 2 3 1 = -1 := by norm_num [spin, qubit]
  rw [ringEnergy, Finset.sum_range_succ, Finset.sum_range_succ, Finset.sum_range_zero, Finset.sum_range_succ,
    Finset.sum_range_succ, Finset.sum_range_zero] at h'
  norm_num [e0, e1] at h'
  exact hg (by linarith)

/-- **C66.** The control Hamiltonian flips single qubits: its entry is 1 for basis states that differ in exactly one qubit and
0 otherwise. -/
theorem C66_control_flips_single_qubits {n : ℕ} (hn : 2 ≤ n) (J g : ℝ) (slices : ℕ) (maximize : Bool) :
    ∃ o, isingInit n J g slices maximize = .ok o ∧
      ∀ x y : Fin (2 ^ n), o.control x y = if flips n x y = 1 then 1 else 0 := by
  obtain ⟨o, h1, -, h3, -⟩ := init_ok hn J g slices maximize
  exact ⟨o, h1, h3⟩

/-- **C66.** Both Hamiltonians are Hermitian. -/
theorem C66_hermitian {n : ℕ} (hn : 2 ≤ n) (J g : ℝ) (slices : ℕ) (maximize : Bool) :
    ∃ o, isingInit n J g slices maximize = .ok o ∧ o.driftᴴ = o.drift ∧ o.controlᴴ = o.control := by
  obtain ⟨o, h1, h2, h3, -⟩ := init_ok hn J g slices maximize
  refine ⟨o, h1, ?_, ?_⟩ <;> ext x y <;> rw [Matrix.conjTranspose_apply]
  · rw [h2 x y, h2 y x]
    by_cases h : x = y
    · subst h
      simp only [if_true, Complex.star_def, Complex.conj_ofReal]
    · rw [if_neg h, if_neg (Ne.symm h), star_zero]
  · rw [h3 x y, h3 y x, flips_comm n y x]
    split <;> simp

/-- **C66.** The initial state is the pure state with all spins up, the target state the one with all spins down; they are
normalized and orthogonal. -/
theorem C66_states {n : ℕ} (hn : 2 ≤ n) (J g : ℝ) (slices : ℕ) (maximize : Bool) :
    ∃ o, isingInit n J g slices maximize = .ok o ∧ o.rho0 = pureState (allUp n) ∧ o.target = pureState (allDown n) ∧
      o.rho0.trace = 1 ∧ o.target.trace = 1 ∧ transition (allUp n) (allDown n) = 0 := by
  obtain ⟨o, h1, -, -, h4, h5, -⟩ := init_ok hn J g slices maximize
  refine ⟨o, h1, h4, h5, by rw [h4, Density.trace_pure (up_unit n)], by rw [h5, Density.trace_pure (down_unit n)], ?_⟩
  unfold transition
  rw [Finset.sum_eq_zero, norm_zero, zero_pow two_ne_zero]
  intro x _
  rw [allUp_eq, allDown_eq]
  dsimp only
  by_cases h : x = ⟨0, by positivity⟩
  · rw [if_neg (show ¬ x = ⟨2 ^ n - 1, _⟩ from fun h' => by
      rw [h, Fin.ext_iff] at h'
      have : 2 ^ 1 ≤ 2 ^ n := Nat.pow_le_pow_right (by norm_num) (by omega)
      dsimp only at h'
      omega), mul_zero]
  · rw [if_neg h, star_zero, zero_mul]

/-- **C66.** One qubit is rejected. -/
theorem C66_one_qubit_rejected (J g : ℝ) (slices : ℕ) (maximize : Bool) :
    isingInit 1 J g slices maximize = .error .indexError := rfl

/-! ### C67 -/

namespace IsingL
variable {d : ℕ}

theorem shape {u : List ℝ} {n : ℕ} (h : n ≤ u.length) (B : CMat d) : HasShape [u.map Complex.ofReal] [B].length n := fun k hk => by
  obtain rfl : k = 0 := by simpa using hk
  exact ⟨_, rfl, by simpa using h⟩

theorem ham (u : List ℝ) (A B : CMat d) (i : ℕ) :
    hamiltonian [u.map Complex.ofReal] A [B] i = A + ((u.getD i 0 : ℝ) : ℂ) • B := by
  unfold hamiltonian
  congr 1
  show ∑ k : Fin 1, amplitude [u.map Complex.ofReal] k i • [B][k] = _
  rw [Fin.sum_univ_one]
  congr 1
  show ((u.map Complex.ofReal).getD i 0 : ℂ) = _
  rw [List.getD_eq_getElem?_getD, List.getD_eq_getElem?_getD, List.getElem?_map]
  cases u[i]? <;> simp

theorem dt_ok {grid : List ℝ} (h : grid ≠ []) : grapeDt grid = .ok (grid.getLast h / grid.length) := by
  unfold grapeDt lastIdx
  rw [List.getLast?_eq_getLast_of_ne_nil h]
  rfl

theorem reduce_ok {P : ℕ → CMat d} {m : ℕ} {st : List (CMat d)} (hl : st.length = m) (hm : 1 ≤ m)
    (h : ∀ i < m, st[i]? = some (P i)) : reduceStore st = .ok (ordered P m) := by
  have e : ∀ (k : ℕ), k + 1 ≤ m → ((st.drop 1).take k).foldl (fun a b => b * a) (P 0) = ordered P (k + 1) := by
    intro k
    induction k with
    | zero => intro _; simp [ordered]
    | succ k ih =>
      intro hk
      rw [List.take_add_one, List.getElem?_drop, show 1 + k = k + 1 by omega, h (k + 1) (by omega), List.foldl_append,
        ih (by omega)]
      rfl
  rcases st with _ | ⟨U, Us⟩
  · simp at hl; omega
  · have h0 := h 0 (by omega)
    simp only [List.getElem?_cons_zero, Option.some.injEq] at h0
    subst h0
    have := e (m - 1) (by omega)
    rw [show m - 1 + 1 = m by omega] at this
    rw [← this]
    simp only [reduceStore, List.drop_succ_cons, List.drop_zero]
    rw [List.take_of_length_le (by simp at hl; omega)]

/-- a successful `get_propagator` -/
theorem propagator_ok {o : Ising d} {u grid : List ℝ} (ps gs : List (List ℝ)) (hu : o.slices ≤ u.length) (hg : grid ≠ [])
    (hs : o.store.length = o.slices) : ∃ st, isingPropagator NormedSpace.exp (u :: ps) (grid :: gs) o =
      (.ok st, { o with store := st, computed := true }) ∧ st.length = o.slices ∧
      ∀ i < o.slices, st[i]? = some (stepPropagator (grid.getLast hg / grid.length) (o.drift + ((u.getD i 0 : ℝ) : ℂ) • o.control)) := by
  obtain ⟨st, h1, h2, h3, -⟩ := C44_stored_propagators (expm := NormedSpace.exp) (A := o.drift)
    (dt := grid.getLast hg / grid.length) (shape hu o.control) (store := o.store) hs.ge
  refine ⟨st, ?_, h2.trans hs, fun i hi => ?_⟩
  · unfold isingPropagator
    refine (Prog.bind_ok (show Prog.lift (getIdx (u :: ps) 0) o = (.ok u, o) from rfl)).trans ?_
    refine (Prog.bind_ok (show Prog.lift (getIdx (grid :: gs) 0) o = (.ok grid, o) from rfl)).trans ?_
    refine (Prog.bind_ok (show Prog.lift (grapeDt grid) o = (.ok _, o) by rw [dt_ok hg]; rfl)).trans ?_
    simp only [isingStore, h1]
  · rw [h3 i hi, ham]; rfl

/-- `get_FoM` with stored propagators -/
theorem finish {o : Ising d} {sqrtm : CMat d → CMat d} {pulses grids : List (List ℝ)} (hc : o.computed = true) {U : CMat d}
    (hU : reduceStore o.store = .ok U) :
    isingFoM NormedSpace.exp sqrtm pulses grids o =
      (.ok (-1 * o.factor * fidelitySqrtm sqrtm (U * o.rho0 * Uᴴ)ᵀ o.target),
       { o with computed := false, fomList := o.fomList ++ [-1 * o.factor * fidelitySqrtm sqrtm (U * o.rho0 * Uᴴ)ᵀ o.target] }) := by
  unfold isingFoM
  rw [Prog.get_bind]
  rw [if_pos hc]
  let k : CMat d → Prog (Ising d) ℝ := fun U => do
    Prog.modify fun o' => { o' with fomList := o'.fomList ++ [-1 * o.factor * fidelitySqrtm sqrtm (U * o.rho0 * Uᴴ)ᵀ o.target] }
    pure (-1 * o.factor * fidelitySqrtm sqrtm (U * o.rho0 * Uᴴ)ᵀ o.target)
  show (Prog.lift (reduceStore o.store) >>= k) { o with computed := false } = _
  rw [Prog.bind_apply, Prog.lift_apply, hU]
  rfl

theorem not_computed {o o' : Ising d} {sqrtm : CMat d → CMat d} {pulses grids : List (List ℝ)} (hc : o.computed = false)
    {st : List (CMat d)} (h : isingPropagator NormedSpace.exp pulses grids o = (.ok st, o')) (hc' : o'.computed = true) :
    isingFoM NormedSpace.exp sqrtm pulses grids o = isingFoM NormedSpace.exp sqrtm pulses grids o' := by
  unfold isingFoM
  rw [Prog.get_bind, Prog.get_bind, hc, hc', if_neg (by simp), if_pos rfl, Prog.bind_ok h]
  rfl

theorem star_down (n : ℕ) : star (allDown n) = allDown n := by
  funext x
  rw [Pi.star_apply, allDown_eq]
  dsimp only
  split <;> simp

theorem transition_star (v w : Fin d → ℂ) : transition (star v) (star w) = transition v w := by
  unfold transition
  have : ∑ i, star ((star v) i) * (star w) i = star (∑ i, star (v i) * w i) := by
    rw [star_sum]
    refine Finset.sum_congr rfl fun i _ => ?_
    rw [star_mul', star_star, Pi.star_apply, Pi.star_apply, star_star]
  rw [this, norm_star]

theorem unitary {H B : CMat d} (hH : Hᴴ = H) (hB : Bᴴ = B) (u : List ℝ) (dt : ℝ) (n : ℕ) :
    (drivenPropagator H B u dt n)ᴴ * drivenPropagator H B u dt n = 1 :=
  ordered_unitary fun i _ => exp_skew_unitary (by
    rw [Matrix.conjTranspose_add, Matrix.conjTranspose_smul, hH, hB, Complex.star_def, Complex.conj_ofReal]) dt

/-- the figure of merit of propagator `U` -/
theorem fidelity_value {sqrtm : CMat (2 ^ n) → CMat (2 ^ n)} (hs : IsSqrtm sqrtm) {U : CMat (2 ^ n)} (hU : Uᴴ * U = 1) :
    fidelitySqrtm sqrtm (U * pureState (allUp n) * Uᴴ)ᵀ (pureState (allDown n)) = transition (U *ᵥ allUp n) (allDown n) := by
  rw [Density.evolve_pure, Density.transpose_pure, Density.fidelitySqrtm_pure hs]
  · conv_lhs => rw [← star_down n]
    exact transition_star _ _
  · have := Ket.unit_mulVec hU (up_unit n)
    unfold IsUnitKet at *
    simpa using this

/-- the part of an object that methods do not change, for an object made by `__init__` -/
structure Fresh (n : ℕ) (o0 o : Ising (2 ^ n)) : Prop where
  drift : o.drift = o0.drift
  control : o.control = o0.control
  rho0 : o.rho0 = o0.rho0
  target : o.target = o0.target
  slices : o.slices = o0.slices
  factor : o.factor = o0.factor
  store : o.store.length = o.slices

end IsingL

section
variable {n : ℕ} {J g : ℝ} {slices : ℕ} {maximize : Bool} {o : Ising (2 ^ n)} {sqrtm : CMat (2 ^ n) → CMat (2 ^ n)}
  {u grid : List ℝ} {ps gs : List (List ℝ)}

theorem isingFoM_value (hn : 2 ≤ n) (ho : isingInit n J g slices maximize = .ok o) (hs : IsSqrtm sqrtm) (hm : 1 ≤ slices)
    (hu : slices ≤ u.length) (hg : grid ≠ []) {o' : Ising (2 ^ n)} (hf : Fresh n o o') (hc : o'.computed = false) :
    (isingFoM NormedSpace.exp sqrtm (u :: ps) (grid :: gs) o').1 = .ok (-o.factor *
      transition (drivenPropagator o.drift o.control u (grid.getLast hg / grid.length) slices *ᵥ allUp n) (allDown n)) := by
  obtain ⟨o2, e, h2, h3, h4, h5, h6, -⟩ := init_ok hn J g slices maximize
  rw [ho] at e; injection e with e; subst e
  obtain ⟨o3, e, hH, hB⟩ := C66_hermitian hn J g slices maximize
  rw [ho] at e; injection e with e; subst e
  obtain ⟨st, p1, p2, p3⟩ := propagator_ok (o := o') (u := u) ps gs (by rw [hf.slices, h6]; exact hu) hg hf.store
  rw [not_computed hc p1 rfl]
  have hr := reduce_ok (P := fun i => stepPropagator (grid.getLast hg / grid.length) (o.drift + ((u.getD i 0 : ℝ) : ℂ) • o.control))
    (st := st) (m := slices) (by rw [p2, hf.slices, h6]) hm fun i hi => by
      rw [p3 i (by rw [hf.slices, h6]; exact hi), hf.drift, hf.control]
  rw [finish (o := { o' with store := st, computed := true }) rfl hr]
  dsimp only
  rw [hf.rho0, hf.target, hf.factor, h4, h5]
  have := fidelity_value hs (unitary hH hB u (grid.getLast hg / grid.length) slices)
  unfold drivenPropagator at this ⊢
  rw [this]
  congr 2
  ring

theorem IsingL.fresh_self (hn : 2 ≤ n) (ho : isingInit n J g slices maximize = .ok o) : Fresh n o o ∧ o.computed = false ∧ o.slices = slices ∧
    o.factor = (if maximize then -1 else 1) := by
  obtain ⟨o2, e, h2, h3, h4, h5, h6, h7, h8, h9, -⟩ := init_ok hn J g slices maximize
  rw [ho] at e; injection e with e; subst e
  exact ⟨⟨rfl, rfl, rfl, rfl, rfl, rfl, by rw [h8, h6]⟩, h9, h6, h7⟩

/-- **C67.** The figure of merit of a new Ising problem is, up to the sign of the optimization direction, the probability to
find all spins down after the evolution of the state with all spins up under the given pulse. -/
theorem C67_is_transition_probability (hn : 2 ≤ n) (ho : isingInit n J g slices maximize = .ok o) (hs : IsSqrtm sqrtm)
    (hm : 1 ≤ slices) (hu : slices ≤ u.length) (hg : grid ≠ []) :
    (isingFoM NormedSpace.exp sqrtm (u :: ps) (grid :: gs) o).1 = .ok ((if maximize then 1 else -1) *
      transition (drivenPropagator o.drift o.control u (grid.getLast hg / grid.length) slices *ᵥ allUp n) (allDown n)) := by
  obtain ⟨f1, f2, f3, f4⟩ := fresh_self hn ho
  rw [isingFoM_value hn ho hs hm hu hg f1 f2, f4]
  cases maximize <;> simp

/-- **C67.** It lies in [-1, 0] in a minimization and in [0, 1] in a maximization; the optimum is reached exactly by the
pulses that bring all spins down. -/
theorem C67_range_and_optimum (hn : 2 ≤ n) (ho : isingInit n J g slices maximize = .ok o) (hs : IsSqrtm sqrtm)
    (hm : 1 ≤ slices) (hu : slices ≤ u.length) (hg : grid ≠ []) :
    ∃ v, (isingFoM NormedSpace.exp sqrtm (u :: ps) (grid :: gs) o).1 = .ok v ∧
      (maximize = false → -1 ≤ v ∧ v ≤ 0) ∧ (maximize = true → 0 ≤ v ∧ v ≤ 1) ∧
      (v = (if maximize then 1 else -1) ↔
        SameState (drivenPropagator o.drift o.control u (grid.getLast hg / grid.length) slices *ᵥ allUp n) (allDown n)) := by
  refine ⟨_, C67_is_transition_probability hn ho hs hm hu hg, ?_⟩
  obtain ⟨o3, e, hH, hB⟩ := C66_hermitian hn J g slices maximize
  rw [ho] at e; injection e with e; subst e
  have hU := Ket.unit_mulVec (unitary hH hB u (grid.getLast hg / grid.length) slices) (up_unit n)
  have h0 := Ket.transition_nonneg (drivenPropagator o.drift o.control u (grid.getLast hg / grid.length) slices *ᵥ allUp n) (allDown n)
  have h1 := Ket.transition_le_one hU (down_unit n)
  rw [← Ket.transition_eq_one_iff hU (down_unit n)]
  cases maximize <;> simp only [Bool.false_eq_true, if_true, if_false, true_implies, false_implies, true_and, reduceCtorEq] <;>
    refine ⟨⟨by linarith, by linarith⟩, ⟨fun h => by linarith, fun h => by linarith⟩⟩

/-- **C67.** The variant for automatic differentiation returns the same probability with positive sign (the algorithms for
automatic differentiation are used with a maximization). -/
theorem C67_automatic_differentiation (hn : 2 ≤ n) (ho : isingInit n J g slices maximize = .ok o)
    (hu : slices ≤ u.length) (hg : grid ≠ []) :
    isingFoMAD NormedSpace.exp o.drift o.control o.rho0 o.target slices (u :: ps) (grid :: gs) =
      .ok (transition (drivenPropagator o.drift o.control u (grid.getLast hg / grid.length) slices *ᵥ allUp n) (allDown n)) := by
  obtain ⟨o2, e, -, -, h4, h5, -⟩ := init_ok hn J g slices maximize
  rw [ho] at e; injection e with e; subst e
  unfold isingFoMAD
  rw [show getIdx (u :: ps) 0 = .ok u from rfl, show getIdx (grid :: gs) 0 = .ok grid from rfl]
  simp only [bind, Except.bind, dt_ok hg]
  rw [C47_final_evolution_agrees, TE.final_ok (shape hu o.control)]
  simp only [mul_one]
  have : ordered (TE.P NormedSpace.exp [u.map Complex.ofReal] o.drift [o.control] (grid.getLast hg / grid.length)) slices =
      drivenPropagator o.drift o.control u (grid.getLast hg / grid.length) slices :=
    TE.ordered_congr fun i _ => by
      show NormedSpace.exp _ = NormedSpace.exp _
      rw [ham]
  rw [this, h4, h5, Density.evolve_pure, Density.fidelityHS_pure]

end

/-- the hypotheses are met: three qubits, two slices, the square root of Mathlib -/
example : ∃ (o : Ising (2 ^ 3)) (sqrtm : CMat (2 ^ 3) → CMat (2 ^ 3)), isingInit 3 1 2 2 false = .ok o ∧ IsSqrtm sqrtm ∧
    (isingFoM NormedSpace.exp sqrtm [[1, 2]] [[0, 1]] o).1.isOk := by
  obtain ⟨o, ho, -⟩ := init_ok (by norm_num : 2 ≤ 3) 1 2 2 false
  refine ⟨o, _, ho, Density.exists_sqrtm, ?_⟩
  rw [C67_is_transition_probability (grid := [0, 1]) (u := [1, 2]) (by norm_num) ho Density.exists_sqrtm (by norm_num) (by norm_num) (by simp)]
  rfl

/-! ### C68: histories of calls -/

/-- A call of a method of the problem by the optimizer or the user. -/
inductive IsingCall where
  | propagator (pulses timegrids : List (List ℝ))
  | fom (pulses timegrids : List (List ℝ))

/-- The object after a history of calls (also of calls that raise an exception). -/
noncomputable def isingAfter {d : ℕ} (sqrtm : CMat d → CMat d) (calls : List IsingCall) (o : Ising d) : Ising d :=
  calls.foldl (fun o c => match c with
    | .propagator p t => (isingPropagator NormedSpace.exp p t o).2
    | .fom p t => (isingFoM NormedSpace.exp sqrtm p t o).2) o

/-- The last call of the history, if there is one, computed a figure of merit. -/
def EndsWithFoM (calls : List IsingCall) : Prop := ∀ c, calls.getLast? = some c → ∃ p t, c = .fom p t

namespace IsingL

theorem foldlM_length {α β : Type} (f : List α → β → Py (List α)) (hf : ∀ l x l', f l x = .ok l' → l'.length = l.length) :
    ∀ (xs : List β) (l l' : List α), xs.foldlM f l = .ok l' → l'.length = l.length
  | [], l, l', h => by
      have : l = l' := by simpa [pure, Except.pure] using h
      rw [this]
  | x :: xs, l, l', h => by
      rw [List.foldlM_cons] at h
      rcases hx : f l x with e | l1
      · rw [hx] at h; cases h
      · rw [hx] at h
        exact (foldlM_length f hf xs l1 l' h).trans (hf l x l1 hx)

theorem pw_length {d : ℕ} {expm : CMat d → CMat d} {store st : List (CMat d)} {drive : List (List ℂ)} {A : CMat d} {B : List (CMat d)}
    {m : ℕ} {dt : ℝ} (h : pwEvolution expm store drive A B m dt = .ok st) : st.length = store.length := by
  refine foldlM_length _ (fun l i l' hl => ?_) _ _ _ h
  rcases hp : slicePropagator expm drive A B dt i with e | U
  · rw [hp] at hl; cases hl
  · rw [hp] at hl
    change setIdx l i U = .ok l' at hl
    unfold setIdx at hl
    split at hl
    · injection hl with hl; rw [← hl, List.length_set]
    · cases hl

theorem propagator_state {d : ℕ} (expm : CMat d → CMat d) (p t : List (List ℝ)) (o : Ising d) :
    ∃ st b, (isingPropagator expm p t o).2 = { o with store := st, computed := b } ∧ st.length = o.store.length ∧
      (∀ e, (isingPropagator expm p t o).1 = .error e → b = o.computed) := by
  unfold isingPropagator
  rw [Prog.bind_apply, Prog.lift_apply]
  rcases getIdx p 0 with e | pulse
  · exact ⟨_, _, rfl, rfl, fun _ _ => rfl⟩
  dsimp only
  rw [Prog.bind_apply, Prog.lift_apply]
  rcases getIdx t 0 with e | grid
  · exact ⟨_, _, rfl, rfl, fun _ _ => rfl⟩
  dsimp only
  rw [Prog.bind_apply, Prog.lift_apply]
  rcases grapeDt grid with e | dt
  · exact ⟨_, _, rfl, rfl, fun _ _ => rfl⟩
  simp only [isingStore]
  rcases hp : pwEvolution expm o.store [pulse.map Complex.ofReal] o.drift [o.control] o.slices dt with e | st
  · refine ⟨_, _, rfl, ?_, fun _ _ => rfl⟩
    unfold isingPartialStore
    split
    · next st h => exact pw_length h
    · rfl
  · exact ⟨_, _, rfl, pw_length hp, fun e he => by cases he⟩

theorem fom_state {d : ℕ} (expm sqrtm : CMat d → CMat d) (p t : List (List ℝ)) (o : Ising d) :
    ∃ st l, (isingFoM expm sqrtm p t o).2 = { o with store := st, computed := false, fomList := l } ∧ st.length = o.store.length := by
  let k : Ising d → CMat d → Prog (Ising d) ℝ := fun o U => do
    Prog.modify fun o' => { o' with fomList := o'.fomList ++ [-1 * o.factor * fidelitySqrtm sqrtm (U * o.rho0 * Uᴴ)ᵀ o.target] }
    pure (-1 * o.factor * fidelitySqrtm sqrtm (U * o.rho0 * Uᴴ)ᵀ o.target)
  have fin : ∀ o1 : Ising d, ∃ l, ((Prog.lift (reduceStore o1.store) >>= k o1) o1).2 = { o1 with fomList := l } := fun o1 => by
    rw [Prog.bind_apply, Prog.lift_apply]
    rcases reduceStore o1.store with e | U
    · exact ⟨_, rfl⟩
    · exact ⟨_, rfl⟩
  by_cases hc : o.computed = true
  · obtain ⟨l, hl⟩ := fin { o with computed := false }
    refine ⟨o.store, l, ?_, rfl⟩
    have : isingFoM expm sqrtm p t o = (Prog.lift (reduceStore o.store) >>= k o) { o with computed := false } := by
      unfold isingFoM
      rw [Prog.get_bind, if_pos hc]
      rfl
    rw [this]; exact hl
  · obtain ⟨st, b, h1, h2, h3⟩ := propagator_state expm p t o
    have : isingFoM expm sqrtm p t o = match isingPropagator expm p t o with
        | (.ok _, o') => (Prog.lift (reduceStore o'.store) >>= k o') { o' with computed := false }
        | (.error e, o') => (.error e, o') := by
      unfold isingFoM
      rw [Prog.get_bind, if_neg hc, Prog.bind_apply]
      rcases isingPropagator expm p t o with ⟨_ | _, _⟩ <;> rfl
    rw [this]
    rcases hp : isingPropagator expm p t o with ⟨e | r, o'⟩
    · rw [hp] at h1 h3
      dsimp only at h1 ⊢
      refine ⟨st, o.fomList, ?_, h2⟩
      rw [h1, h3 e rfl, Bool.eq_false_iff.2 hc]
    · rw [hp] at h1
      dsimp only at h1 ⊢
      obtain ⟨l, hl⟩ := fin { o' with computed := false }
      refine ⟨st, l, ?_, h2⟩
      refine hl.trans ?_
      rw [h1]

variable {n : ℕ} {o : Ising (2 ^ n)}

theorem fresh_after (sqrtm : CMat (2 ^ n) → CMat (2 ^ n)) (calls : List IsingCall) (h : Fresh n o o) :
    Fresh n o (isingAfter sqrtm calls o) := by
  induction calls using List.reverseRecOn with
  | nil => exact h
  | append_singleton cs c ih =>
    unfold isingAfter at ih ⊢
    rw [List.foldl_append, List.foldl_cons, List.foldl_nil]
    cases c with
    | propagator p t =>
      obtain ⟨st, b, h1, h2, -⟩ := propagator_state NormedSpace.exp p t (isingAfter sqrtm cs o)
      unfold isingAfter at h1 h2
      dsimp only
      rw [h1]
      exact ⟨ih.drift, ih.control, ih.rho0, ih.target, ih.slices, ih.factor, h2.trans ih.store⟩
    | fom p t =>
      obtain ⟨st, l, h1, h2⟩ := fom_state NormedSpace.exp sqrtm p t (isingAfter sqrtm cs o)
      unfold isingAfter at h1 h2
      dsimp only
      rw [h1]
      exact ⟨ih.drift, ih.control, ih.rho0, ih.target, ih.slices, ih.factor, h2.trans ih.store⟩

theorem not_computed_after (sqrtm : CMat (2 ^ n) → CMat (2 ^ n)) {calls : List IsingCall} (hc : o.computed = false)
    (h : EndsWithFoM calls) : (isingAfter sqrtm calls o).computed = false := by
  rcases List.eq_nil_or_concat calls with rfl | ⟨cs, c, rfl⟩
  · exact hc
  · rw [List.concat_eq_append] at h ⊢
    obtain ⟨p, t, rfl⟩ := h c (by simp)
    unfold isingAfter
    rw [List.foldl_append, List.foldl_cons, List.foldl_nil]
    obtain ⟨st, l, h1, -⟩ := fom_state NormedSpace.exp sqrtm p t (isingAfter sqrtm cs o)
    unfold isingAfter at h1
    dsimp only
    rw [h1]

end IsingL

section
variable {n : ℕ} {J g : ℝ} {slices : ℕ} {maximize : Bool} {o : Ising (2 ^ n)} {sqrtm : CMat (2 ^ n) → CMat (2 ^ n)}
  {u grid : List ℝ} {ps gs : List (List ℝ)}

/-- **C68, partial.** After every history of calls that ends with a figure of merit (in particular after any number of
evaluations), the figure of merit of a pulse is the same as that of a new problem. Missing: histories that end with
`get_propagator`, see the next theorems. -/
theorem C68_history_independent_partial (hn : 2 ≤ n) (ho : isingInit n J g slices maximize = .ok o) (hs : IsSqrtm sqrtm)
    (hm : 1 ≤ slices) (hu : slices ≤ u.length) (hg : grid ≠ []) {calls : List IsingCall} (hc : EndsWithFoM calls) :
    (isingFoM NormedSpace.exp sqrtm (u :: ps) (grid :: gs) (isingAfter sqrtm calls o)).1 =
      (isingFoM NormedSpace.exp sqrtm (u :: ps) (grid :: gs) o).1 := by
  obtain ⟨f1, f2, -⟩ := fresh_self hn ho
  rw [isingFoM_value hn ho hs hm hu hg f1 f2,
    isingFoM_value hn ho hs hm hu hg (fresh_after sqrtm calls f1) (not_computed_after sqrtm f2 hc)]

/-- what a figure of merit after `get_propagator` is: that of the pulse given to `get_propagator` -/
theorem IsingL.after_propagator (hn : 2 ≤ n) (ho : isingInit n J g slices maximize = .ok o) (hs : IsSqrtm sqrtm)
    (hm : 1 ≤ slices) (hu : slices ≤ u.length) (hg : grid ≠ []) (calls : List IsingCall) (p' t' : List (List ℝ)) :
    (isingFoM NormedSpace.exp sqrtm p' t' (isingAfter sqrtm (calls ++ [.propagator (u :: ps) (grid :: gs)]) o)).1 =
      (isingFoM NormedSpace.exp sqrtm (u :: ps) (grid :: gs) o).1 := by
  obtain ⟨f1, f2, f3, -⟩ := fresh_self hn ho
  have hf := fresh_after sqrtm calls f1
  obtain ⟨st, p1, p2, p3⟩ := propagator_ok (o := isingAfter sqrtm calls o) (u := u) ps gs (by rw [hf.slices, f3]; exact hu) hg hf.store
  have e : isingAfter sqrtm (calls ++ [.propagator (u :: ps) (grid :: gs)]) o =
      { isingAfter sqrtm calls o with store := st, computed := true } := by
    have := congrArg Prod.snd p1
    unfold isingAfter at this ⊢
    rw [List.foldl_append, List.foldl_cons, List.foldl_nil]
    exact this
  obtain ⟨st', q1, q2, q3⟩ := propagator_ok (o := o) (u := u) ps gs (by rw [f3]; exact hu) hg f1.store
  have hst : st' = st := by
    refine List.ext_getElem? fun i => ?_
    by_cases hi : i < slices
    · rw [q3 i (by rw [f3]; exact hi), p3 i (by rw [hf.slices, f3]; exact hi), hf.drift, hf.control]
    · rw [List.getElem?_eq_none (by rw [q2, f3]; omega), List.getElem?_eq_none (by rw [p2, hf.slices, f3]; omega)]
  have hr := reduce_ok (P := fun i => stepPropagator (grid.getLast hg / grid.length) (o.drift + ((u.getD i 0 : ℝ) : ℂ) • o.control))
    (st := st) (m := slices) (by rw [p2, hf.slices, f3]) hm fun i hi => by
      rw [p3 i (by rw [hf.slices, f3]; exact hi), hf.drift, hf.control]
  rw [e, finish (o := { isingAfter sqrtm calls o with store := st, computed := true }) rfl hr, not_computed f2 q1 rfl,
    finish (o := { o with store := st', computed := true }) rfl (hst ▸ hr)]
  dsimp only
  rw [hf.factor, hf.rho0, hf.target]

/-- **C68, partial.** The way GRAPE uses the problem is safe: if the propagators of a pulse were computed last, after any
history, then the figure of merit of the same pulse is the same as that of a new problem. -/
theorem C68_same_pulse_after_propagator_partial (hn : 2 ≤ n) (ho : isingInit n J g slices maximize = .ok o) (hs : IsSqrtm sqrtm)
    (hm : 1 ≤ slices) (hu : slices ≤ u.length) (hg : grid ≠ []) (calls : List IsingCall) :
    (isingFoM NormedSpace.exp sqrtm (u :: ps) (grid :: gs)
        (isingAfter sqrtm (calls ++ [.propagator (u :: ps) (grid :: gs)]) o)).1 =
      (isingFoM NormedSpace.exp sqrtm (u :: ps) (grid :: gs) o).1 :=
  after_propagator hn ho hs hm hu hg calls _ _

end

namespace IsingL

/-- flips of qubit 0 and of qubit 1 -/
def flip0 : CMat (2 ^ 2) := Matrix.of fun x y => if (x : ℕ) % 2 = (y : ℕ) % 2 ∧ (x : ℕ) / 2 ≠ (y : ℕ) / 2 then 1 else 0
@[inherit_doc flip0] def flip1 : CMat (2 ^ 2) := Matrix.of fun x y => if (x : ℕ) / 2 = (y : ℕ) / 2 ∧ (x : ℕ) % 2 ≠ (y : ℕ) % 2 then 1 else 0

theorem flip_add {B : CMat (2 ^ 2)} (h : ∀ x y : Fin (2 ^ 2), B x y = if flips 2 x y = 1 then 1 else 0) : B = flip0 + flip1 := by
  have key : ∀ x y : Fin 4, flips 2 x y = 1 ↔
      ((x : ℕ) % 2 = (y : ℕ) % 2 ∧ (x : ℕ) / 2 ≠ (y : ℕ) / 2) ∨ ((x : ℕ) / 2 = (y : ℕ) / 2 ∧ (x : ℕ) % 2 ≠ (y : ℕ) % 2) := by decide
  ext x y
  rw [h x y, Matrix.add_apply]
  simp only [flip0, flip1, Matrix.of_apply]
  change Fin 4 at x
  change Fin 4 at y
  simp only [key x y]
  by_cases h1 : (x : ℕ) / 2 = (y : ℕ) / 2 <;> by_cases h2 : (x : ℕ) % 2 = (y : ℕ) % 2 <;> simp [h1, h2]

theorem flip0_sq : flip0 * flip0 = 1 := by
  ext x y
  change Fin 4 at x
  change Fin 4 at y
  rw [Matrix.mul_apply]
  show ∑ j : Fin 4, flip0 x j * flip0 j y = (1 : Matrix (Fin 4) (Fin 4) ℂ) x y
  rw [Fin.sum_univ_four]
  fin_cases x <;> fin_cases y <;> simp [flip0]

theorem flip1_sq : flip1 * flip1 = 1 := by
  ext x y
  change Fin 4 at x
  change Fin 4 at y
  rw [Matrix.mul_apply]
  show ∑ j : Fin 4, flip1 x j * flip1 j y = (1 : Matrix (Fin 4) (Fin 4) ℂ) x y
  rw [Fin.sum_univ_four]
  fin_cases x <;> fin_cases y <;> simp [flip1]

theorem flip_prod : flip0 * flip1 = Matrix.of fun x y : Fin (2 ^ 2) => if (x : ℕ) + y = 3 then 1 else 0 := by
  ext x y
  change Fin 4 at x
  change Fin 4 at y
  rw [Matrix.mul_apply]
  show ∑ j : Fin 4, flip0 x j * flip1 j y = _
  rw [Fin.sum_univ_four]
  fin_cases x <;> fin_cases y <;> simp [flip0, flip1]

theorem flip_prod' : flip1 * flip0 = Matrix.of fun x y : Fin (2 ^ 2) => if (x : ℕ) + y = 3 then 1 else 0 := by
  ext x y
  change Fin 4 at x
  change Fin 4 at y
  rw [Matrix.mul_apply]
  show ∑ j : Fin 4, flip1 x j * flip0 j y = _
  rw [Fin.sum_univ_four]
  fin_cases x <;> fin_cases y <;> simp [flip0, flip1]

theorem exp_flip {X : CMat (2 ^ 2)} (h : X * X = 1) :
    NormedSpace.exp ((-Complex.I) • ((Real.pi / 2 : ℝ) : ℂ) • X) = (-Complex.I) • X := by
  have hp : Real.pi / 2 ≠ 0 := by positivity
  rw [exp_involution hp (by rw [Matrix.smul_mul, Matrix.mul_smul, h, smul_smul, ← pow_two]), Real.cos_pi_div_two, Real.sin_pi_div_two,
    smul_smul]
  have : ((Real.pi / 2 : ℝ) : ℂ) ≠ 0 := by exact_mod_cast hp
  rw [Complex.ofReal_zero, zero_smul, zero_add]
  congr 1
  rw [Complex.ofReal_div, Complex.ofReal_one]
  field_simp

/-- a pulse that flips both qubits -/
theorem exp_both : stepPropagator 1 ((0 : CMat (2 ^ 2)) + ((Real.pi / 2 : ℝ) : ℂ) • (flip0 + flip1)) = -(flip0 * flip1) := by
  unfold stepPropagator
  rw [zero_add, Complex.ofReal_one, mul_one, smul_add, smul_add, Matrix.exp_add_of_commute, exp_flip flip0_sq, exp_flip flip1_sq,
    Matrix.smul_mul, Matrix.mul_smul, smul_smul, neg_mul_neg, Complex.I_mul_I, neg_one_smul]
  have hc : Commute flip0 flip1 := flip_prod.trans flip_prod'.symm
  exact ((hc.smul_left _).smul_left _).smul_right _ |>.smul_right _

theorem zero_drift {o : Ising (2 ^ 2)} {slices : ℕ} {maximize : Bool} (ho : isingInit 2 0 0 slices maximize = .ok o) :
    o.drift = 0 ∧ o.control = flip0 + flip1 := by
  obtain ⟨o2, e, h2, h3, -⟩ := init_ok le_rfl 0 0 slices maximize
  rw [ho] at e; injection e with e; subst e
  refine ⟨?_, flip_add h3⟩
  ext x y
  rw [h2 x y]
  simp

theorem both_down : (-(flip0 * flip1)) *ᵥ allUp 2 = -allDown 2 := by
  rw [flip_prod, allUp_eq, allDown_eq]
  funext x
  change Fin 4 at x
  show ∑ j : Fin 4, (-(Matrix.of fun x y : Fin 4 => if (x : ℕ) + y = 3 then (1 : ℂ) else 0)) x j * (if j = ⟨0, by norm_num⟩ then (1 : ℂ) else 0) = _
  rw [Fin.sum_univ_four]
  fin_cases x <;> simp [Fin.ext_iff]

theorem same_neg {d : ℕ} {v : Fin d → ℂ} (h : IsUnitKet v) : transition (-v) v = 1 := by
  have := Ket.transition_smul v v (c := -1) (c' := 1) (by simp) (by simp)
  rw [neg_one_smul, one_smul] at this
  rw [this, Ket.transition_eq_one_iff h h]
  exact ⟨1, by simp, by simp⟩

end IsingL

/-- Violation found: after `get_propagator` with one pulse, `get_FoM` with another pulse returns the figure of merit of the
first pulse. For two qubits without couplings the zero pulse has the figure of merit 0 and a pulse of area pi/2 has -1; after
`get_propagator` with the zero pulse `get_FoM` of the other pulse returns 0. -/
theorem C68_stale_propagators : ∃ (o : Ising (2 ^ 2)) (sqrtm : CMat (2 ^ 2) → CMat (2 ^ 2)), isingInit 2 0 0 1 false = .ok o ∧
    IsSqrtm sqrtm ∧ (isingFoM NormedSpace.exp sqrtm [[Real.pi / 2]] [[1]] o).1 = .ok (-1) ∧
    (isingFoM NormedSpace.exp sqrtm [[Real.pi / 2]] [[1]] (isingAfter sqrtm [.propagator [[0]] [[1]]] o)).1 = .ok 0 := by
  obtain ⟨o, ho, -⟩ := init_ok le_rfl 0 0 1 false
  obtain ⟨hd, hc⟩ := zero_drift ho
  refine ⟨o, _, ho, Density.exists_sqrtm, ?_, ?_⟩
  · rw [C67_is_transition_probability (grid := [1]) (u := [Real.pi / 2]) le_rfl ho Density.exists_sqrtm le_rfl (by simp) (by simp)]
    have : drivenPropagator o.drift o.control [Real.pi / 2] (([1] : List ℝ).getLast (by simp) / ([1] : List ℝ).length) 1 = -(flip0 * flip1) := by
      rw [← exp_both, ← hd, ← hc]
      simp [drivenPropagator, ordered]
    rw [this, both_down, same_neg (down_unit 2)]
    norm_num
  · rw [← List.nil_append [IsingCall.propagator [[0]] [[1]]],
      after_propagator (u := [0]) (grid := [1]) le_rfl ho Density.exists_sqrtm le_rfl (by simp) (by simp) [] _ _,
      C67_is_transition_probability (grid := [1]) (u := [0]) le_rfl ho Density.exists_sqrtm le_rfl (by simp) (by simp)]
    have : drivenPropagator o.drift o.control [0] (([1] : List ℝ).getLast (by simp) / ([1] : List ℝ).length) 1 = 1 := by
      simp [drivenPropagator, ordered, stepPropagator, hd]
    obtain ⟨-, -, -, -, -, -, h0⟩ := C66_states le_rfl 0 0 1 false
    rw [this, Matrix.one_mulVec, h0, mul_zero]

/-- **C67.** The optimum is reachable: without couplings a pulse of area pi/2 brings both spins down (a concrete case of the
hypotheses of the theorems above). -/
example : ∃ (o : Ising (2 ^ 2)) (sqrtm : CMat (2 ^ 2) → CMat (2 ^ 2)), isingInit 2 0 0 1 false = .ok o ∧
    (isingFoM NormedSpace.exp sqrtm [[Real.pi / 2]] [[1]] o).1 = .ok (-1) := by
  obtain ⟨o, s, h1, -, h2, -⟩ := C68_stale_propagators
  exact ⟨o, s, h1, h2⟩

/-- a history that ends with a figure of merit -/
example : EndsWithFoM [.propagator [[0]] [[1]], .fom [[1]] [[1]]] := fun c hc => ⟨[[1]], [[1]], by simpa using hc.symm⟩

end QuOCS

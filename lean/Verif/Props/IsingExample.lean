/-
C107. The examples with a ring of spins, `Examples/IsingModelProblem.py` and `Examples/IsingModelProblem_AD.py`.
-/
import Verif.Model.IsingExample
import Verif.Spec.IsingExample
import Verif.Lemmas.IsingLindblad

set_option linter.unusedSectionVars false
set_option linter.unusedVariables false

namespace QuOCS
open Matrix IsingL Density

/-- How many random numbers a call takes: one, if it gets as far as building the Hamiltonian. -/
def ExIsingCall.draws : ExIsingCall → ℕ
  | .drift => 1
  | .propagator p t | .fom p t => match p, t with
    | _ :: _, (_ :: _) :: _ => 1
    | _, _ => 0

namespace IsingX
variable {s : ExIsingSettings} {o o0 : ExIsing (2 ^ s.qubits)} {sqrtm : CMat (2 ^ s.qubits) → CMat (2 ^ s.qubits)} {rnd : ℕ → ℝ}

/-- the coupling used when `k` random numbers are drawn -/
noncomputable def coupling (s : ExIsingSettings) (rnd : ℕ → ℝ) (k : ℕ) : ℝ := if s.noisy then noisyCoupling s.g s.gVariation (rnd k) else s.g

/-- matrices of a ring -/
theorem half_mats {n : ℕ} (hn : 2 ≤ n) (J g : ℝ) : ∃ H B, staticHamiltonianHalf n J g = .ok H ∧ controlHamiltonianHalf n = .ok B ∧
    (H.mat (2 ^ n))ᴴ = H.mat (2 ^ n) ∧ (B.mat (2 ^ n))ᴴ = B.mat (2 ^ n) ∧
    (3 ≤ n → ∀ u : ℝ, H.mat (2 ^ n) + (u : ℂ) • B.mat (2 ^ n) = drivenRing n J g u) := by
  obtain ⟨o, h, h1, h2, -, -, -, h3, -⟩ := openInit_ok hn J g 0
  obtain ⟨H, a, -⟩ := static_half hn J g
  obtain ⟨B, b, -⟩ := control_half hn
  obtain ⟨R, r, -⟩ := initial_ok hn
  obtain ⟨T, t, -⟩ := target_ok hn
  obtain ⟨L, l, -⟩ := dephase_ok hn 0
  unfold openIsingInit at h
  rw [a, b, r, t, l] at h
  have h := (Except.ok.inj h).symm
  subst h
  exact ⟨H, B, a, b, h1, h2, h3⟩

theorem states {n : ℕ} (hn : 2 ≤ n) : ∃ R T, isingInitial n = .ok R ∧ isingTarget n = .ok T ∧ R.mat (2 ^ n) = pureState (allUp n) ∧
    T.mat (2 ^ n) = pureState (allDown n) := by
  obtain ⟨o, h, -, -, -, h1, h2, -, -⟩ := openInit_ok hn 0 0 0
  obtain ⟨H, a, -⟩ := static_half hn 0 0
  obtain ⟨B, b, -⟩ := control_half hn
  obtain ⟨R, r, -⟩ := initial_ok hn
  obtain ⟨T, t, -⟩ := target_ok hn
  obtain ⟨L, l, -⟩ := dephase_ok hn 0
  unfold openIsingInit at h
  rw [a, b, r, t, l] at h
  have h := (Except.ok.inj h).symm
  subst h
  exact ⟨R, T, r, t, h1, h2⟩

/-- the part of the object that stays, with `k` random numbers drawn -/
structure Good (s : ExIsingSettings) (k : ℕ) (o : ExIsing (2 ^ s.qubits)) : Prop where
  control : ∃ B, controlHamiltonianHalf s.qubits = .ok B ∧ o.control = B.mat _
  rho0 : o.rho0 = pureState (allUp s.qubits)
  target : o.target = pureState (allDown s.qubits)
  store : o.store.length = s.slices
  drawn : s.noisy = true → o.drawn = k

theorem good_init (hn : 2 ≤ s.qubits) (ho : exIsingInit s = .ok o) : Good s 0 o := by
  obtain ⟨H, B, a, b, -⟩ := half_mats hn s.J s.g
  obtain ⟨R, T, r, t, r1, t1⟩ := states hn
  unfold exIsingInit at ho
  rw [a, b, r, t] at ho
  have h := (Except.ok.inj ho).symm
  subst h
  exact ⟨⟨B, b, rfl⟩, r1, t1, by simp, fun _ => rfl⟩

theorem drift_ok (hn : 2 ≤ s.qubits) {k : ℕ} (h : Good s k o) : ∃ H o', staticHamiltonianHalf s.qubits s.J (coupling s rnd k) = .ok H ∧
    exIsingDrift rnd s o = (.ok (H.mat _), o') ∧ Good s (k + 1) o' ∧ o'.control = o.control := by
  obtain ⟨H, B, a, -⟩ := half_mats hn s.J (coupling s rnd k)
  have a0 := a
  unfold exIsingDrift
  unfold coupling at a
  cases hno : s.noisy
  · rw [hno] at a
    simp only [Bool.false_eq_true, if_false] at a ⊢
    rw [a]
    exact ⟨H, _, a0, rfl, ⟨h.control, h.rho0, h.target, h.store, fun e => by rw [hno] at e; cases e⟩, rfl⟩
  · rw [hno] at a
    simp only [if_true] at a ⊢
    have hk := h.drawn hno
    rw [hk]
    unfold noisyCoupling at a
    rw [a]
    exact ⟨H, _, a0, rfl, ⟨h.control, h.rho0, h.target, h.store, fun _ => rfl⟩, rfl⟩

theorem store_state {d : ℕ} (expm : CMat d → CMat d) (m : ℕ) (H : CMat d) (u : List ℝ) (dt : ℝ) (o : ExIsing d) :
    ∃ st, (exIsingStore expm m H u dt o).2 = { o with store := st } ∧ st.length = o.store.length := by
  unfold exIsingStore
  split
  · next st h => exact ⟨st, rfl, pw_length h⟩
  · refine ⟨_, rfl, ?_⟩
    unfold exIsingPartial
    split
    · next st h => exact pw_length h
    · rfl

theorem propagator_good (hn : 2 ≤ s.qubits) {k : ℕ} (h : Good s k o) (p t : List (List ℝ)) :
    Good s (k + (ExIsingCall.propagator p t).draws) (exIsingPropagator (s := s) NormedSpace.exp rnd p t o).2 := by
  unfold exIsingPropagator
  rcases p with _ | ⟨u, ps⟩
  · exact h
  rcases t with _ | ⟨grid, gs⟩
  · exact h
  rcases grid with _ | ⟨x, xs⟩
  · exact h
  obtain ⟨H, o', -, h2, h3, -⟩ := drift_ok (rnd := rnd) hn h
  have : (exIsingPropagator (s := s) NormedSpace.exp rnd (u :: ps) ((x :: xs) :: gs) o) =
      exIsingStore NormedSpace.exp s.slices (H.mat _) u ((x :: xs).getLast (by simp) / (x :: xs).length) o' := by
    unfold exIsingPropagator
    refine (Prog.bind_ok (show Prog.lift (getIdx (u :: ps) 0) o = (.ok u, o) from rfl)).trans ?_
    refine (Prog.bind_ok (show Prog.lift (getIdx ((x :: xs) :: gs) 0) o = (.ok (x :: xs), o) from rfl)).trans ?_
    refine (Prog.bind_ok (show Prog.lift (grapeDt (x :: xs)) o = (.ok _, o) by rw [dt_ok (by simp)]; rfl)).trans ?_
    exact Prog.bind_ok h2
  unfold exIsingPropagator at this
  rw [this]
  obtain ⟨st, e, hl⟩ := store_state NormedSpace.exp s.slices (H.mat _) u ((x :: xs).getLast (by simp) / (x :: xs).length) o'
  rw [e]
  exact ⟨h3.control, h3.rho0, h3.target, hl.trans h3.store, h3.drawn⟩

theorem fom_after (p t : List (List ℝ)) (o : ExIsing (2 ^ s.qubits)) : ∃ l, (exIsingFoM s NormedSpace.exp sqrtm rnd p t o).2 =
    { (exIsingPropagator (s := s) NormedSpace.exp rnd p t o).2 with fomList := l } := by
  unfold exIsingFoM
  rw [Prog.bind_apply]
  rcases exIsingPropagator (s := s) NormedSpace.exp rnd p t o with ⟨e | st, o'⟩
  · exact ⟨_, rfl⟩
  · dsimp only
    rw [Prog.get_bind, Prog.bind_apply, Prog.lift_apply]
    rcases reduceStore o'.store with e | U
    · exact ⟨_, rfl⟩
    · exact ⟨_, rfl⟩

theorem call_good (hn : 2 ≤ s.qubits) {k : ℕ} (h : Good s k o) (c : ExIsingCall) : Good s (k + c.draws) (exIsingCall s NormedSpace.exp sqrtm rnd o c) := by
  cases c with
  | drift =>
    obtain ⟨H, o', -, h2, h3, -⟩ := drift_ok (rnd := rnd) hn h
    show Good s (k + 1) (exIsingDrift rnd s o).2
    rw [h2]; exact h3
  | propagator p t => exact propagator_good hn h p t
  | fom p t =>
    obtain ⟨l, e⟩ := fom_after (sqrtm := sqrtm) (rnd := rnd) p t o
    have := propagator_good (rnd := rnd) hn h p t
    show Good s _ (exIsingFoM s NormedSpace.exp sqrtm rnd p t o).2
    rw [e]
    exact ⟨this.control, this.rho0, this.target, this.store, this.drawn⟩

theorem after_good (hn : 2 ≤ s.qubits) (calls : List ExIsingCall) : ∀ {k : ℕ} {o : ExIsing (2 ^ s.qubits)}, Good s k o →
    Good s (k + (calls.map (·.draws)).sum) (exIsingAfter s NormedSpace.exp sqrtm rnd calls o) := by
  induction calls with
  | nil => intro k o h; simpa [exIsingAfter] using h
  | cons c cs ih =>
    intro k o h
    have := ih (call_good (sqrtm := sqrtm) (rnd := rnd) hn h c)
    rw [List.map_cons, List.sum_cons, ← Nat.add_assoc]
    exact this

theorem propagator_value {k : ℕ} (hn : 2 ≤ s.qubits) (h : Good s k o) {u grid : List ℝ} (ps gs : List (List ℝ)) (hu : s.slices ≤ u.length)
    (hg : grid ≠ []) : ∃ H B st o', staticHamiltonianHalf s.qubits s.J (coupling s rnd k) = .ok H ∧ controlHamiltonianHalf s.qubits = .ok B ∧
      exIsingPropagator (s := s) NormedSpace.exp rnd (u :: ps) (grid :: gs) o = (.ok st, o') ∧ o'.store = st ∧ st.length = s.slices ∧
      o'.rho0 = o.rho0 ∧ o'.target = o.target ∧
      ∀ i < s.slices, st[i]? = some (stepPropagator (grid.getLast hg / grid.length) (H.mat _ + ((u.getD i 0 : ℝ) : ℂ) • B.mat _)) := by
  obtain ⟨H, o', h1, h2, h3, h4⟩ := drift_ok (rnd := rnd) hn h
  obtain ⟨B, b1, b2⟩ := h3.control
  obtain ⟨st, e1, e2, e3, -⟩ := C44_stored_propagators (expm := NormedSpace.exp) (A := H.mat _)
    (dt := grid.getLast hg / grid.length) (shape hu o'.control) (store := o'.store) h3.store.ge
  refine ⟨H, B, st, { o' with store := st }, h1, b1, ?_, rfl, e2.trans h3.store, h3.rho0.trans h.rho0.symm, h3.target.trans h.target.symm, fun i hi => ?_⟩
  · unfold exIsingPropagator
    refine (Prog.bind_ok (show Prog.lift (getIdx (u :: ps) 0) o = (.ok u, o) from rfl)).trans ?_
    refine (Prog.bind_ok (show Prog.lift (getIdx (grid :: gs) 0) o = (.ok grid, o) from rfl)).trans ?_
    refine (Prog.bind_ok (show Prog.lift (grapeDt grid) o = (.ok _, o) by rw [dt_ok hg]; rfl)).trans ?_
    refine (Prog.bind_ok h2).trans ?_
    simp only [exIsingStore, e1]
  · rw [e3 i hi, ham, b2]; rfl

theorem fidelity_plain {n : ℕ} {sqrtm : CMat (2 ^ n) → CMat (2 ^ n)} (hs : IsSqrtm sqrtm) {U : CMat (2 ^ n)} (hU : Uᴴ * U = 1) :
    fidelitySqrtm sqrtm (U * pureState (allUp n) * Uᴴ) (pureState (allDown n)) = transition (U *ᵥ allUp n) (allDown n) := by
  rw [evolve_pure, fidelitySqrtm_pure hs (Ket.unit_mulVec hU (up_unit n))]

theorem fom_value {k : ℕ} (hn : 2 ≤ s.qubits) (h : Good s k o) (hs : IsSqrtm sqrtm) {u grid : List ℝ} (ps gs : List (List ℝ))
    (hm : 1 ≤ s.slices) (hu : s.slices ≤ u.length) (hg : grid ≠ []) :
    ∃ H B, staticHamiltonianHalf s.qubits s.J (coupling s rnd k) = .ok H ∧ controlHamiltonianHalf s.qubits = .ok B ∧
      (exIsingFoM s NormedSpace.exp sqrtm rnd (u :: ps) (grid :: gs) o).1 = .ok (-transition
        (drivenPropagator (H.mat _) (B.mat _) u (grid.getLast hg / grid.length) s.slices *ᵥ allUp s.qubits) (allDown s.qubits), s.stdev) := by
  obtain ⟨H, B, st, o', h1, h2, h3, h4, h5, h6, h7, h8⟩ := propagator_value (rnd := rnd) hn h ps gs hu hg
  obtain ⟨H', B', a1, a2, a3, a4, -⟩ := half_mats hn s.J (coupling s rnd k)
  obtain rfl : H' = H := Except.ok.inj (a1.symm.trans h1)
  obtain rfl : B' = B := Except.ok.inj (a2.symm.trans h2)
  refine ⟨H', B', h1, h2, ?_⟩
  have hr := reduce_ok h5 hm h8
  have hU := unitary a3 a4 u (grid.getLast hg / grid.length) s.slices
  have hv := fidelity_plain hs hU
  unfold drivenPropagator at hv ⊢
  unfold exIsingFoM
  rw [Prog.bind_ok h3, Prog.get_bind, Prog.bind_apply, Prog.lift_apply, h4, hr]
  dsimp only
  rw [h6, h7, h.rho0, h.target, hv]
  rfl

theorem driven_ring {n : ℕ} {J g : ℝ} {H B : CMat (2 ^ n)} (h : ∀ u : ℝ, H + (u : ℂ) • B = drivenRing n J g u) (u : List ℝ) (dt : ℝ) (m : ℕ) :
    drivenPropagator H B u dt m = ringPropagator n J g u dt m := by
  unfold drivenPropagator ringPropagator
  simp only [h]

end IsingX
open IsingX

section
variable {s : ExIsingSettings} {o : ExIsing (2 ^ s.qubits)} {sqrtm : CMat (2 ^ s.qubits) → CMat (2 ^ s.qubits)} {rnd : ℕ → ℝ} {u grid : List ℝ}
  {ps gs : List (List ℝ)}

/-- **C107, partial.** For three or more qubits and after any history of calls (also raising ones): the figure of merit is minus the probability to
find all spins down after the evolution of a driven ring of spins 1/2 that starts with all spins up; the coupling of next-nearest neighbours is `g`, or,
if a seed is set, `g` plus the variation given by the next random number: every call that gets as far as building the Hamiltonian takes one. Missing:
two qubits, see C105. -/
theorem C107_ring_partial (hn : 3 ≤ s.qubits) (ho : exIsingInit s = .ok o) (hs : IsSqrtm sqrtm) (hm : 1 ≤ s.slices) (hu : s.slices ≤ u.length)
    (hg : grid ≠ []) (calls : List ExIsingCall) :
    (exIsingFoM s NormedSpace.exp sqrtm rnd (u :: ps) (grid :: gs) (exIsingAfter s NormedSpace.exp sqrtm rnd calls o)).1 = .ok (-transition
      (ringPropagator s.qubits s.J
        (if s.noisy then noisyCoupling s.g s.gVariation (rnd (calls.map (·.draws)).sum) else s.g)
        u (grid.getLast hg / grid.length) s.slices *ᵥ allUp s.qubits) (allDown s.qubits), s.stdev) := by
  have h := after_good (sqrtm := sqrtm) (rnd := rnd) (by omega) calls (good_init (by omega) ho)
  rw [Nat.zero_add] at h
  obtain ⟨H, B, h1, h2, h3⟩ := fom_value (rnd := rnd) (by omega) h hs ps gs hm hu hg
  obtain ⟨H', B', a1, a2, -, -, a3⟩ := half_mats (by omega : 2 ≤ s.qubits) s.J (coupling s rnd (calls.map (·.draws)).sum)
  obtain rfl : H' = H := Except.ok.inj (a1.symm.trans h1)
  obtain rfl : B' = B := Except.ok.inj (a2.symm.trans h2)
  rw [h3, driven_ring (a3 hn)]
  rfl

/-- **C107** (range). For two or more qubits, with or without noise and after any history, the figure of merit lies between -1 and 0, and the reported
standard deviation is the one of the settings. -/
theorem C107_range (hn : 2 ≤ s.qubits) (ho : exIsingInit s = .ok o) (hs : IsSqrtm sqrtm) (hm : 1 ≤ s.slices) (hu : s.slices ≤ u.length)
    (hg : grid ≠ []) (calls : List ExIsingCall) :
    ∃ f, (exIsingFoM s NormedSpace.exp sqrtm rnd (u :: ps) (grid :: gs) (exIsingAfter s NormedSpace.exp sqrtm rnd calls o)).1 = .ok (f, s.stdev) ∧
      -1 ≤ f ∧ f ≤ 0 := by
  have h := after_good (sqrtm := sqrtm) (rnd := rnd) hn calls (good_init hn ho)
  obtain ⟨H, B, h1, h2, h3⟩ := fom_value (rnd := rnd) hn h hs ps gs hm hu hg
  obtain ⟨H', B', a1, a2, a3, a4, -⟩ := half_mats hn s.J (coupling s rnd (0 + (calls.map (·.draws)).sum))
  obtain rfl : H' = H := Except.ok.inj (a1.symm.trans h1)
  obtain rfl : B' = B := Except.ok.inj (a2.symm.trans h2)
  have hU := unitary a3 a4 u (grid.getLast hg / grid.length) s.slices
  have t0 := Ket.transition_nonneg
    (drivenPropagator (H'.mat _) (B'.mat _) u (grid.getLast hg / grid.length) s.slices *ᵥ allUp s.qubits) (allDown s.qubits)
  have t1 := Ket.transition_le_one (Ket.unit_mulVec hU (up_unit s.qubits)) (down_unit s.qubits)
  exact ⟨_, h3, by linarith, by linarith⟩

/-- **C107** (noise). The coupling used in a call differs from `g` by at most half of the variation, for random numbers between 0 and 1. -/
theorem C107_noise_bounded {r : ℝ} (h0 : 0 ≤ r) (h1 : r ≤ 1) (g w : ℝ) : |noisyCoupling g w r - g| ≤ |w| / 2 := by
  unfold noisyCoupling
  rw [add_sub_cancel_left, abs_mul, div_eq_mul_one_div]
  refine mul_le_mul_of_nonneg_left ?_ (abs_nonneg _)
  rw [abs_le]
  constructor <;> linarith

/-- **C107, partial** (automatic differentiation). For three or more qubits the variant for automatic differentiation returns the square root of the
probability. -/
theorem C107_automatic_differentiation_partial (hn : 3 ≤ s.qubits) (hu : s.slices ≤ u.length) (hg : grid ≠ []) :
    exIsingFoMAD s NormedSpace.exp (u :: ps) (grid :: gs) = .ok (Real.sqrt (transition
      (ringPropagator s.qubits s.J s.g u (grid.getLast hg / grid.length) s.slices *ᵥ allUp s.qubits) (allDown s.qubits))) := by
  obtain ⟨H, B, a1, a2, -, -, a3⟩ := half_mats (by omega : 2 ≤ s.qubits) s.J s.g
  obtain ⟨R, T, r, t, r1, t1⟩ := states (by omega : 2 ≤ s.qubits)
  unfold exIsingFoMAD
  rw [a1, a2, r, t, show getIdx (u :: ps) 0 = .ok u from rfl, show getIdx (grid :: gs) 0 = .ok grid from rfl]
  simp only [bind, Except.bind, dt_ok hg]
  rw [C47_final_evolution_agrees, TE.final_ok (shape hu (B.mat (2 ^ s.qubits)))]
  simp only [mul_one]
  have : ordered (TE.P NormedSpace.exp [u.map Complex.ofReal] (H.mat (2 ^ s.qubits)) [B.mat (2 ^ s.qubits)] (grid.getLast hg / grid.length))
      s.slices = drivenPropagator (H.mat (2 ^ s.qubits)) (B.mat (2 ^ s.qubits)) u (grid.getLast hg / grid.length) s.slices :=
    TE.ordered_congr fun i _ => by
      show NormedSpace.exp _ = NormedSpace.exp _
      rw [ham]
  rw [this, r1, t1, evolve_pure, driven_ring (a3 hn)]
  unfold rootOverlap
  have e := fidelityHS_pure (ringPropagator s.qubits s.J s.g u (grid.getLast hg / grid.length) s.slices *ᵥ allUp s.qubits) (allDown s.qubits)
  unfold fidelityHS at e
  rw [e]

/-- **C107, partial** (the two variants). Without noise the variant for automatic differentiation returns the root of minus the figure of merit of the
other one. -/
theorem C107_variants_agree_partial (hn : 3 ≤ s.qubits) (ho : exIsingInit s = .ok o) (hs : IsSqrtm sqrtm) (hq : s.noisy = false)
    (hm : 1 ≤ s.slices) (hu : s.slices ≤ u.length) (hg : grid ≠ []) (calls : List ExIsingCall) :
    ∃ f v, (exIsingFoM s NormedSpace.exp sqrtm rnd (u :: ps) (grid :: gs) (exIsingAfter s NormedSpace.exp sqrtm rnd calls o)).1 = .ok (f, s.stdev) ∧
      exIsingFoMAD s NormedSpace.exp (u :: ps) (grid :: gs) = .ok v ∧ 0 ≤ v ∧ v ^ 2 = -f := by
  have h1 := C107_ring_partial (rnd := rnd) (ps := ps) (gs := gs) hn ho hs hm hu hg calls
  rw [hq] at h1
  refine ⟨_, _, h1, C107_automatic_differentiation_partial hn hu hg, Real.sqrt_nonneg _, ?_⟩
  rw [Real.sq_sqrt (Ket.transition_nonneg _ _)]
  simp

end

/-- Three qubits, the couplings of the defaults, a seed and two slices: the hypotheses are met. -/
example : ∃ (o : ExIsing (2 ^ 3)) (sqrtm : CMat (2 ^ 3) → CMat (2 ^ 3)),
    exIsingInit { qubits := 3, J := 1, g := 2, slices := 2, noisy := true, gVariation := 1 / 5, stdev := 1 / 10 } = .ok o ∧ IsSqrtm sqrtm ∧
      2 ≤ ([1, 2] : List ℝ).length ∧ ([0, 1] : List ℝ) ≠ [] ∧
      ([ExIsingCall.drift, .fom [[1, 2]] [[0, 1]], .fom [] []].map (·.draws)).sum = 2 := by
  obtain ⟨H, B, a, b, -⟩ := half_mats (by norm_num : 2 ≤ 3) 1 2
  obtain ⟨R, T, r, t, -⟩ := states (by norm_num : 2 ≤ 3)
  refine ⟨_, _, by unfold exIsingInit; rw [a, b, r, t]; rfl, Density.exists_sqrtm, by simp, by simp, rfl⟩

end QuOCS

/-
Operators of the ring of spins with dephasing, entry by entry.
-/
import Verif.Model.IsingLindblad
import Verif.Spec.IsingLindblad
import Verif.Props.Ising
import Verif.Lemmas.LindbladFlow

set_option linter.unusedSectionVars false
set_option linter.unusedVariables false

namespace QuOCS
namespace IsingL
open Matrix

/-- scaled factors -/
theorem entry_scaled {A A' : List Arr} (hl : A'.length = A.length) (c : ℕ → ℂ)
    (h : ∀ i < A.length, ∀ a b, a < 2 → b < 2 → (A'.getD i Arr.eye).at_ a b = c i * (A.getD i Arr.eye).at_ a b) (x y : ℕ) :
    entry A' x y = (∏ i ∈ Finset.range A.length, c i) * entry A x y := by
  unfold entry
  rw [hl, ← Finset.prod_mul_distrib]
  exact Finset.prod_congr rfl fun i hi => h i (Finset.mem_range.1 hi) _ _ (qubit_lt _ _ _) (qubit_lt _ _ _)

theorem szHalf_at {a b : ℕ} (ha : a < 2) (hb : b < 2) : Arr.szHalf.at_ a b = 1 / 2 * Arr.sz.at_ a b := by
  interval_cases a <;> interval_cases b <;> simp [Arr.szHalf, Arr.sz, Arr.two]
  norm_num

theorem sxHalf_at {a b : ℕ} (ha : a < 2) (hb : b < 2) : Arr.sxHalf.at_ a b = 1 / 2 * Arr.sx.at_ a b := by
  interval_cases a <;> interval_cases b <;> simp [Arr.sxHalf, Arr.sx, Arr.two]

theorem getD_set_eye {n j i : ℕ} (a : Arr) (hi : i < n) : ((List.replicate n Arr.eye).set j a).getD i Arr.eye = if i = j then a else Arr.eye := by
  rw [List.getD_eq_getElem?_getD, List.getElem?_set]
  by_cases h : j = i
  · subst h; simp [hi]
  · simp [h, hi, Ne.symm h]

theorem half_one {n j : ℕ} (hj : j < n) (a a' : Arr) (h : ∀ x y, x < 2 → y < 2 → a'.at_ x y = 1 / 2 * a.at_ x y) (x y : ℕ) :
    entry ((List.replicate n Arr.eye).set j a') x y = 1 / 2 * entry ((List.replicate n Arr.eye).set j a) x y := by
  rw [entry_scaled (A := (List.replicate n Arr.eye).set j a) (by simp) (fun i => if i = j then 1 / 2 else 1)]
  · congr 1
    rw [Finset.prod_ite_eq']
    simp [hj]
  · intro i hi b c hb hc
    simp only [List.length_set, List.length_replicate] at hi
    rw [getD_set_eye _ hi, getD_set_eye _ hi]
    by_cases e : i = j <;> simp only [e, if_true, if_false]
    · exact h b c hb hc
    · rw [one_mul]

/-- the numerical factor of a coupling term -/
noncomputable def halves (j k : ℕ) : ℝ := if j = k then 1 / 2 else 1 / 4

theorem coupling_getD' {n j k : ℕ} (a : Arr) {i : ℕ} (hi : i < n) :
    (((List.replicate n Arr.eye).set j a).set k a).getD i Arr.eye = if i = j ∨ i = k then a else Arr.eye := by
  rw [List.getD_eq_getElem?_getD, List.getElem?_set, List.getElem?_set]
  by_cases h1 : k = i
  · subst h1; simp [hi]
  · by_cases h2 : j = i
    · subst h2; simp [h1, hi]
    · simp [h1, h2, hi, Ne.symm h1, Ne.symm h2]

theorem coupling_half {n j k x y : ℕ} (hj : j < n) (hk : k < n) (hx : x < 2 ^ n) (hy : y < 2 ^ n) :
    entry (((List.replicate n Arr.eye).set j Arr.szHalf).set k Arr.szHalf) x y =
      if x = y then ((halves j k * couple n x j k : ℝ) : ℂ) else 0 := by
  rw [entry_scaled (A := ((List.replicate n Arr.eye).set j Arr.sz).set k Arr.sz) (by simp) (fun i => if i = j ∨ i = k then 1 / 2 else 1),
    coupling_entry hj hk hx hy]
  · simp only [List.length_set, List.length_replicate]
    rw [Finset.prod_ite, Finset.prod_const_one, mul_one]
    have : ∏ i ∈ Finset.range n with i = j ∨ i = k, (1 / 2 : ℂ) = ((halves j k : ℝ) : ℂ) := by
      unfold halves
      by_cases hjk : j = k
      · subst hjk
        rw [if_pos rfl, show (Finset.range n).filter (fun i => i = j ∨ i = j) = {j} by
          ext i; simp only [Finset.mem_filter, Finset.mem_range, Finset.mem_singleton]; omega, Finset.prod_singleton]
        norm_num
      · rw [if_neg hjk, show (Finset.range n).filter (fun i => i = j ∨ i = k) = {j, k} by
          ext i; simp only [Finset.mem_filter, Finset.mem_range, Finset.mem_singleton, Finset.mem_insert]; omega, Finset.prod_pair hjk]
        norm_num
    rw [this]
    by_cases h : x = y
    · rw [if_pos h, if_pos h]; push_cast; ring
    · rw [if_neg h, if_neg h, mul_zero]
  · intro i hi b c hb hc
    simp only [List.length_set, List.length_replicate] at hi
    rw [coupling_getD' _ hi, coupling_getD' _ hi]
    by_cases e : i = j ∨ i = k <;> simp only [e, if_true, if_false]
    · exact szHalf_at hb hc
    · rw [one_mul]

theorem size_set {n j : ℕ} {a : Arr} (ha : a.size = 2) : ∀ c ∈ (List.replicate n Arr.eye).set j a, c.size = 2 := by
  intro c hc
  rcases List.mem_or_eq_of_mem_set hc with hc | rfl
  · rw [List.eq_of_mem_replicate hc]; rfl
  · exact ha

theorem couplingLoopHalf_ok {n : ℕ} (hn : 2 ≤ n) (c : ℂ) (idx : ℕ → ℕ) (hi : ∀ j < n, idx j < n) (H : Arr) (hH : H.size = 2 ^ n) :
    ∃ H', couplingLoopHalf n c idx H = .ok H' ∧ H'.size = 2 ^ n ∧ ∀ x y, x < 2 ^ n → y < 2 ^ n →
      H'.at_ x y = H.at_ x y + -c * ∑ j ∈ Finset.range n, if x = y then ((halves j (idx j) * couple n x j (idx j) : ℝ) : ℂ) else 0 := by
  refine loop_ok (N := 2 ^ n) (m := n) (fun j => couplingTermHalf n j (idx j)) (-c)
    (fun j x y => if x = y then ((halves j (idx j) * couple n x j (idx j) : ℝ) : ℂ) else 0) H hH fun j hj => ?_
  obtain ⟨T, t1, t2, t3⟩ := tensor_ok (A := ((List.replicate n Arr.eye).set j Arr.szHalf).set (idx j) Arr.szHalf) (by simpa using hn) (by
    intro c hc
    rcases List.mem_or_eq_of_mem_set hc with hc | rfl
    · exact size_set rfl c hc
    · rfl)
  refine ⟨T, ?_, by simpa using t2, fun x y hx hy => ?_⟩
  · unfold couplingTermHalf
    rw [setIdx_ok _ (by simpa using hj)]
    show (setIdx _ _ _ >>= fun r => tensorTogether r) = _
    rw [setIdx_ok _ (by simpa using hi j hj)]
    exact t1
  · rw [t3 x y (by simpa using hx) (by simpa using hy), coupling_half hj (hi j hj) hx hy]

theorem static_half {n : ℕ} (hn : 2 ≤ n) (J g : ℝ) :
    ∃ H, staticHamiltonianHalf n J g = .ok H ∧ ∀ x y, x < 2 ^ n → y < 2 ^ n →
      H.at_ x y = if x = y then ((-J * ∑ j ∈ Finset.range n, halves j (nearIdx n j) * couple n x j (nearIdx n j) -
        g * ∑ j ∈ Finset.range n, halves j (nextIdx n j) * couple n x j (nextIdx n j) : ℝ) : ℂ) else 0 := by
  obtain ⟨H1, a1, a2, a3⟩ := couplingLoopHalf_ok hn J (nearIdx n) (fun j hj => by unfold nearIdx; split <;> omega)
    (Arr.zeros (2 ^ n)) rfl
  obtain ⟨H2, b1, b2, b3⟩ := couplingLoopHalf_ok hn g (nextIdx n) (fun j hj => by unfold nextIdx; split_ifs <;> omega) H1 a2
  refine ⟨H2, ?_, fun x y hx hy => ?_⟩
  · unfold staticHamiltonianHalf; rw [a1]; exact b1
  · rw [b3 x y hx hy, a3 x y hx hy]
    by_cases h : x = y
    · simp only [if_pos h, Arr.zeros]
      push_cast
      ring
    · simp [if_neg h, Arr.zeros]

theorem half_energy {n : ℕ} (hn : 3 ≤ n) (J g : ℝ) (x : ℕ) :
    -J * ∑ j ∈ Finset.range n, halves j (nearIdx n j) * couple n x j (nearIdx n j) -
      g * ∑ j ∈ Finset.range n, halves j (nextIdx n j) * couple n x j (nextIdx n j) = ringEnergy n J g x / 4 := by
  rw [← energy_eq hn]
  have e1 : ∑ j ∈ Finset.range n, halves j (nearIdx n j) * couple n x j (nearIdx n j) =
      1 / 4 * ∑ j ∈ Finset.range n, couple n x j (nearIdx n j) := by
    rw [Finset.mul_sum]
    exact Finset.sum_congr rfl fun j hj => by rw [halves, if_neg (near_ne (by omega) (Finset.mem_range.1 hj))]
  have e2 : ∑ j ∈ Finset.range n, halves j (nextIdx n j) * couple n x j (nextIdx n j) =
      1 / 4 * ∑ j ∈ Finset.range n, couple n x j (nextIdx n j) := by
    rw [Finset.mul_sum]
    exact Finset.sum_congr rfl fun j hj => by rw [halves, if_neg (next_ne hn (Finset.mem_range.1 hj))]
  rw [e1, e2]
  ring

theorem control_half {n : ℕ} (hn : 2 ≤ n) : ∃ H, controlHamiltonianHalf n = .ok H ∧
    ∀ x y, x < 2 ^ n → y < 2 ^ n → H.at_ x y = if flips n x y = 1 then 1 / 2 else 0 := by
  obtain ⟨H, h1, h2, h3⟩ := loop_ok (N := 2 ^ n) (m := n)
    (fun j => setIdx (List.replicate n Arr.eye) j Arr.sxHalf >>= fun r => tensorTogether r) 1
    (fun j x y => 1 / 2 * entry ((List.replicate n Arr.eye).set j Arr.sx) x y) (Arr.zeros (2 ^ n)) rfl (fun j hj => by
      obtain ⟨T, t1, t2, t3⟩ := tensor_ok (A := (List.replicate n Arr.eye).set j Arr.sxHalf) (by simpa using hn) (size_set rfl)
      refine ⟨T, ?_, by simpa using t2, fun x y hx hy => ?_⟩
      · rw [setIdx_ok _ (by simpa using hj)]; exact t1
      · rw [t3 x y (by simpa using hx) (by simpa using hy), half_one hj Arr.sx Arr.sxHalf (fun a b ha hb => sxHalf_at ha hb)])
  obtain ⟨G, g1, g2, g3⟩ := control_ok hn
  obtain ⟨G', k1, k2, k3⟩ := loop_ok (N := 2 ^ n) (m := n)
    (fun j => setIdx (List.replicate n Arr.eye) j Arr.sx >>= fun r => tensorTogether r) 1
    (fun j x y => entry ((List.replicate n Arr.eye).set j Arr.sx) x y) (Arr.zeros (2 ^ n)) rfl (fun j hj => by
      obtain ⟨T, t1, t2, t3⟩ := tensor_ok (A := (List.replicate n Arr.eye).set j Arr.sx) (by simpa using hn) (size_set rfl)
      refine ⟨T, ?_, by simpa using t2, fun x y hx hy => ?_⟩
      · rw [setIdx_ok _ (by simpa using hj)]; exact t1
      · rw [t3 x y (by simpa using hx) (by simpa using hy)])
  have e : G' = G := by
    have : (Except.ok G' : Py Arr) = .ok G := by
      rw [← k1, ← g1]; unfold controlHamiltonian; simp only [bind_assoc]
    exact Except.ok.inj this
  subst e
  refine ⟨H, h1, fun x y hx hy => ?_⟩
  have a := g3 x y hx hy
  rw [k3 x y hx hy] at a
  simp only [Arr.zeros, zero_add, one_mul] at a
  rw [h3 x y hx hy]
  simp only [Arr.zeros, zero_add, one_mul, ← Finset.mul_sum, a]
  split_ifs <;> simp

theorem dephase_ok {n : ℕ} (hn : 2 ≤ n) (gamma : ℝ) : ∃ L, dephasingOperator n gamma = .ok L ∧ L.mat (2 ^ n) = totalSpin n gamma := by
  obtain ⟨L, h1, h2, h3⟩ := loop_ok (N := 2 ^ n) (m := n) (dephaseTerm n) ((Real.sqrt gamma : ℝ) : ℂ)
    (fun j x y => if x = y then ((spin n x j / 2 : ℝ) : ℂ) else 0) (Arr.zeros (2 ^ n)) rfl (fun j hj => by
      obtain ⟨T, t1, t2, t3⟩ := tensor_ok (A := (List.replicate n Arr.eye).set j Arr.szHalf) (by simpa using hn) (size_set rfl)
      refine ⟨T, ?_, by simpa using t2, fun x y hx hy => ?_⟩
      · unfold dephaseTerm; rw [setIdx_ok _ (by simpa using hj)]; exact t1
      · have := coupling_half hj hj hx hy
        rw [List.set_set] at this
        rw [t3 x y (by simpa using hx) (by simpa using hy), this]
        by_cases h : x = y <;> simp only [h, if_true, if_false]
        congr 1
        simp only [halves, couple, if_true]
        ring)
  refine ⟨L, h1, ?_⟩
  ext x y
  show L.at_ x y = _
  rw [h3 x y x.2 y.2]
  unfold totalSpin
  by_cases h : x = y
  · subst h
    simp [Arr.zeros]
  · rw [Matrix.diagonal_apply_ne _ h]
    simp [Arr.zeros, Fin.val_inj, h]

theorem totalSpin_hermitian (n : ℕ) (gamma : ℝ) : (totalSpin n gamma).IsHermitian :=
  Matrix.isHermitian_diagonal_of_self_adjoint _ (funext fun x => Complex.conj_ofReal _)

/-- everything that is known about a new object -/
theorem openInit_ok {n : ℕ} (hn : 2 ≤ n) (J g gamma : ℝ) : ∃ o, openIsingInit n J g gamma = .ok o ∧
    o.drift.IsHermitian ∧ o.control.IsHermitian ∧ o.jump = totalSpin n gamma ∧ o.rho0 = pureState (allUp n) ∧ o.target = pureState (allDown n) ∧
    (3 ≤ n → ∀ u : ℝ, o.drift + (u : ℂ) • o.control = drivenRing n J g u) ∧
    (∀ x : Fin (2 ^ n), o.drift x x = ((-J * ∑ j ∈ Finset.range n, halves j (nearIdx n j) * couple n x j (nearIdx n j) -
        g * ∑ j ∈ Finset.range n, halves j (nextIdx n j) * couple n x j (nextIdx n j) : ℝ) : ℂ)) := by
  obtain ⟨H, h1, h3⟩ := static_half hn J g
  obtain ⟨B, b1, b3⟩ := control_half hn
  obtain ⟨R, r1, -, r3⟩ := initial_ok hn
  obtain ⟨T, t1, -, t3⟩ := target_ok hn
  obtain ⟨L, l1, l3⟩ := dephase_ok hn gamma
  refine ⟨_, by unfold openIsingInit; rw [h1, b1, r1, t1, l1]; rfl, ?_, ?_, l3, ?_, ?_, ?_, fun x => (h3 x x x.2 x.2).trans (if_pos rfl)⟩
  · ext x y
    show star (H.at_ y x) = H.at_ x y
    rw [h3 x y x.2 y.2, h3 y x y.2 x.2]
    by_cases h : (x : ℕ) = y
    · rw [if_pos h, if_pos h.symm, h]; exact Complex.conj_ofReal _
    · rw [if_neg h, if_neg (Ne.symm h), star_zero]
  · ext x y
    show star (B.at_ y x) = B.at_ x y
    rw [b3 x y x.2 y.2, b3 y x y.2 x.2, flips_comm n y x]
    split_ifs <;> simp
  · ext x y
    show R.at_ x y = _
    rw [r3 x y x.2 y.2]
    simp only [pureState, Matrix.vecMulVec_apply, Pi.star_apply, allUp, up_iff]
    by_cases hx : (x : ℕ) = 0 <;> by_cases hy : (y : ℕ) = 0 <;> simp [hx, hy]
  · ext x y
    show T.at_ x y = _
    rw [t3 x y x.2 y.2]
    simp only [pureState, Matrix.vecMulVec_apply, Pi.star_apply, allDown, down_iff]
    by_cases hx : (x : ℕ) = 2 ^ n - 1 <;> by_cases hy : (y : ℕ) = 2 ^ n - 1 <;> simp [hx, hy]
  · intro h u
    ext x y
    show H.at_ x y + (u : ℂ) * B.at_ x y = _
    rw [h3 x y x.2 y.2, b3 x y x.2 y.2, half_energy h]
    unfold drivenRing
    rw [Matrix.add_apply, Matrix.smul_apply, Matrix.of_apply, smul_eq_mul]
    congr 1
    by_cases h : x = y
    · subst h; simp
    · rw [Matrix.diagonal_apply_ne _ h, if_neg (fun e => h (Fin.ext e))]

theorem lmeRhs_eq {d : ℕ} (H L r : CMat d) (hL : L.IsHermitian) : lmeRhs H L r = lindbladRhs H L r := by
  unfold lmeRhs lindbladRhs
  rw [hL.eq]
  simp only [Matrix.mul_assoc]
  module

end IsingL
end QuOCS

/-
Properties of the start simplex (C43) and of the superoperator (C49).
-/
import Mathlib.Data.Complex.Basic
import Mathlib.Data.Matrix.Basic
import Mathlib.LinearAlgebra.Matrix.NonsingularInverse
import Mathlib.LinearAlgebra.LinearIndependent.Basic
import Mathlib.LinearAlgebra.Matrix.Notation
import Verif.Lemmas.GramSchmidt

set_option linter.unusedSectionVars false
set_option linter.unusedVariables false

namespace QuOCS
open Matrix

/-! ### C43: the start simplex -/

section
variable {n : ℕ} {mean sigma r : Vec ℝ n}

/-- The random number of the first coordinate is not the one value for which the start matrix is singular. -/
def RegularDraw (r : Vec ℝ n) : Prop := ∀ i : Fin n, (i : ℕ) = 0 → 1 + Real.sqrt 3 * (r i - 1 / 2) * 2 ≠ 0

theorem simplexColumns_spec (hr : RegularDraw r) :
    GS.ONs (simplexColumns Real.sqrt r) ∧ (simplexColumns Real.sqrt r).length = n := by
  have := GS.gs_spec (before := []) (done := []) ⟨List.Pairwise.nil, fun u hu => by cases hu⟩ (fun w _ u hu => by cases hu)
    (GS.sep_rows r hr [] (List.finRange n) rfl)
  simpa [simplexColumns] using this

/-- **C43.** For every mean point, all start sizes and all random numbers but one exceptional value the start simplex
has one point more than the dimension, the first one is the mean point, and the others are the mean point plus the rows
of a rotation (orthogonal matrix) with coordinate `j` scaled by the start size `sigma j`. -/
theorem C43_start_simplex (hn : n ≠ 0) (hr : RegularDraw r) :
    ∃ (sim : List (Vec ℝ n)) (Q : Matrix (Fin n) (Fin n) ℝ), simplexCreation Real.sqrt mean sigma r = .ok sim ∧
      sim.length = n + 1 ∧ sim[0]? = some mean ∧ Q * Qᵀ = 1 ∧
      ∀ i : Fin n, sim[(i : ℕ) + 1]? = some fun j => mean j + Q i j * sigma j := by
  obtain ⟨⟨h1, h2⟩, h3⟩ := simplexColumns_spec hr
  let Q : Matrix (Fin n) (Fin n) ℝ := Matrix.of fun i j => ((simplexColumns Real.sqrt r).getD j 0) i
  have hQ : Qᵀ * Q = 1 := by
    ext a b
    rw [Matrix.mul_apply]
    have hs : ∑ k, Qᵀ a k * Q k b = (simplexColumns Real.sqrt r).getD a 0 ⬝ᵥ (simplexColumns Real.sqrt r).getD b 0 := rfl
    rw [hs]
    have ha : (a : ℕ) < (simplexColumns Real.sqrt r).length := by rw [h3]; exact a.2
    have hb : (b : ℕ) < (simplexColumns Real.sqrt r).length := by rw [h3]; exact b.2
    have gd : ∀ {k : ℕ} (hk : k < (simplexColumns Real.sqrt r).length),
        (simplexColumns Real.sqrt r).getD k 0 = (simplexColumns Real.sqrt r)[k] := fun hk => by
      rw [List.getD_eq_getElem?_getD, List.getElem?_eq_getElem hk]; rfl
    rw [gd ha, gd hb]
    by_cases hab : a = b
    · subst hab
      rw [Matrix.one_apply_eq]
      exact h2 _ (List.getElem_mem _)
    · rw [Matrix.one_apply_ne hab]
      rw [List.pairwise_iff_getElem] at h1
      rcases lt_or_gt_of_ne (fun h => hab (Fin.ext h) : (a : ℕ) ≠ b) with h | h
      · exact h1 _ _ ha hb h
      · rw [dotProduct_comm]; exact h1 _ _ hb ha h
  refine ⟨_, Q, by unfold simplexCreation; rw [if_neg hn], by simp, ?_, mul_eq_one_comm.1 hQ, fun i => ?_⟩
  · simp
  · simp only [List.getElem?_cons_succ, List.getElem?_map, List.getElem?_eq_getElem (l := List.finRange n) (i := i)
      (by simp), List.getElem_finRange, Option.map_some, Option.some.injEq]
    funext j
    show _ * _ + _ = _
    rw [add_comm]; rfl

/-- **C43.** In every coordinate `j` the spread of the start simplex around the mean point is the start size: the squared
differences sum up to `sigma j ^ 2`. -/
theorem C43_spread_per_coordinate (hn : n ≠ 0) (hr : RegularDraw r) (j : Fin n) :
    ∃ sim : List (Vec ℝ n), simplexCreation Real.sqrt mean sigma r = .ok sim ∧
      (sim.map fun p => (p j - mean j) ^ 2).sum = sigma j ^ 2 := by
  obtain ⟨sim, Q, h1, h2, h3, h4, h5⟩ := C43_start_simplex (mean := mean) (sigma := sigma) hn hr
  refine ⟨sim, h1, ?_⟩
  have hsim : sim = mean :: (List.finRange n).map fun i j => mean j + Q i j * sigma j := by
    refine List.ext_getElem? fun k => ?_
    rcases k with _ | k
    · rw [h3]; rfl
    · by_cases hk : k < n
      · rw [h5 ⟨k, hk⟩]; simp [hk]
      · rw [List.getElem?_eq_none (by omega), List.getElem?_eq_none (by simp; omega)]
  have hq : Qᵀ * Q = 1 := mul_eq_one_comm.1 h4
  have hqj := congrFun (congrFun hq j) j
  rw [Matrix.mul_apply, Matrix.one_apply_eq] at hqj
  rw [hsim, List.map_cons, List.sum_cons, List.map_map]
  have : (List.map ((fun p : Vec ℝ n => (p j - mean j) ^ 2) ∘ fun i j => mean j + Q i j * sigma j) (List.finRange n)).sum
      = ∑ i, (Q i j * sigma j) ^ 2 := by
    rw [← List.ofFn_eq_map, List.sum_ofFn]
    exact Finset.sum_congr rfl fun i _ => by simp
  rw [this]
  have h6 : ∑ i, (Q i j * sigma j) ^ 2 = (∑ i, Qᵀ j i * Q i j) * sigma j ^ 2 := by
    rw [Finset.sum_mul]
    exact Finset.sum_congr rfl fun i _ => by rw [Matrix.transpose_apply]; ring
  rw [h6, hqj]; ring

/-- **C43.** If no start size is zero the start simplex is not degenerate: the edges from the mean point are linearly
independent. -/
theorem C43_not_degenerate (hn : n ≠ 0) (hr : RegularDraw r) (hs : ∀ j, sigma j ≠ 0) :
    ∃ sim : List (Vec ℝ n), simplexCreation Real.sqrt mean sigma r = .ok sim ∧
      ∃ edge : Fin n → Vec ℝ n, (∀ i : Fin n, sim[(i : ℕ) + 1]? = some (mean + edge i)) ∧ LinearIndependent ℝ edge := by
  obtain ⟨sim, Q, h1, h2, h3, h4, h5⟩ := C43_start_simplex (mean := mean) (sigma := sigma) hn hr
  refine ⟨sim, h1, (Q * diagonal sigma : Matrix (Fin n) (Fin n) ℝ), fun i => ?_, ?_⟩
  · rw [h5 i]
    congr 1
    funext j
    show _ = mean j + (Q * diagonal sigma) i j
    rw [Matrix.mul_diagonal]
  · have hdet : (Q * diagonal sigma).det ≠ 0 := by
      rw [Matrix.det_mul, Matrix.det_diagonal]
      refine mul_ne_zero ?_ (Finset.prod_ne_zero_iff.2 fun j _ => hs j)
      intro h0
      have := congrArg Matrix.det h4
      rw [Matrix.det_mul, h0, zero_mul, Matrix.det_one] at this
      exact zero_ne_one this
    have := Matrix.linearIndependent_rows_of_isUnit (A := Q * diagonal sigma)
      ((Matrix.isUnit_iff_isUnit_det _).2 (isUnit_iff_ne_zero.2 hdet))
    exact this

/-- **C43** (only if all start sizes are equal): the edges from the mean point are orthogonal and have the requested
length. -/
theorem C43_orthogonal_edges_partial (hn : n ≠ 0) (hr : RegularDraw r) {c : ℝ} (hs : ∀ j, sigma j = c) :
    ∃ sim : List (Vec ℝ n), simplexCreation Real.sqrt mean sigma r = .ok sim ∧
      ∃ edge : Fin n → Vec ℝ n, (∀ i : Fin n, sim[(i : ℕ) + 1]? = some (mean + edge i)) ∧
        (∀ i k, i ≠ k → edge i ⬝ᵥ edge k = 0) ∧ ∀ i, edge i ⬝ᵥ edge i = c ^ 2 := by
  obtain ⟨sim, Q, h1, h2, h3, h4, h5⟩ := C43_start_simplex (mean := mean) (sigma := sigma) hn hr
  have key : ∀ i k, (fun j => Q i j * sigma j) ⬝ᵥ (fun j => Q k j * sigma j) = (Q * Qᵀ) i k * c ^ 2 := by
    intro i k
    rw [Matrix.mul_apply, Finset.sum_mul]
    refine Finset.sum_congr rfl fun j _ => ?_
    show Q i j * sigma j * (Q k j * sigma j) = Q i j * Q k j * c ^ 2
    rw [hs j]; ring
  refine ⟨sim, h1, fun i j => Q i j * sigma j, fun i => h5 i, fun i k hik => ?_, fun i => ?_⟩
  · rw [key, h4, Matrix.one_apply_ne hik, zero_mul]
  · rw [key, h4, Matrix.one_apply_eq, one_mul]

end

/-- the draw of the example: the first row of the start matrix is `(1, 3/4)` -/
noncomputable def exDraw : Vec ℝ 2 := ![1 / 2, 1 / 2 + 3 / 4 / (2 * Real.sqrt 3)]

theorem exDraw_regular : RegularDraw exDraw := by
  intro i hi
  have : i = 0 := Fin.ext hi
  subst this
  simp [exDraw]

/-- the draw is possible: its numbers are in `[0, 1)` -/
example : ∀ i, 0 ≤ exDraw i ∧ exDraw i < 1 := by
  have h3 : 1 < Real.sqrt 3 := by
    rw [show (1 : ℝ) = Real.sqrt 1 by simp]
    exact Real.sqrt_lt_sqrt (by norm_num) (by norm_num)
  intro i
  fin_cases i
  · simp [exDraw]; norm_num
  · have h1 : 3 / 4 / (2 * Real.sqrt 3) < 1 / 2 := by
      rw [div_lt_iff₀ (by linarith)]; linarith
    have h2 : 0 < 3 / 4 / (2 * Real.sqrt 3) := by positivity
    simp only [exDraw]
    constructor
    · show (0 : ℝ) ≤ 1 / 2 + 3 / 4 / (2 * Real.sqrt 3); linarith
    · show (1 : ℝ) / 2 + 3 / 4 / (2 * Real.sqrt 3) < 1; linarith

theorem sqrt_eq {x y : ℝ} (hy : 0 ≤ y) (h : x = y ^ 2) : Real.sqrt x = y := by
  rw [h]; exact Real.sqrt_sq hy

theorem exColumns : simplexColumns Real.sqrt exDraw = [![4 / 5, 3 / 5], ![-3 / 5, 4 / 5]] := by
  have h3 : Real.sqrt 3 ≠ 0 := by positivity
  have r0 : simplexRow Real.sqrt exDraw 0 = ![1, 3 / 4] := by
    funext j
    fin_cases j
    · simp [simplexRow, exDraw]
    · simp [simplexRow, exDraw]
      field_simp
  have r1 : simplexRow Real.sqrt exDraw 1 = ![0, 1] := by
    funext j
    fin_cases j
    · simp [simplexRow]
    · simp [simplexRow]
  have n0 : vecNorm Real.sqrt ![1, (3 : ℝ) / 4] = 5 / 4 := by
    unfold vecNorm
    exact sqrt_eq (by norm_num) (by rw [Fin.sum_univ_two]; simp; norm_num)
  have e0 : (vecNorm Real.sqrt ![1, (3 : ℝ) / 4])⁻¹ • ![1, (3 : ℝ) / 4] = ![4 / 5, 3 / 5] := by
    rw [n0]
    funext j
    fin_cases j <;> simp <;> norm_num
  have n1 : vecNorm Real.sqrt ![(4 : ℝ) / 5, 3 / 5] = 1 := by
    unfold vecNorm
    exact sqrt_eq (by norm_num) (by rw [Fin.sum_univ_two]; simp; norm_num)
  have p1 : gsProject Real.sqrt [![(4 : ℝ) / 5, 3 / 5]] ![0, 1] = ![-12 / 25, 16 / 25] := by
    show ![(0 : ℝ), 1] - _ • ![(4 : ℝ) / 5, 3 / 5] = _
    rw [n1]
    funext j
    fin_cases j <;> simp [dotProduct] <;> norm_num
  have n2 : vecNorm Real.sqrt ![-(12 : ℝ) / 25, 16 / 25] = 4 / 5 := by
    unfold vecNorm
    exact sqrt_eq (by norm_num) (by rw [Fin.sum_univ_two]; simp; norm_num)
  have e1 : (vecNorm Real.sqrt ![-(12 : ℝ) / 25, 16 / 25])⁻¹ • ![-(12 : ℝ) / 25, 16 / 25] = ![-3 / 5, 4 / 5] := by
    rw [n2]
    funext j
    fin_cases j <;> simp <;> norm_num
  have hf : (List.finRange 2).map (simplexRow Real.sqrt exDraw) = [![1, 3 / 4], ![0, 1]] := by
    rw [show List.finRange 2 = [0, 1] from rfl, List.map_cons, List.map_cons, List.map_nil, r0, r1]
  unfold simplexColumns
  rw [hf]
  show gramSchmidt Real.sqrt [(vecNorm Real.sqrt ![1, (3 : ℝ) / 4])⁻¹ • ![1, (3 : ℝ) / 4]] [![0, 1]] = _
  rw [e0]
  show [![(4 : ℝ) / 5, 3 / 5], (vecNorm Real.sqrt (gsProject Real.sqrt [![(4 : ℝ) / 5, 3 / 5]] ![0, 1]))⁻¹ •
    gsProject Real.sqrt [![(4 : ℝ) / 5, 3 / 5]] ![0, 1]] = _
  rw [p1, e1]

/-- Violation found: with different start sizes the edges of the start simplex are not orthogonal (line 80 of
`linearalgebra.py` scales the columns of the rotation, but the points of the simplex are its rows): for start sizes 1 and
2 the two edges have the scalar product -36/25, and their lengths are not 1 and 2. -/
theorem C43_edges_not_orthogonal :
    ∃ sim : List (Vec ℝ 2), simplexCreation Real.sqrt 0 ![1, 2] exDraw = .ok sim ∧
      sim = [0, ![4 / 5, -6 / 5], ![3 / 5, 8 / 5]] ∧
      (![4 / 5, -6 / 5] : Vec ℝ 2) ⬝ᵥ ![3 / 5, 8 / 5] = -36 / 25 := by
  refine ⟨_, rfl, ?_, ?_⟩
  · rw [show List.finRange 2 = [0, 1] from rfl, List.map_cons, List.map_cons, List.map_nil, exColumns]
    congr 1
    · funext j; simp
    · congr 1
      · funext j
        fin_cases j <;> simp <;> norm_num
      · congr 1
        funext j
        fin_cases j <;> simp <;> norm_num
  · simp [dotProduct]; norm_num

/-! ### C49: the superoperator -/

section
variable {K : Type} [Field K] [StarRing K] {n : ℕ}

/-- What the superoperator does, for every matrix `H` and every `rho`. -/
theorem toSupOp_apply (H rho : Matrix (Fin n) (Fin n) K) :
    (toSupOp H).mulVec (toVec rho) = toVec (rho * Hᵀ - Hᴴ * rho) := by
  funext ⟨i, j⟩
  unfold toSupOp toVec
  simp only [Matrix.sub_mulVec, Pi.sub_apply, Matrix.sub_apply]
  congr 1
  · simp only [mulVec, dotProduct, kroneckerMap_apply, Fintype.sum_prod_type, Matrix.mul_apply, Matrix.transpose_apply]
    rw [Finset.sum_eq_single i]
    · exact Finset.sum_congr rfl fun k _ => by rw [Matrix.one_apply_eq]; ring
    · intro k _ hk
      refine Finset.sum_eq_zero fun l _ => ?_
      rw [Matrix.one_apply_ne hk.symm]; ring
    · simp
  · simp only [mulVec, dotProduct, kroneckerMap_apply, Fintype.sum_prod_type, Matrix.mul_apply]
    refine Finset.sum_congr rfl fun k _ => ?_
    rw [Finset.sum_eq_single j]
    · rw [Matrix.one_apply_eq]; ring
    · intro l _ hl
      rw [Matrix.one_apply_ne hl.symm]; ring
    · simp

/-- **C49** (for Hamiltonians that are Hermitian and symmetric, i.e. real symmetric, and up to a sign): applying the
superoperator of `H` to the flattened `rho` is the flattened commutator of `rho` and `H`, i.e. minus the commutator of
`H` and `rho`. Missing: the sign, and Hamiltonians with imaginary entries, for which the claim is false. -/
theorem C49_superoperator_partial (H rho : Matrix (Fin n) (Fin n) K) (hh : Hᴴ = H) (hs : Hᵀ = H) :
    (toSupOp H).mulVec (toVec rho) = toVec (commutator rho H) := by
  rw [toSupOp_apply, hh, hs]; rfl

end

/-- `[[0, -i], [i, 0]]` -/
def exSigmaY : Matrix (Fin 2) (Fin 2) ℂ := !![0, -Complex.I; Complex.I, 0]

/-- a real symmetric matrix meets the hypotheses -/
example : (!![1, 2; 2, 3] : Matrix (Fin 2) (Fin 2) ℂ)ᴴ = !![1, 2; 2, 3] ∧ (!![1, 2; 2, 3] : Matrix (Fin 2) (Fin 2) ℂ)ᵀ = !![1, 2; 2, 3] := by
  constructor <;> (ext i j; fin_cases i <;> fin_cases j <;> simp)

/-- Violation found: for the Hermitian matrix `sigma_y` the superoperator applied to the flattened identity is not zero,
although the identity commutes with every matrix. -/
theorem C49_not_the_commutator :
    exSigmaYᴴ = exSigmaY ∧ commutator exSigmaY 1 = 0 ∧ (toSupOp exSigmaY).mulVec (toVec 1) ≠ 0 := by
  refine ⟨?_, ?_, ?_⟩
  · ext i j; fin_cases i <;> fin_cases j <;> simp [exSigmaY]
  · simp [commutator]
  · rw [toSupOp_apply]
    intro h
    have := congrFun h (0, 1)
    simp [toVec, exSigmaY] at this

end QuOCS

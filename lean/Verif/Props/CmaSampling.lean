/-
The points CMA-ES evaluates: C56.
-/
import Mathlib.Analysis.Matrix.Spectrum
import Verif.Lemmas.CmaCov
import Verif.Lemmas.CmaGeneral

set_option linter.unusedSectionVars false
set_option linter.unusedVariables false

namespace QuOCS
open Matrix

variable {F : Type} [Zero F] [LinearOrder F] {n L : ℕ} {lib : CmaLib ℝ F} {x0 sg : Vec ℝ n} {fuel : ℕ}

/-- **C56.** With the default population: every point at which the objective is evaluated is the start point (the first
one) or drawn from a normal distribution of full rank around the weighted mean of the best half of the previous
generation, for every behaviour of the objective and every length of the search. -/
theorem C56_default_population_samples (hl : lib.Genuine) (hsort : lib.Sorts) (hn : n ≠ 0)
    (hs : ∀ i, sg i ≠ 0) {L : ℕ} (hpop : cmaPopulation lib.log n none = .ok (L : ℤ)) (hL : 0 < L)
    {evs pre post : List (Ev ℝ (Vec ℝ n) F)} {m' : Strat ℝ (Vec ℝ n) F (DsmResult (Vec ℝ n) F)}
    (hp : Plays (cmaRun lib hL fuel x0 sg) evs m') {x : Vec ℝ n} {it : ℕ} {f : F}
    (he : evs = pre ++ ⟨.eval x it, f⟩ :: post) : Drawn lib L x0 (evals pre) x := by
  have hLv : (L : ℤ) = 4 + ⌊3 * Real.log n⌋ := by
    unfold cmaPopulation at hpop
    rw [if_neg hn, hl.log] at hpop
    injection hpop with h
    exact h.symm
  have h0 : 0 ≤ ⌊3 * Real.log (n : ℝ)⌋ := Int.floor_nonneg.2 (by have := Real.log_natCast_nonneg n; positivity)
  have h2 : 2 ≤ L := by omega
  have hle : (L : ℝ) ≤ 4 + 3 * Real.log n := by
    have h1 : (L : ℝ) = ((4 + ⌊3 * Real.log n⌋ : ℤ) : ℝ) := by rw [← hLv]; simp
    have := Int.floor_le (3 * Real.log (n : ℝ))
    rw [h1]; push_cast; linarith
  have hr := CMA.default_rates hn h2 hle (sq := lib.sqrt)
  rw [← hl.log] at hr
  have := (hp.of_wp (A := NM.T2) (h := []) (fun _ _ _ => trivial)
    (CMA.run6 (x0 := x0) hl hsort h2 hr fuel sg hs hL)).1 pre _ _ post he
  rwa [List.nil_append] at this

/-- **C56** for a configured population: the same holds as long as the learning rate of the rank-`mu` update is not
capped (`cmu < 1 - c1`; this fails only for populations that are large compared with the dimension). -/
theorem C56_uncapped_population_samples (hl : lib.Genuine) (hsort : lib.Sorts)
    (hs : ∀ i, sg i ≠ 0) (h2 : 2 ≤ L) (hL : 0 < L)
    (hr : (cmaPar Real.sqrt n (cmaMueff (cmaWeights Real.log (L / 2)))).cmu <
      1 - (cmaPar Real.sqrt n (cmaMueff (cmaWeights Real.log (L / 2)))).c1)
    {evs pre post : List (Ev ℝ (Vec ℝ n) F)} {m' : Strat ℝ (Vec ℝ n) F (DsmResult (Vec ℝ n) F)}
    (hp : Plays (cmaRun lib hL fuel x0 sg) evs m') {x : Vec ℝ n} {it : ℕ} {f : F}
    (he : evs = pre ++ ⟨.eval x it, f⟩ :: post) : Drawn lib L x0 (evals pre) x := by
  rw [← hl.log, ← hl.sqrt] at hr
  have := (hp.of_wp (A := NM.T2) (h := []) (fun _ _ _ => trivial)
    (CMA.run6 (x0 := x0) hl hsort h2 hr fuel sg hs hL)).1 pre _ _ post he
  rwa [List.nil_append] at this

/-- **C56** for every population of at least two, also one so large that the learning rate of the rank-`mu` update is capped
(`cmu = 1 - c1`: nothing of the old covariance matrix is kept): the same holds as long as the random draws are in general
position. -/
theorem C56_general_draws_samples (hl : lib.Genuine) (hsort : lib.Sorts) (hz : InGeneralPosition (lib.randn (n := n)))
    (hs : ∀ i, sg i ≠ 0) (h2 : 2 ≤ L) (hL : 0 < L)
    {evs pre post : List (Ev ℝ (Vec ℝ n) F)} {m' : Strat ℝ (Vec ℝ n) F (DsmResult (Vec ℝ n) F)}
    (hp : Plays (cmaRun lib hL fuel x0 sg) evs m') {x : Vec ℝ n} {it : ℕ} {f : F}
    (he : evs = pre ++ ⟨.eval x it, f⟩ :: post) : Drawn lib L x0 (evals pre) x := by
  have := (hp.of_wp (A := NM.T2) (h := []) (fun _ _ _ => trivial)
    (CMA.run8 (x0 := x0) hl hsort h2 hz fuel sg hs hL)).1 pre _ _ post he
  rwa [List.nil_append] at this

/-- **C56.** Independent standard normal draws are in general position with probability one. -/
theorem C56_draws_in_general_position (n : ℕ) : ∀ᵐ z ∂stdNormalDraws n, InGeneralPosition z := CMA.draws_general

/-- **C56** with probability one: for almost every sequence `z` of independent standard normal draws, every search that uses
these draws evaluates the objective only at the start point (first) and at points drawn from normal distributions of full
rank around the weighted means of the best halves - for every population of at least two, every start point, every start
variation without zeros, every behaviour of the objective and every length of the search. -/
theorem C56_almost_surely (n : ℕ) : ∀ᵐ z ∂stdNormalDraws n, ∀ (lib : CmaLib ℝ F), lib.Genuine → lib.Sorts →
    (∀ j, lib.randn (n := n) j = z j) → ∀ (L : ℕ) (hL : 0 < L), 2 ≤ L → ∀ (fuel : ℕ) (x0 sg : Vec ℝ n), (∀ i, sg i ≠ 0) →
    ∀ (evs pre post : List (Ev ℝ (Vec ℝ n) F)) (m' : Strat ℝ (Vec ℝ n) F (DsmResult (Vec ℝ n) F)),
    Plays (cmaRun lib hL fuel x0 sg) evs m' → ∀ (x : Vec ℝ n) (it : ℕ) (f : F),
    evs = pre ++ ⟨.eval x it, f⟩ :: post → Drawn lib L x0 (evals pre) x := by
  filter_upwards [C56_draws_in_general_position n] with z hz lib hl hsort hr L hL h2 fuel x0 sg hs evs pre post m' hp x it f he
  have hz' : InGeneralPosition (lib.randn (n := n)) := by
    have : (fun j => lib.randn (n := n) j) = z := funext hr
    show InGeneralPosition fun j => lib.randn (n := n) j
    rw [this]; exact hz
  exact C56_general_draws_samples hl hsort hz' hs h2 hL hp he

/-- General position is needed when the learning rate is capped: if nothing but zeros is drawn, the new covariance matrix
is the zero matrix up to the parts that come from the evolution path. -/
example {mu : ℕ} {p : CmaPar ℝ} {w : Fin mu → ℝ} {x pc : Vec ℝ n} {sigma : ℝ} {C : Matrix (Fin n) (Fin n) ℝ}
    (hc : p.cmu = 1 - p.c1) : cmaCov p w (fun _ => x) x pc sigma 1 C = p.c1 • vecMulVec pc pc := by
  unfold cmaCov
  have h0 : (Matrix.of fun (j : Fin n) (_ : Fin mu) => (1 / sigma) * (x j - x j)) = 0 := by
    ext j i; simp
  dsimp only
  rw [h0, hc]
  simp

/-- draws in general position: points on the moment curve in dimension 2 -/
example : InGeneralPosition (n := 2) fun j => ![1, (j : ℝ)] := by
  intro s hs
  rw [Fintype.linearIndependent_iff]
  intro g hg
  rw [Fin.sum_univ_two] at hg
  have h0 := congrFun hg 0
  have h1 := congrFun hg 1
  simp at h0 h1
  have hne : (s 0 : ℝ) ≠ s 1 := fun h => absurd (hs (Nat.cast_injective h)) (by decide)
  have hg0 : g 0 * ((s 0 : ℝ) - s 1) = 0 := by linear_combination h1 - (s 1 : ℝ) * h0
  have h00 := (mul_eq_zero.1 hg0).resolve_right (sub_ne_zero.2 hne)
  have h11 : g 1 = 0 := by rw [h00, zero_add] at h0; exact h0
  intro i
  fin_cases i
  · exact h00
  · exact h11

/-- Consequence of `Drawn`: no point of the search space is out of reach. For every point there is a random vector that leads
to it: the centre, the step size and the matrix do not depend on the last random draw. -/
theorem reachable_of_drawn {pts : List (Vec ℝ n × F)} {centre y : Vec ℝ n} {sigma : ℝ} {A : Matrix (Fin n) (Fin n) ℝ}
    (hs : 0 < sigma) (hA : A.det ≠ 0) : ∃! z : Vec ℝ n, y = centre + sigma • A.mulVec z := by
  have hu : IsUnit A.det := isUnit_iff_ne_zero.2 hA
  refine ⟨A⁻¹.mulVec (sigma⁻¹ • (y - centre)), ?_, ?_⟩
  · dsimp only
    rw [Matrix.mulVec_mulVec, Matrix.mul_nonsing_inv _ hu, Matrix.one_mulVec, smul_smul, mul_inv_cancel₀ hs.ne', one_smul]
    simp
  · rintro z rfl
    rw [add_sub_cancel_left, smul_smul, inv_mul_cancel₀ hs.ne', one_smul, Matrix.mulVec_mulVec,
      Matrix.nonsing_inv_mul _ hu, Matrix.one_mulVec]

open Classical in
/-- A library that meets the hypotheses exists: logarithm, exponential function and square root of the reals, spectral
decomposition, sorting. -/
noncomputable def realLib (randn : {n : ℕ} → ℕ → Fin n → ℝ) : CmaLib ℝ ℝ :=
  { log := Real.log, exp := Real.exp, pow := fun x y => x ^ y, sqrt := Real.sqrt
    eigh := fun {n} C => if h : C.IsHermitian then (h.eigenvalues, (h.eigenvectorUnitary : Matrix (Fin n) (Fin n) ℝ)) else (0, 1)
    argsort := fun f => Tuple.sort f
    randn := randn }

theorem realLib_genuine (randn : {n : ℕ} → ℕ → Fin n → ℝ) : (realLib randn).Genuine ∧ (realLib randn).Sorts := by
  refine ⟨⟨rfl, rfl, rfl, fun {n} C hC => ?_⟩, fun l f => Tuple.monotone_sort f⟩
  have h : C.IsHermitian := by
    unfold IsHermitian; rw [conjTranspose_eq_transpose_of_trivial]; exact hC
  have he : (realLib randn).eigh C = (h.eigenvalues, (h.eigenvectorUnitary : Matrix (Fin n) (Fin n) ℝ)) := by
    show (if h : C.IsHermitian then _ else _) = _
    rw [dif_pos h]
  rw [he]
  have hu := Unitary.coe_star_mul_self h.eigenvectorUnitary
  rw [Matrix.star_eq_conjTranspose, conjTranspose_eq_transpose_of_trivial] at hu
  refine ⟨?_, hu⟩
  have hs := h.spectral_theorem
  rw [Unitary.conjStarAlgAut_apply, Matrix.star_eq_conjTranspose, conjTranspose_eq_transpose_of_trivial, Matrix.mul_assoc] at hs
  exact hs.symm

/-- for dimension 1 the default population is four -/
example : cmaPopulation Real.log 1 (none : Option ℝ) = .ok ((4 : ℕ) : ℤ) := by
  unfold cmaPopulation
  simp

end QuOCS

/-
CMA-ES follows the published algorithm: C92.
-/
import Mathlib.Analysis.Matrix.Spectrum
import Verif.Lemmas.CmaReference
import Verif.Props.CmaSampling

set_option linter.unusedSectionVars false
set_option linter.unusedVariables false

namespace QuOCS
open Matrix

variable {F : Type} [Zero F] [LinearOrder F] {n L : ℕ} {lib : CmaLib ℝ F} {x0 sg : Vec ℝ n} {fuel : ℕ}

/-- **C92.** After the start point, every point at which the objective is evaluated is the mean plus the step size times the
factor of the covariance matrix times a standard normal random vector, where mean, step size and covariance matrix are those
which the published algorithm computes from the points and values of the generations before: for every population from two
on. -/
theorem C92_follows_publication (hl : lib.Genuine) (hpow : lib.pow = fun x y => x ^ y) (hsort : lib.Sorts)
    (hs : ∀ i, sg i ≠ 0) (h2 : 2 ≤ L) (hL : 0 < L)
    {evs pre post : List (Ev ℝ (Vec ℝ n) F)} {m' : Strat ℝ (Vec ℝ n) F (DsmResult (Vec ℝ n) F)}
    (hp : Plays (cmaRun lib hL fuel x0 sg) evs m') {x : Vec ℝ n} {it : ℕ} {f : F}
    (he : evs = pre ++ ⟨.eval x it, f⟩ :: post) :
    ∃ d : CmaRef.Dist n, CmaRef.Follows L x0 sg (evals pre) ((evals pre).length / L) d ∧
      x = if evals pre = [] then x0 else d.mean + d.sigma • d.factor.mulVec (lib.randn (evals pre).length) := by
  have := (hp.of_wp (A := NM.T2) (h := []) (fun _ _ _ => trivial)
    (CMA.run7 (x0 := x0) hl hpow hsort h2 fuel hs hL)).1 pre _ _ post he
  rwa [List.nil_append] at this

/-! ### what the published rules mean for the step size -/

/-- The reference length lies between `(1 - 1/(4n)) sqrt n` and `sqrt n` and is positive. -/
theorem C92_reference_length {n : ℕ} (hn : n ≠ 0) : 0 < CmaRef.chiN n ∧ Real.sqrt n * (1 - 1 / (4 * n)) ≤ CmaRef.chiN n ∧
    CmaRef.chiN n ≤ Real.sqrt n := by
  have h1 : (1 : ℝ) ≤ n := by exact_mod_cast Nat.one_le_iff_ne_zero.2 hn
  have hs : 0 < Real.sqrt n := Real.sqrt_pos.2 (by linarith)
  have ha : 1 / (4 * (n : ℝ)) ≤ 1 / 4 := by
    rw [div_le_div_iff₀ (by positivity) (by norm_num)]; linarith
  have hb : 0 < 1 / (21 * (n : ℝ) ^ 2) := by positivity
  have hc : 1 / (21 * (n : ℝ) ^ 2) ≤ 1 / (4 * (n : ℝ)) := by
    rw [div_le_div_iff₀ (by positivity) (by positivity)]; nlinarith
  unfold CmaRef.chiN
  refine ⟨mul_pos hs (by linarith), mul_le_mul_of_nonneg_left (by linarith) hs.le, ?_⟩
  calc Real.sqrt n * (1 - 1 / (4 * n) + 1 / (21 * n ^ 2)) ≤ Real.sqrt n * 1 :=
        mul_le_mul_of_nonneg_left (by linarith) hs.le
    _ = Real.sqrt n := mul_one _

theorem C92_rates {n mu : ℕ} (hm : 1 ≤ CmaRef.mueff mu) : 0 < CmaRef.cs n mu ∧ CmaRef.cs n mu < 1 ∧
    1 < CmaRef.damps n mu := by
  have hn : (0 : ℝ) ≤ n := Nat.cast_nonneg n
  have hc : 0 < CmaRef.cs n mu := by unfold CmaRef.cs; positivity
  refine ⟨hc, ?_, ?_⟩
  · unfold CmaRef.cs
    rw [div_lt_one (by positivity)]
    linarith
  · unfold CmaRef.damps
    have := le_max_left (0 : ℝ) (Real.sqrt ((CmaRef.mueff mu - 1) / (n + 1)) - 1)
    linarith

/-- The step size grows in a generation iff the path of the step size is longer than the reference length; in one generation
it shrinks at most by the factor `exp (-1)`; it stays positive. -/
theorem C92_step_size {n L evals : ℕ} (hn : n ≠ 0) (hL : 2 ≤ L) {best : Fin (L / 2) → Fin n → ℝ} {d d' : CmaRef.Dist n}
    (hs : 0 < d.sigma) (h : CmaRef.Step L evals best d d') :
    (d.sigma < d'.sigma ↔ CmaRef.chiN n < CmaRef.len d'.ps) ∧ (d'.sigma < d.sigma ↔ CmaRef.len d'.ps < CmaRef.chiN n) ∧
    d.sigma * Real.exp (-1) ≤ d'.sigma ∧ 0 < d'.sigma := by
  obtain ⟨hcs, hcs1, hda⟩ := C92_rates (n := n) (mu := L / 2) (C29_mueff_range hL).1
  have hchi := (C92_reference_length hn).1
  have hr : 0 < CmaRef.cs n (L / 2) / CmaRef.damps n (L / 2) := div_pos hcs (by linarith)
  have hr1 : CmaRef.cs n (L / 2) / CmaRef.damps n (L / 2) ≤ 1 := (div_le_one (by linarith)).2 (by linarith)
  have hlen : 0 ≤ CmaRef.len d'.ps / CmaRef.chiN n := div_nonneg (Real.sqrt_nonneg _) hchi.le
  have hneg : ∀ b, CmaRef.cs n (L / 2) / CmaRef.damps n (L / 2) * b < 0 ↔ b < 0 := fun b =>
    ⟨fun hb => by by_contra h0; exact absurd hb (not_lt.2 (mul_nonneg hr.le (not_lt.1 h0))), mul_neg_of_pos_of_neg hr⟩
  rw [h.sigma]
  refine ⟨?_, ?_, ?_, mul_pos hs (Real.exp_pos _)⟩
  · rw [lt_mul_iff_one_lt_right hs, Real.one_lt_exp_iff, mul_pos_iff_of_pos_left hr, sub_pos, one_lt_div hchi]
  · rw [mul_lt_iff_lt_one_right hs, Real.exp_lt_one_iff, hneg, sub_neg, div_lt_one hchi]
  · refine mul_le_mul_of_nonneg_left (Real.exp_le_exp.2 ?_) hs.le
    nlinarith

/-- A library with these functions exists. -/
example (randn : {n : ℕ} → ℕ → Fin n → ℝ) : (realLib randn).pow = fun x y => x ^ y := rfl

/-- A play with a point of the second generation: population two, the search is not stopped after the first generation. -/
example (randn : {n : ℕ} → ℕ → Fin n → ℝ) : ∃ pre x it m',
    Plays (cmaRun (realLib randn) (L := 2) (n := 1) two_pos 2 (fun _ => 3) (fun _ => 1)) (pre ++ [⟨.eval x it, (5 : ℝ)⟩]) m' ∧
    (evals pre).length = 2 :=
  ⟨[⟨.setConv false, ()⟩, ⟨.readConv, false⟩, ⟨.eval _ 1, (7 : ℝ)⟩, ⟨.eval _ 1, (6 : ℝ)⟩, ⟨.callback, true⟩,
      ⟨.checkCMA _ _, ()⟩, ⟨.readConv, false⟩], _, _, _,
    .cons _ _ _ _ _ (.cons _ _ _ _ _ (.cons _ _ _ _ _ (.cons _ _ _ _ _ (.cons _ _ _ _ _ (.cons _ _ _ _ _ (.cons _ _ _ _ _
      (.cons _ _ _ _ _ (.nil _)))))))), rfl⟩

end QuOCS

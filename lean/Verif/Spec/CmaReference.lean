/-
The published CMA-ES (N. Hansen, "The CMA Evolution Strategy: A Tutorial"; the program `purecmaes.m`), written from the
publication with real numbers and without reference to the model of the code.
-/
import Mathlib.Analysis.SpecialFunctions.Log.Basic
import Mathlib.Analysis.SpecialFunctions.Pow.Real
import Mathlib.LinearAlgebra.Matrix.PosDef
import Mathlib.Data.Matrix.Mul

namespace QuOCS
namespace CmaRef

/-- Weight number `i` (from 0) of `mu` recombination weights: proportional to `log (mu + 1/2) - log (i + 1)`, with sum one. -/
noncomputable def weight (mu : ℕ) (i : Fin mu) : ℝ :=
  (Real.log (mu + 1 / 2) - Real.log (i + 1)) / ∑ j : Fin mu, (Real.log (mu + 1 / 2) - Real.log (j + 1))

/-- Variance effective selection mass. -/
noncomputable def mueff (mu : ℕ) : ℝ := 1 / ∑ i : Fin mu, weight mu i ^ 2

/-- Learning rate of the path of the step size, for dimension `n`. -/
noncomputable def cs (n mu : ℕ) : ℝ := (mueff mu + 2) / (n + mueff mu + 5)

/-- Learning rate of the path of the covariance matrix. -/
noncomputable def cc (n mu : ℕ) : ℝ := (4 + mueff mu / n) / (n + 4 + 2 * mueff mu / n)

/-- Learning rate of the rank-one update. -/
noncomputable def c1 (n mu : ℕ) : ℝ := 2 / ((n + 1.3) ^ 2 + mueff mu)

/-- Learning rate of the rank-`mu` update. -/
noncomputable def cmu (n mu : ℕ) : ℝ :=
  min (1 - c1 n mu) (2 * (mueff mu - 2 + 1 / mueff mu) / ((n + 2) ^ 2 + mueff mu))

/-- Damping of the step size. -/
noncomputable def damps (n mu : ℕ) : ℝ := 1 + 2 * max 0 (Real.sqrt ((mueff mu - 1) / (n + 1)) - 1) + cs n mu

/-- Approximation of the mean length of a standard normal random vector. -/
noncomputable def chiN (n : ℕ) : ℝ := Real.sqrt n * (1 - 1 / (4 * n) + 1 / (21 * n ^ 2))

/-- Euclidean length. -/
noncomputable def len {n : ℕ} (v : Fin n → ℝ) : ℝ := Real.sqrt (∑ i, v i ^ 2)

/-- The state of the search distribution: mean, step size, the two evolution paths, the covariance matrix, a factor of the
covariance matrix decomposed last (used for sampling) and its inverse square root. -/
structure Dist (n : ℕ) where
  mean : Fin n → ℝ
  sigma : ℝ
  ps : Fin n → ℝ
  pc : Fin n → ℝ
  C : Matrix (Fin n) (Fin n) ℝ
  factor : Matrix (Fin n) (Fin n) ℝ
  invsqrt : Matrix (Fin n) (Fin n) ℝ

/-- The distribution at the start: around the start point, with the start sizes as standard deviations. -/
noncomputable def start {n : ℕ} (x0 sizes : Fin n → ℝ) : Dist n :=
  { mean := x0, sigma := 1, ps := 0, pc := 0, C := Matrix.diagonal fun i => sizes i ^ 2
    factor := Matrix.diagonal sizes, invsqrt := Matrix.diagonal fun i => (sizes i)⁻¹ }

/-- The path of the step size is not too long (the step function `h_sigma` of the publication is one). -/
def NotStalled {n : ℕ} (mu lambda evals : ℕ) (ps : Fin n → ℝ) : Prop :=
  len ps / Real.sqrt (1 - (1 - cs n mu) ^ (2 * (evals : ℝ) / lambda)) / chiN n < 1.4 + 2 / (n + 1)

/-- `d'` is the distribution after a generation with the selected points `best` (best one first); `lambda` is the size of the
population and `evals` the number of evaluations up to the end of that generation. -/
structure Step {n mu : ℕ} (lambda evals : ℕ) (best : Fin mu → Fin n → ℝ) (d d' : Dist n) : Prop where
  mean : ∀ i, d'.mean i = ∑ k, weight mu k * best k i
  ps : ∀ i, d'.ps i = (1 - cs n mu) * d.ps i + Real.sqrt (cs n mu * (2 - cs n mu) * mueff mu) *
    (d.invsqrt.mulVec (d'.mean - d.mean) i / d.sigma)
  pc : NotStalled mu lambda evals d'.ps →
    ∀ i, d'.pc i = (1 - cc n mu) * d.pc i +
      Real.sqrt (cc n mu * (2 - cc n mu) * mueff mu) * ((d'.mean i - d.mean i) / d.sigma)
  pcStalled : ¬ NotStalled mu lambda evals d'.ps → ∀ i, d'.pc i = (1 - cc n mu) * d.pc i
  C : NotStalled mu lambda evals d'.ps →
    ∀ i j, d'.C i j = (1 - c1 n mu - cmu n mu) * d.C i j + c1 n mu * (d'.pc i * d'.pc j) +
      cmu n mu * ∑ k, weight mu k * ((best k i - d.mean i) / d.sigma * ((best k j - d.mean j) / d.sigma))
  CStalled : ¬ NotStalled mu lambda evals d'.ps →
    ∀ i j, d'.C i j = (1 - c1 n mu - cmu n mu) * d.C i j +
      c1 n mu * (d'.pc i * d'.pc j + cc n mu * (2 - cc n mu) * d.C i j) +
      cmu n mu * ∑ k, weight mu k * ((best k i - d.mean i) / d.sigma * ((best k j - d.mean j) / d.sigma))
  sigma : d'.sigma = d.sigma * Real.exp (cs n mu / damps n mu * (len d'.ps / chiN n - 1))
  /-- the covariance matrix is decomposed unless too few evaluations were made since the start; it has an inverse square root
  if it is not singular -/
  decomposed : (evals : ℝ) > lambda / (c1 n mu + cmu n mu) / n / 10 →
    d'.factor * d'.factor.transpose = d'.C ∧ (d'.C.det ≠ 0 → d'.invsqrt.PosDef ∧ d'.invsqrt * d'.C * d'.invsqrt = 1)
  postponed : ¬ (evals : ℝ) > lambda / (c1 n mu + cmu n mu) / n / 10 →
    d'.factor = d.factor ∧ d'.invsqrt = d.invsqrt

/-- `best` are the points of the better half of generation `g` (from 0), best one first; `pts` are all points with their
values, `lambda` per generation. -/
def Selected {n : ℕ} {F : Type} [LE F] (lambda : ℕ) (pts : List ((Fin n → ℝ) × F)) (g : ℕ)
    (best : Fin (lambda / 2) → Fin n → ℝ) : Prop :=
  ∃ sel : Fin (lambda / 2) → Fin lambda, Function.Injective sel ∧ ∃ pt : Fin lambda → (Fin n → ℝ) × F,
    (∀ k : Fin lambda, pts[lambda * g + (k : ℕ)]? = some (pt k)) ∧
    (∀ i j, i ≤ j → (pt (sel i)).2 ≤ (pt (sel j)).2) ∧
    (∀ k, k ∉ Set.range sel → ∀ i, (pt (sel i)).2 ≤ (pt k).2) ∧ ∀ i, best i = (pt (sel i)).1

/-- `d` is the distribution of generation `g`, given the points and values `pts` of the generations before. -/
inductive Follows {n : ℕ} {F : Type} [LE F] (lambda : ℕ) (x0 sizes : Fin n → ℝ) (pts : List ((Fin n → ℝ) × F)) :
    ℕ → Dist n → Prop
  | start : Follows lambda x0 sizes pts 0 (CmaRef.start x0 sizes)
  | next {g : ℕ} {d d' : Dist n} {best : Fin (lambda / 2) → Fin n → ℝ} (before : Follows lambda x0 sizes pts g d)
      (selected : Selected lambda pts g best) (step : Step lambda (lambda * (g + 1)) best d d') :
      Follows lambda x0 sizes pts (g + 1) d'

end CmaRef
end QuOCS

/-
The slope computed by the change-based stop is the slope of the least-squares line.
-/
import Mathlib.Algebra.BigOperators.Group.Finset.Basic
import Mathlib.Algebra.BigOperators.Fin
import Mathlib.Algebra.BigOperators.Ring.Finset
import Mathlib.Algebra.Order.BigOperators.Group.Finset
import Mathlib.Tactic.LinearCombination
import Mathlib.Tactic.Linarith
import Mathlib.Tactic.FieldSimp
import Mathlib.Tactic.Ring
import Mathlib.Tactic.Positivity
import Verif.Spec.Stopping

set_option linter.unusedSectionVars false
set_option linter.unusedVariables false

namespace QuOCS
open Finset

variable {F : Type} [Field F] [LinearOrder F] [IsStrictOrderedRing F]

theorem sum_mapIdx (f : List F) (g : ℕ → F → F) :
    (f.mapIdx g).sum = ∑ i ∈ range f.length, g i (f.getD i 0) := by
  induction f generalizing g with
  | nil => simp
  | cons y f ih =>
    rw [List.mapIdx_cons, List.sum_cons, ih, List.length_cons, sum_range_succ']
    simp [add_comm]

theorem sum_map_range (n : ℕ) (g : ℕ → F) : ((List.range n).map g).sum = ∑ i ∈ range n, g i := by
  induction n with
  | zero => simp
  | succ n ih => rw [List.range_succ, List.map_append, List.sum_append, ih, sum_range_succ]; simp

theorem sum_list (f : List F) : f.sum = ∑ i ∈ range f.length, f.getD i 0 := by
  induction f with
  | nil => simp
  | cons y f ih => rw [List.sum_cons, ih, List.length_cons, sum_range_succ']; simp [add_comm]

theorem sum_zipWith_range (f : List F) (k : ℕ) :
    (List.zipWith (· * ·) ((List.range' k f.length).map (fun i : ℕ => (i : F))) f).sum =
      ∑ i ∈ range f.length, ((k + i : ℕ) : F) * f.getD i 0 := by
  induction f generalizing k with
  | nil => simp
  | cons y f ih =>
    rw [List.length_cons, List.range'_succ, List.map_cons, List.zipWith_cons_cons, List.sum_cons, ih, sum_range_succ']
    simp only [List.getD_cons_succ, List.getD_cons_zero, Nat.add_zero]
    rw [add_comm]
    refine congrArg₂ _ (sum_congr rfl fun i _ => ?_) rfl
    push_cast; ring

theorem two_sum_range (n : ℕ) : 2 * ∑ i ∈ range n, (i : F) = n * (n - 1) := by
  induction n with
  | zero => simp
  | succ n ih => rw [sum_range_succ, mul_add, ih]; push_cast; ring

theorem six_sum_sq (n : ℕ) : 6 * ∑ i ∈ range n, (i : F) * i = (n - 1) * n * (2 * n - 1) := by
  induction n with
  | zero => simp
  | succ n ih => rw [sum_range_succ, mul_add, ih]; push_cast; ring

/-- the determinant of the normal equations -/
theorem det_pos (n : ℕ) (hn : 2 ≤ n) :
    0 < (n : F) * (∑ i ∈ range n, (i : F) * i) - (∑ i ∈ range n, (i : F)) * ∑ i ∈ range n, (i : F) := by
  have h1 := two_sum_range (F := F) n
  have h2 := six_sum_sq (F := F) n
  set A := ∑ i ∈ range n, (i : F)
  set B := ∑ i ∈ range n, (i : F) * i
  have hn2 : (2 : F) ≤ n := by exact_mod_cast hn
  have e : 12 * ((n : F) * B - A * A) = (n : F) * n * (n * n - 1) := by
    have : 12 * ((n : F) * B - A * A) = 2 * n * (6 * B) - 3 * ((2 * A) * (2 * A)) := by ring
    rw [this, h1, h2]; ring
  have : 0 < (n : F) * n * (n * n - 1) := by
    have h3 : (0 : F) < n * n - 1 := by nlinarith
    have : (0 : F) < n := by linarith
    positivity
  linarith

variable (f : List F)

theorem lineError_eq (a b : F) :
    lineError f a b = ∑ i ∈ range f.length, (f.getD i 0 - (a * (i : F) + b)) ^ 2 := by
  unfold lineError
  rw [sum_mapIdx]

/-- the intercept that belongs to the slope -/
def lsIntercept : F := (f.sum - lsSlope f * ∑ i ∈ range f.length, (i : F)) / (f.length : F)

theorem lsSlope_eq : lsSlope f =
    ((f.length : F) * (∑ i ∈ range f.length, (i : F) * f.getD i 0) - (∑ i ∈ range f.length, (i : F)) * ∑ i ∈ range f.length, f.getD i 0) /
      ((f.length : F) * (∑ i ∈ range f.length, (i : F) * i) - (∑ i ∈ range f.length, (i : F)) * ∑ i ∈ range f.length, (i : F)) := by
  unfold lsSlope
  dsimp only
  have hz := sum_zipWith_range f 0
  rw [← List.range_eq_range'] at hz
  rw [hz, List.map_map, sum_map_range, sum_list f]
  have : (∑ i ∈ range f.length, ((fun x : F => x * x) ∘ fun i : ℕ => (i : F)) i) = ∑ i ∈ range f.length, (i : F) * i := rfl
  rw [sum_map_range, this]
  simp only [Nat.zero_add]

/-- the residuals are orthogonal to lines -/
theorem normal_equations (hn : 2 ≤ f.length) :
    (∑ i ∈ range f.length, (f.getD i 0 - (lsSlope f * (i : F) + lsIntercept f))) = 0 ∧
    (∑ i ∈ range f.length, (i : F) * (f.getD i 0 - (lsSlope f * (i : F) + lsIntercept f))) = 0 := by
  have hD := det_pos (F := F) f.length hn
  have hN : (f.length : F) ≠ 0 := by
    have : 0 < f.length := by omega
    exact_mod_cast this.ne'
  have e1 : (∑ i ∈ range f.length, (f.getD i 0 - (lsSlope f * (i : F) + lsIntercept f))) =
      (∑ i ∈ range f.length, f.getD i 0) - lsSlope f * (∑ i ∈ range f.length, (i : F)) - f.length * lsIntercept f := by
    rw [sum_sub_distrib, sum_add_distrib, ← mul_sum]
    simp only [sum_const, card_range, nsmul_eq_mul]
    ring
  have e2 : (∑ i ∈ range f.length, (i : F) * (f.getD i 0 - (lsSlope f * (i : F) + lsIntercept f))) =
      (∑ i ∈ range f.length, (i : F) * f.getD i 0) - lsSlope f * (∑ i ∈ range f.length, (i : F) * i) -
        lsIntercept f * ∑ i ∈ range f.length, (i : F) := by
    rw [mul_sum, mul_sum, ← sum_sub_distrib, ← sum_sub_distrib]
    exact sum_congr rfl fun i _ => by ring
  rw [e1, e2]
  unfold lsIntercept
  have ha := lsSlope_eq f
  rw [eq_div_iff hD.ne'] at ha
  rw [sum_list f]
  generalize lsSlope f = a at ha ⊢
  set N : F := (f.length : F)
  set X := ∑ i ∈ range f.length, (i : F)
  set Y := ∑ i ∈ range f.length, f.getD i 0
  set XY := ∑ i ∈ range f.length, (i : F) * f.getD i 0
  set XX := ∑ i ∈ range f.length, (i : F) * i
  constructor
  · field_simp; ring
  · field_simp; linear_combination -ha

theorem lineError_split (hn : 2 ≤ f.length) (a b : F) :
    lineError f a b = lineError f (lsSlope f) (lsIntercept f) +
      ∑ i ∈ range f.length, ((lsSlope f - a) * (i : F) + (lsIntercept f - b)) ^ 2 := by
  obtain ⟨h1, h2⟩ := normal_equations f hn
  have e : lineError f a b = lineError f (lsSlope f) (lsIntercept f) +
      (∑ i ∈ range f.length, ((lsSlope f - a) * (i : F) + (lsIntercept f - b)) ^ 2) +
      2 * (lsSlope f - a) * (∑ i ∈ range f.length, (i : F) * (f.getD i 0 - (lsSlope f * (i : F) + lsIntercept f))) +
      2 * (lsIntercept f - b) * ∑ i ∈ range f.length, (f.getD i 0 - (lsSlope f * (i : F) + lsIntercept f)) := by
    rw [lineError_eq, lineError_eq, mul_sum, mul_sum, ← sum_add_distrib, ← sum_add_distrib, ← sum_add_distrib]
    exact sum_congr rfl fun i _ => by ring
  rw [e, h1, h2]; ring

/-- the computed line is a least-squares line -/
theorem lsSlope_isLeastSquares (hn : 2 ≤ f.length) : IsLeastSquaresLine f (lsSlope f) (lsIntercept f) := by
  intro a b
  rw [lineError_split f hn a b]
  have : 0 ≤ ∑ i ∈ range f.length, ((lsSlope f - a) * (i : F) + (lsIntercept f - b)) ^ 2 :=
    sum_nonneg fun i _ => sq_nonneg _
  linarith

/-- and the only one -/
theorem leastSquares_unique (hn : 2 ≤ f.length) {a b : F} (h : IsLeastSquaresLine f a b) : a = lsSlope f := by
  have h1 := h (lsSlope f) (lsIntercept f)
  rw [lineError_split f hn a b] at h1
  have h2 : ∑ i ∈ range f.length, ((lsSlope f - a) * (i : F) + (lsIntercept f - b)) ^ 2 = 0 :=
    le_antisymm (by linarith) (sum_nonneg fun i _ => sq_nonneg _)
  rw [sum_eq_zero_iff_of_nonneg fun i _ => sq_nonneg _] at h2
  have h3 := h2 0 (mem_range.2 (by omega))
  have h4 := h2 1 (mem_range.2 (by omega))
  simp only [Nat.cast_zero, mul_zero, zero_add, Nat.cast_one, mul_one] at h3 h4
  have h3 := pow_eq_zero_iff (two_ne_zero) |>.1 h3
  have h4 := pow_eq_zero_iff (two_ne_zero) |>.1 h4
  linarith

theorem pyAbs_eq (x : F) : pyAbs x = |x| := by
  unfold pyAbs
  split
  · rename_i h; rw [abs_of_neg h]
  · rename_i h; rw [abs_of_nonneg (not_lt.1 h)]

end QuOCS

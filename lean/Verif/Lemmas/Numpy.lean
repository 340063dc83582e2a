/-
Helper lemmas about the NumPy built-ins.
-/
import Verif.Model.Numpy
import Mathlib.Tactic.Linarith
import Mathlib.Tactic.FieldSimp
import Mathlib.Tactic.Ring
import Mathlib.Tactic.Positivity
import Mathlib.Data.Rat.Cast.Order
import Mathlib.Algebra.Order.Ring.Rat
import Mathlib.Algebra.Field.Rat

set_option linter.unusedSectionVars false

namespace QuOCS

section
variable {K : Type*}

theorem getIdx_ok {α : Type*} {xs : List α} {i : ℕ} {x : α} : getIdx xs i = .ok x ↔ xs[i]? = some x := by
  unfold getIdx; split <;> simp_all

theorem getIdx_of_lt {α : Type*} {xs : List α} {i : ℕ} (h : i < xs.length) : getIdx xs i = .ok xs[i] := by
  rw [getIdx_ok]; simp [h]

theorem foldl_max_spec [LinearOrder K] (xs : List K) (a : K) :
    (xs.foldl max a = a ∨ xs.foldl max a ∈ xs) ∧ a ≤ xs.foldl max a ∧ ∀ x ∈ xs, x ≤ xs.foldl max a := by
  induction xs generalizing a with
  | nil => simp
  | cons y ys ih =>
    obtain ⟨h1, h2, h3⟩ := ih (max a y)
    simp only [List.foldl_cons]
    refine ⟨?_, le_trans (le_max_left _ _) h2, ?_⟩
    · rcases h1 with h1 | h1
      · rw [h1]; rcases max_choice a y with h | h <;> simp [h]
      · right; simp [h1]
    · intro x hx
      rcases List.mem_cons.1 hx with rfl | hx
      · exact le_trans (le_max_right _ _) h2
      · exact h3 x hx

theorem foldl_min_spec [LinearOrder K] (xs : List K) (a : K) :
    (xs.foldl min a = a ∨ xs.foldl min a ∈ xs) ∧ xs.foldl min a ≤ a ∧ ∀ x ∈ xs, xs.foldl min a ≤ x := by
  induction xs generalizing a with
  | nil => simp
  | cons y ys ih =>
    obtain ⟨h1, h2, h3⟩ := ih (min a y)
    simp only [List.foldl_cons]
    refine ⟨?_, le_trans h2 (min_le_left _ _), ?_⟩
    · rcases h1 with h1 | h1
      · rw [h1]; rcases min_choice a y with h | h <;> simp [h]
      · right; simp [h1]
    · intro x hx
      rcases List.mem_cons.1 hx with rfl | hx
      · exact le_trans h2 (min_le_right _ _)
      · exact h3 x hx

theorem amax_ok [LinearOrder K] {u : List K} {m : K} (h : amax u = .ok m) : m ∈ u ∧ ∀ x ∈ u, x ≤ m := by
  cases u with
  | nil => simp [amax] at h
  | cons a xs =>
    simp only [amax, Except.ok.injEq] at h
    subst h
    obtain ⟨h1, h2, h3⟩ := foldl_max_spec xs a
    refine ⟨?_, ?_⟩
    · rcases h1 with h1 | h1 <;> simp [h1]
    · intro x hx
      rcases List.mem_cons.1 hx with rfl | hx
      exacts [h2, h3 x hx]

theorem amin_ok [LinearOrder K] {u : List K} {m : K} (h : amin u = .ok m) : m ∈ u ∧ ∀ x ∈ u, m ≤ x := by
  cases u with
  | nil => simp [amin] at h
  | cons a xs =>
    simp only [amin, Except.ok.injEq] at h
    subst h
    obtain ⟨h1, h2, h3⟩ := foldl_min_spec xs a
    refine ⟨?_, ?_⟩
    · rcases h1 with h1 | h1 <;> simp [h1]
    · intro x hx
      rcases List.mem_cons.1 hx with rfl | hx
      exacts [h2, h3 x hx]

theorem amax_exists [LinearOrder K] {u : List K} (h : u ≠ []) : ∃ m, amax u = .ok m := by
  cases u <;> simp_all [amax]

theorem amin_exists [LinearOrder K] {u : List K} (h : u ≠ []) : ∃ m, amin u = .ok m := by
  cases u <;> simp_all [amin]

/-- `bind` of two Python computations succeeds iff both succeed. -/
theorem py_bind_ok.{u} {α β : Type u} {m : Py α} {f : α → Py β} {b : β} :
    (m >>= f) = .ok b ↔ ∃ a, m = .ok a ∧ f a = .ok b := by
  cases m <;> simp [bind, Except.bind]

theorem py_pure_ok {α : Type*} {a b : α} : (pure a : Py α) = .ok b ↔ a = b := by
  simp [pure, Except.pure]

theorem bop_length {f : K → K → K} {a b r : List K} (h : bop f a b = .ok r) :
    (a.length = b.length ∧ r.length = a.length) ∨ (a.length = 1 ∧ r.length = b.length) ∨
      (b.length = 1 ∧ r.length = a.length) := by
  unfold bop at h
  split at h
  · rename_i hl
    simp only [Except.ok.injEq] at h; subst h
    left; simp [hl]
  · split at h
    · rename_i h1
      match a, h1 with
      | [x], _ =>
        simp only [Except.ok.injEq] at h; subst h
        right; left; simp
    · split at h
      · rename_i h1
        match b, h1 with
        | [x], _ =>
          simp only [Except.ok.injEq] at h; subst h
          right; right; simp
      · simp at h

theorem bop_eq {f : K → K → K} {a b : List K} (h : a.length = b.length) :
    bop f a b = .ok (List.zipWith f a b) := by simp [bop, h]

theorem iadd_eq [Add K] {a b : List K} (h : a.length = b.length) :
    iadd a b = .ok (List.zipWith (· + ·) a b) := by simp [iadd, h]

theorem iadd_length [Add K] {a b r : List K} (h : iadd a b = .ok r) : r.length = a.length := by
  unfold iadd at h
  split at h
  · rename_i hl
    simp only [Except.ok.injEq] at h; subst h; simp [hl]
  · split at h
    · simp only [Except.ok.injEq] at h; subst h; simp
    · simp at h

theorem zeros_length [Zero K] (n : ℕ) : (zeros n : List K).length = n := by simp [zeros]

theorem linspace0_length [Field K] (T : K) (n : ℕ) : (linspace0 T n).length = n := by simp [linspace0]

end
end QuOCS

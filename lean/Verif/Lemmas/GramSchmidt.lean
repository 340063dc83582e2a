/-
Gram-Schmidt orthonormalization over the reals.
-/
import Mathlib.Analysis.Real.Sqrt
import Mathlib.Algebra.Order.BigOperators.Ring.Finset
import Mathlib.LinearAlgebra.Matrix.NonsingularInverse
import Mathlib.Tactic.Linarith
import Mathlib.Tactic.FieldSimp
import Verif.Model.LinearAlgebra

set_option linter.unusedSectionVars false
set_option linter.unusedVariables false

namespace QuOCS
namespace GS
open Matrix

variable {n : ℕ} {us vs : List (Vec ℝ n)} {u v w : Vec ℝ n}

theorem norm_sq (v : Vec ℝ n) : vecNorm Real.sqrt v ^ 2 = v ⬝ᵥ v := by
  unfold vecNorm
  rw [Real.sq_sqrt (Finset.sum_nonneg fun i _ => sq_nonneg _)]
  simp only [dotProduct, pow_two]

theorem self_pos (h : v ≠ 0) : 0 < v ⬝ᵥ v := by
  obtain ⟨i, hi⟩ := Function.ne_iff.1 h
  simp only [dotProduct]
  exact Finset.sum_pos' (fun j _ => mul_self_nonneg _) ⟨i, Finset.mem_univ _, mul_self_pos.2 hi⟩

theorem norm_ne (h : v ≠ 0) : vecNorm Real.sqrt v ≠ 0 := by
  intro h0
  have := norm_sq v
  rw [h0] at this
  have := self_pos h
  simp_all

/-- orthonormal list -/
def ONs (us : List (Vec ℝ n)) : Prop := us.Pairwise (fun a b => a ⬝ᵥ b = 0) ∧ ∀ u ∈ us, u ⬝ᵥ u = 1

/-- the projection is orthogonal to the columns treated, and keeps the products with vectors orthogonal to all of them -/
theorem project_spec (h : ONs us) (v : Vec ℝ n) :
    (∀ u ∈ us, u ⬝ᵥ gsProject Real.sqrt us v = 0) ∧
      ∀ w, (∀ u ∈ us, w ⬝ᵥ u = 0) → w ⬝ᵥ gsProject Real.sqrt us v = w ⬝ᵥ v := by
  induction us generalizing v with
  | nil => exact ⟨fun u hu => (by cases hu), fun w _ => rfl⟩
  | cons a us ih =>
    have ha : a ⬝ᵥ a = 1 := h.2 a (by simp)
    have hau : ∀ u ∈ us, a ⬝ᵥ u = 0 := (List.pairwise_cons.1 h.1).1
    have hus : ONs us := ⟨(List.pairwise_cons.1 h.1).2, fun u hu => h.2 u (by simp [hu])⟩
    set v' : Vec ℝ n := v - ((a ⬝ᵥ v) / vecNorm Real.sqrt a ^ 2) • a with hv'
    have hg : gsProject Real.sqrt (a :: us) v = gsProject Real.sqrt us v' := rfl
    obtain ⟨h1, h2⟩ := ih hus v'
    rw [hg]
    have key : ∀ w, w ⬝ᵥ v' = w ⬝ᵥ v - (a ⬝ᵥ v) * (w ⬝ᵥ a) := by
      intro w
      rw [hv', norm_sq, ha, div_one, dotProduct_sub, dotProduct_smul, smul_eq_mul]
    refine ⟨fun u hu => ?_, fun w hw => ?_⟩
    · rcases List.mem_cons.1 hu with rfl | hu
      · rw [h2 u hau, key, ha]; ring
      · exact h1 u hu
    · rw [h2 w (fun u hu => hw u (by simp [hu])), key, hw a (by simp)]; ring

/-- every column is not a combination of the columns before it: some direction orthogonal to them sees it -/
def Sep (before : List (Vec ℝ n)) : List (Vec ℝ n) → Prop
  | [] => True
  | v :: vs => (∃ w, w ⬝ᵥ v ≠ 0 ∧ ∀ u ∈ before, w ⬝ᵥ u = 0) ∧ Sep (before ++ [v]) vs

theorem gs_spec {before done : List (Vec ℝ n)} (hd : ONs done) (hb : ∀ w, (∀ u ∈ before, w ⬝ᵥ u = 0) → ∀ u ∈ done, w ⬝ᵥ u = 0)
    (hs : Sep before vs) : ONs (gramSchmidt Real.sqrt done vs) ∧
      (gramSchmidt Real.sqrt done vs).length = done.length + vs.length := by
  induction vs generalizing before done with
  | nil => exact ⟨hd, rfl⟩
  | cons v vs ih =>
    obtain ⟨⟨w, hw, hwb⟩, hs⟩ := hs
    obtain ⟨h1, h2⟩ := project_spec hd v
    set p := gsProject Real.sqrt done v with hp
    have hpne : p ≠ 0 := by
      intro h0
      have := h2 w (hb w hwb)
      rw [h0, dotProduct_zero] at this
      exact hw this.symm
    have hn := norm_ne hpne
    have k1 : ONs (done ++ [(vecNorm Real.sqrt p)⁻¹ • p]) := by
      constructor
      · rw [List.pairwise_append]
        refine ⟨hd.1, List.pairwise_singleton _ _, fun a ha b hb => ?_⟩
        rw [List.mem_singleton] at hb
        rw [hb, dotProduct_smul, h1 a ha, smul_zero]
      · intro u hu
        rcases List.mem_append.1 hu with hu | hu
        · exact hd.2 u hu
        · rw [List.mem_singleton] at hu
          rw [hu, dotProduct_smul, smul_dotProduct, ← norm_sq]
          simp only [smul_eq_mul]
          field_simp
    have k2 : ∀ x, (∀ u ∈ before ++ [v], x ⬝ᵥ u = 0) → ∀ u ∈ done ++ [(vecNorm Real.sqrt p)⁻¹ • p], x ⬝ᵥ u = 0 := by
      intro x hx u hu
      rcases List.mem_append.1 hu with hu | hu
      · exact hb x (fun a ha => hx a (by simp [ha])) u hu
      · rw [List.mem_singleton] at hu
        rw [hu, dotProduct_smul, h2 x (hb x fun a ha => hx a (by simp [ha])), hx v (by simp), smul_zero]
    unfold gramSchmidt
    obtain ⟨i1, i2⟩ := ih k1 k2 hs
    refine ⟨i1, ?_⟩
    rw [i2]; simp; omega

/-- the rows of the start matrix of `simplex_creation` -/
theorem sep_rows (r : Vec ℝ n) (h0 : ∀ i : Fin n, (i : ℕ) = 0 → 1 + Real.sqrt 3 * (r i - 1 / 2) * 2 ≠ 0)
    (done todo : List (Fin n)) (hd : List.finRange n = done ++ todo) :
    Sep (done.map (simplexRow Real.sqrt r)) (todo.map (simplexRow Real.sqrt r)) := by
  induction todo generalizing done with
  | nil => trivial
  | cons i todo ih =>
    have hnd : i ∉ done := by
      have := List.nodup_finRange n
      rw [hd] at this
      exact fun hm => (List.nodup_append.1 this).2.2 i hm i (by simp) rfl
    refine ⟨?_, ?_⟩
    · have hn : 0 < n := by have := i.2; omega
      let o : Fin n := ⟨0, hn⟩
      set c : Vec ℝ n := fun j => Real.sqrt 3 * (r j - 1 / 2) * 2 with hc
      by_cases hi : (i : ℕ) = 0
      · refine ⟨Pi.single i 1, ?_, fun u hu => ?_⟩
        · simp only [simplexRow, hi, if_true, single_dotProduct, Pi.add_apply, Pi.single_eq_same, one_mul]
          exact h0 i hi
        · obtain ⟨k, hk, rfl⟩ := List.mem_map.1 hu
          -- nothing comes before the first row
          exfalso
          have hpos : done.length = 0 := by
            by_contra hne
            have hlen : 0 < done.length := Nat.pos_of_ne_zero hne
            have h1 : (List.finRange n)[done.length]? = some i := by rw [hd]; simp
            rw [List.getElem?_eq_some_iff] at h1
            obtain ⟨hlt, h1⟩ := h1
            rw [List.getElem_finRange] at h1
            have := congrArg Fin.val h1
            simp at this
            omega
          rw [List.length_eq_zero_iff.1 hpos] at hk
          cases hk
      · have hio : i ≠ o := fun h => hi (by rw [h])
        have hoo : (1 + c o) ≠ 0 := h0 o rfl
        refine ⟨Pi.single i 1 - Pi.single o (c i / (1 + c o)), ?_, fun u hu => ?_⟩
        · simp only [simplexRow, hi, if_false, add_zero, sub_dotProduct, single_dotProduct, Pi.single_eq_same]
          rw [Pi.single_eq_of_ne hio.symm]
          norm_num
        · obtain ⟨k, hk, rfl⟩ := List.mem_map.1 hu
          have hki : k ≠ i := fun h => hnd (h ▸ hk)
          by_cases hk0 : (k : ℕ) = 0
          · have hko : k = o := Fin.ext hk0
            subst hko
            simp only [simplexRow, hk0, if_true, sub_dotProduct, single_dotProduct, Pi.add_apply, Pi.single_eq_same]
            rw [Pi.single_eq_of_ne hio]
            have : c i / (1 + c o) * (1 + c o) = c i := div_mul_cancel₀ _ hoo
            simp only [zero_add, one_mul]
            show c i - c i / (1 + c o) * (1 + c o) = 0
            rw [this, sub_self]
          · have hko : o ≠ k := fun h => hk0 (by rw [← h])
            simp only [simplexRow, hk0, if_false, add_zero, sub_dotProduct, single_dotProduct]
            rw [Pi.single_eq_of_ne hki.symm, Pi.single_eq_of_ne hko]
            simp
    · have := ih (done ++ [i]) (by rw [hd]; simp)
      rwa [List.map_append] at this

end GS
end QuOCS

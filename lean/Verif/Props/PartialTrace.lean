/-
Properties of the partial trace: C48.
-/
import Mathlib.Data.Rat.Defs
import Verif.Lemmas.PartialTrace

set_option linter.unusedSectionVars false
set_option linter.unusedVariables false

namespace QuOCS

variable {K : Type} [AddCommMonoid K] {dims pos : List ℕ} {state : NdArray K}

/-- **C48.** The axis order for distinct valid positions is a permutation of all axes: first the row axes of the
subsystems that are kept, then their column axes, then for each subsystem traced over its row and its column axis side by
side. -/
theorem C48_mask_is_permutation {N : ℕ} (hnd : pos.Nodup) (hpos : ∀ p ∈ pos, p < N) :
    ∃ mask, createMask (pos.map Nat.cast) N = .ok mask ∧ mask.Perm (List.range (2 * N)) ∧
      mask = kept pos N ++ (kept pos N).map (· + N) ++ pos.flatMap fun p => [p, p + N] :=
  ⟨_, PT.createMask_ok hpos, PT.mask_perm hnd hpos, rfl⟩

/-- **C48.** A position outside of the range of subsystems is rejected. -/
theorem C48_out_of_range_rejected {positions : List ℤ} {p : ℤ} (hp : p ∈ positions) (h : p < 0 ∨ (dims.length : ℤ) ≤ p) :
    partialTrace dims positions state = .error .valueError := by
  have : createMask positions dims.length = .error .valueError := by
    unfold createMask
    rw [if_pos]
    rw [List.any_eq_true]
    exact ⟨p, hp, by rcases h with h | h <;> simp [h]⟩
  unfold partialTrace
  rw [this]
  rfl

/-- **C48.** The result is the partial trace: its entry for the basis states `x` and `y` of the subsystems that are kept is
the sum over all basis states `c` of the subsystems traced over of the entries of the state for `x` with `c` and `y` with
`c`. All dimensions, numbers of subsystems and orders of distinct positions. -/
theorem C48_partial_trace (hnd : pos.Nodup) (hpos : ∀ p ∈ pos, p < dims.length) (hk : kept pos dims.length ≠ [])
    (hs : state.shape = [dims.prod, dims.prod]) :
    let R := (kept pos dims.length).map fun p => dims.getD p 0
    let T := pos.map fun p => dims.getD p 0
    ∃ b, partialTrace dims (pos.map Nat.cast) state = .ok b ∧ b.shape = [R.prod, R.prod] ∧
      ∀ x y, IsIndex x R → IsIndex y R → b.at' [basisState R x, basisState R y] =
        ((indices T).map fun c => state.at' [basisState dims (combine pos dims.length x c),
          basisState dims (combine pos dims.length y c)]).sum := by
  intro R T
  obtain ⟨b, h1, h2, h3⟩ := PT.partialTrace_spec hnd hpos hk hs
  refine ⟨b, h1, h2, fun x y hx hy => ?_⟩
  have := h3 x y hx hy
  simp only [PT.ravel_eq] at this
  exact this

/-- **C48.** These are all entries: every number below the dimension is a basis state. -/
theorem C48_basis_states_cover {R : List ℕ} {a : ℕ} (h : a < R.prod) : ∃ x, IsIndex x R ∧ basisState R x = a := by
  obtain ⟨x, h1, h2⟩ := PT.basis_surjective h
  exact ⟨x, h1, by rw [← PT.ravel_eq, h2]⟩

/-- **C48.** The partial trace preserves the trace. -/
theorem C48_trace_preserved (hnd : pos.Nodup) (hpos : ∀ p ∈ pos, p < dims.length) (hk : kept pos dims.length ≠ [])
    (hs : state.shape = [dims.prod, dims.prod]) :
    ∃ b r, partialTrace dims (pos.map Nat.cast) state = .ok b ∧ b.shape = [r, r] ∧
      ((List.range r).map fun a => b.at' [a, a]).sum = ((List.range dims.prod).map fun i => state.at' [i, i]).sum := by
  obtain ⟨b, h1, h2, h3⟩ := PT.partialTrace_spec hnd hpos hk hs
  refine ⟨b, _, h1, h2, ?_⟩
  rw [← PT.ravel_indices dims, List.map_map]
  rw [← ((PT.combine_perm hnd hpos).map ((fun i => state.at' [i, i]) ∘ ravel dims)).sum_eq, PT.sum_flatMap]
  rw [← PT.ravel_indices, List.map_map]
  congr 1
  refine List.map_congr_left fun x hx => ?_
  simp only [Function.comp]
  rw [h3 x x (PT.mem_indices.1 hx) (PT.mem_indices.1 hx), List.map_map]
  rfl

/-- Violation found: tracing over all subsystems raises a `TypeError` instead of returning the trace. -/
theorem C48_all_subsystems_raises (hnd : pos.Nodup) (hpos : ∀ p ∈ pos, p < dims.length) (hall : kept pos dims.length = [])
    (hs : state.shape = [dims.prod, dims.prod]) : partialTrace dims (pos.map Nat.cast) state = .error .typeError := by
  unfold partialTrace
  rw [PT.createMask_ok hpos]
  show (state.reshape (dims ++ dims) >>= fun a => (a.transposed (PT.mask pos dims.length) >>= fun b =>
    (traceMany _ b >>= fun c => _))) = _
  obtain ⟨a1, e1, e1s⟩ : ∃ a1 : NdArray K, state.reshape (dims ++ dims) = .ok a1 ∧ a1.shape = dims ++ dims := by
    refine ⟨⟨_, fun idx => state.at' (unravel state.shape (ravel (dims ++ dims) idx))⟩, ?_, rfl⟩
    unfold NdArray.reshape
    rw [if_pos (by rw [hs, List.prod_append]; simp)]
  obtain ⟨a2, e2, e2s⟩ : ∃ a2 : NdArray K, a1.transposed (PT.mask pos dims.length) = .ok a2 ∧
      a2.shape = [] ++ PT.twice (pos.map fun p => dims.getD p 0) := by
    refine ⟨⟨_, fun idx => a1.at' ((List.range (dims.length + dims.length)).map fun q =>
      idx.getD ((PT.mask pos dims.length).idxOf q) 0)⟩, ?_, rfl⟩
    unfold NdArray.transposed
    rw [e1s, List.length_append, if_pos, PT.shape_mask hpos, hall]
    · rfl
    · rw [List.isPerm_iff]
      have := PT.mask_perm hnd hpos
      rwa [Nat.two_mul] at this
  obtain ⟨a3, e3, -, -⟩ := PT.traceMany_ok pos.length (pos.map fun p => dims.getD p 0) [] a2 (by simp) e2s
  rw [e1]
  show (a1.transposed (PT.mask pos dims.length) >>= fun b => (traceMany (pos.map (Nat.cast : ℕ → ℤ)).length b >>= fun c => _)) = _
  rw [e2]
  show (traceMany (pos.map (Nat.cast : ℕ → ℤ)).length a2 >>= fun c => _) = _
  rw [List.length_map, e3]
  show (if _ = [] then _ else _) = _
  rw [PT.filter_eq, hall]
  rfl

/-- the hypotheses are met: three subsystems of dimensions 2, 3 and 2; the last and the first one are traced over -/
example : [2, 0].Nodup ∧ (∀ p ∈ [2, 0], p < [2, 3, 2].length) ∧ kept [2, 0] [2, 3, 2].length = [1] ∧
    (⟨[12, 12], fun i => (i.sum : ℚ)⟩ : NdArray ℚ).shape = [[2, 3, 2].prod, [2, 3, 2].prod] ∧
    IsIndex [2] ((kept [2, 0] [2, 3, 2].length).map fun p => [2, 3, 2].getD p 0) ∧
    combine [2, 0] 3 [2] [1, 0] = [0, 2, 1] ∧ basisState [2, 3, 2] [0, 2, 1] = 5 := by
  refine ⟨by decide, by decide, by decide, rfl, ?_, by decide, by decide⟩
  exact .cons (by decide) .nil

/-- a case of the last theorem: all three subsystems -/
example : kept [2, 0, 1] [2, 3, 2].length = [] := by decide

end QuOCS

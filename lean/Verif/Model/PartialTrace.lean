/-
Model of `tools/partial_trace.py`.

An array is its shape and a function from index lists to entries (only the values at valid index lists count).
-/
import Mathlib.Algebra.BigOperators.Group.List.Basic
import Verif.Model.Numpy

namespace QuOCS

section
variable {K : Type} [AddCommMonoid K]

/-- An array with any number of dimensions. -/
structure NdArray (K : Type) where
  shape : List ℕ
  at' : List ℕ → K

/-- Position of an index list in the flattened array (row-major order). -/
def ravel : List ℕ → List ℕ → ℕ
  | _ :: ds, i :: is => i * ds.prod + ravel ds is
  | _, _ => 0

/-- Index list of a position of the flattened array. -/
def unravel : List ℕ → ℕ → List ℕ
  | [], _ => []
  | _ :: ds, f => f / ds.prod :: unravel ds (f % ds.prod)

/-- `jnp.reshape`: `TypeError` if the sizes differ. -/
def NdArray.reshape (a : NdArray K) (shape : List ℕ) : Py (NdArray K) :=
  if a.shape.prod = shape.prod then .ok ⟨shape, fun idx => a.at' (unravel a.shape (ravel shape idx))⟩
  else .error .typeError

/-- `jnp.transpose(a, mask)`: axis `k` of the result is axis `mask[k]` of `a`; `ValueError` if `mask` is not a
permutation of the axes. -/
def NdArray.transposed (a : NdArray K) (mask : List ℕ) : Py (NdArray K) :=
  if mask.isPerm (List.range a.shape.length) then
    .ok ⟨mask.map fun q => a.shape.getD q 0,
      fun idx => a.at' ((List.range a.shape.length).map fun q => idx.getD (mask.idxOf q) 0)⟩
  else .error .valueError

/-- `jnp.trace(a, axis1=-2, axis2=-1)`: `ValueError` for fewer than two dimensions. -/
def NdArray.traceLast (a : NdArray K) : Py (NdArray K) :=
  match a.shape.reverse with
  | d2 :: d1 :: rest => .ok ⟨rest.reverse, fun idx => ((List.range (min d1 d2)).map fun c => a.at' (idx ++ [c, c])).sum⟩
  | _ => .error .valueError

/-- `create_mask` (partial_trace.py:20-38). -/
def createMask (positions : List ℤ) (N : ℕ) : Py (List ℕ) :=
  if positions.any fun p => decide (p < 0) || decide ((N : ℤ) ≤ p) then .error .valueError
  else
    let remaining := (List.range N).filter fun i : ℕ => !positions.contains (i : ℤ)
    .ok (remaining ++ remaining.map (· + N) ++ positions.flatMap fun p => [p.toNat, p.toNat + N])

/-- the loop of `partial_trace` (partial_trace.py:56-57) -/
def traceMany : ℕ → NdArray K → Py (NdArray K)
  | 0, a => .ok a
  | k + 1, a => a.traceLast >>= fun b => traceMany k b

/-- `jax_partial_trace_transform` and the function it returns (partial_trace.py:40-60) for a list of dimensions. The product
of an empty list of dimensions (lines 49-50) is the floating-point number 1.0, which `reshape` does not accept. -/
def partialTrace (dims : List ℕ) (positions : List ℤ) (state : NdArray K) : Py (NdArray K) :=
  createMask positions dims.length >>= fun mask =>
  let remainingDims := ((List.range dims.length).filter fun i : ℕ => !positions.contains (i : ℤ)).map fun i => dims.getD i 0
  state.reshape (dims ++ dims) >>= fun reshaped =>
  reshaped.transposed mask >>= fun reordered =>
  traceMany positions.length reordered >>= fun traced =>
  if remainingDims = [] then .error .typeError
  else traced.reshape [remainingDims.prod, remainingDims.prod]

end
end QuOCS

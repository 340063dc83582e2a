/-
The random numbers a seed stands for, independent of how they are drawn.
-/
import Verif.Model.Random

namespace QuOCS

/-- `n` consecutive numbers of a sequence. -/
def block {K : Type} (seq : ℕ → K) (start n : ℕ) : List K := (List.range n).map fun i : ℕ => seq (start + i)

/-- how many numbers a pulse takes -/
def pulseDraws (sizes : List (Option ℕ)) : List ℕ := sizes.map fun k => k.getD 0

/-- The numbers of super-iteration `k + 1` if everything is taken from one sequence without gaps: pulse after pulse, then the start
vector. -/
def consecutive {K : Type} (seq : ℕ → K) (sizes : List (Option ℕ)) (n k : ℕ) : SIDraws K :=
  let perSI := (pulseDraws sizes).sum + n
  { pulses := (List.range sizes.length).map fun i : ℕ =>
      block seq (k * perSI + ((pulseDraws sizes).take i).sum) ((pulseDraws sizes).getD i 0)
    start := block seq (k * perSI + (pulseDraws sizes).sum) n }

end QuOCS

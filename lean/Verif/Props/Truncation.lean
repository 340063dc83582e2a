/-
C90: stopping a run earlier only cuts it short.
-/
import Verif.Lemmas.Truncate
import Verif.Props.Best

set_option linter.unusedSectionVars false
set_option linter.unusedVariables false

namespace QuOCS

section
variable {K V C O F : Type} [LE K] [DecidableLE K]
variable [Add F] [Sub F] [Mul F] [Div F] [Neg F] [Zero F] [One F] [NatCast F] [LE F] [LT F] [DecidableLE F]
  [DecidableLT F]
variable (cfg : AlgCfg K F) (env : Env V C F) (ops : CtlOps O V C)

/-- **C90.** A run with the smaller budget `m₁` makes exactly the first `m₁` calls of the run with the larger budget `m₂` (all of
them, if there are fewer): the same vectors, the same controls, the same answers. For every algorithm, search method, user's function,
clock, stop request, with or without re-evaluation and drift compensation. -/
theorem C90_smaller_budget {m₁ m₂ : ℤ} (hm : m₁ ≤ m₂) (dsm : Dsm K V F) (o : O) :
    (execute { cfg with maxEvalTotal := m₁ } env ops dsm o).2.log =
      (execute { cfg with maxEvalTotal := m₂ } env ops dsm o).2.log.take m₁.toNat := by
  have hb : Stops.Before (⟨m₁, cfg.totalTimeLim, cfg.userGoal, env.async⟩ : Stops F) ⟨m₂, cfg.totalTimeLim, cfg.userGoal, env.async⟩
      (fun n => m₁ ≤ n) cfg.maximize :=
    ⟨hm, fun n h _ => h, le_refl _, Iff.rfl, .inl rfl, fun g h => ⟨g, h, fun _ h => h⟩, .inl rfl, fun _ => .inl rfl⟩
  have h := execute_before (env := env) (ops := ops) hb dsm o
  have e : ∀ m : ℤ, execute (cfg.until ⟨m, cfg.totalTimeLim, cfg.userGoal, env.async⟩)
      (env.until ⟨m, cfg.totalTimeLim, cfg.userGoal, env.async⟩) ops dsm o = execute { cfg with maxEvalTotal := m } env ops dsm o :=
    fun _ => rfl
  rw [e, e] at h
  have hlen := C01_budget { cfg with maxEvalTotal := m₁ } env ops dsm o
  dsimp only at hlen
  generalize (execute { cfg with maxEvalTotal := m₁ } env ops dsm o).2.log = l1 at *
  generalize (execute { cfg with maxEvalTotal := m₂ } env ops dsm o).2.log = l2 at *
  obtain ⟨hp, h | h⟩ := h
  · rw [List.prefix_iff_eq_take.1 hp]
    have : l1.length = m₁.toNat := by omega
    rw [this]
  · rw [← h, List.take_of_length_le (by omega)]

/-- **C90.** A run with a smaller budget, a shorter time limit, a goal, or more stop requests makes the first calls of the run
without them, whatever the user's function answers. (Time limits of 10^10 minutes or more switch the check off, with the readings
of the clock for it; both runs must have the check, or both must not.) -/
theorem C90_earlier_stop {m₁ m₂ : ℤ} {t₁ t₂ : ℚ} {g₁ g₂ : Option F} {a₁ a₂ : ℕ → Async} (hm : m₁ ≤ m₂) (ht : t₁ ≤ t₂)
    (hon : t₁ < 10 ^ 10 ↔ t₂ < 10 ^ 10) (hg : g₂ = g₁ ∨ g₂ = none) (ha : ∀ n, a₂ n = a₁ n ∨ a₂ n = .none) (dsm : Dsm K V F) (o : O) :
    (execute { cfg with maxEvalTotal := m₁, totalTimeLim := t₁, userGoal := g₁ } { env with async := a₁ } ops dsm o).2.log <+:
      (execute { cfg with maxEvalTotal := m₂, totalTimeLim := t₂, userGoal := g₂ } { env with async := a₂ } ops dsm o).2.log := by
  have hb : Stops.Before (⟨m₁, t₁, g₁, a₁⟩ : Stops F) ⟨m₂, t₂, g₂, a₂⟩ (fun _ => True) cfg.maximize := by
    refine ⟨hm, fun _ _ _ => trivial, ht, hon, .inr fun _ => trivial, fun g h => ?_, .inr fun _ => trivial, fun n => ?_⟩
    · rcases hg with rfl | rfl
      · exact ⟨g, h, fun _ h => h⟩
      · cases h
    · exact (ha n).imp Eq.symm fun h => ⟨h, fun _ => trivial⟩
  exact (execute_before (env := env) (ops := ops) hb dsm o).1

end

section
variable {K V C O F : Type} [LE K] [DecidableLE K]
variable [Add F] [Sub F] [Mul F] [Div F] [Neg F] [Zero F] [One F] [NatCast F] [LE F] [LT F] [DecidableLE F]
  [DecidableLT F] [FloatOrder F]
variable (cfg : AlgCfg K F) (env : Env V C F) (ops : CtlOps O V C)

open FloatOrder

/-- **C90.** Without re-evaluation and drift compensation a larger budget never gives a worse result. -/
theorem C90_larger_budget_not_worse (hre : NoReEval cfg) (hmax : ¬ IsNaN cfg.fomMax) {m₁ m₂ : ℤ} (hm : m₁ ≤ m₂) (dsm : Dsm K V F)
    (hdr : NoDriftRun cfg dsm) (o : O) :
    ¬ Better cfg.maximize (finalFoM cfg (execute { cfg with maxEvalTotal := m₁ } env ops dsm o).2)
      (finalFoM cfg (execute { cfg with maxEvalTotal := m₂ } env ops dsm o).2) := by
  have h1 := C04_best_is_optimum_partial { cfg with maxEvalTotal := m₁ } env ops hre hmax dsm hdr o
  have h2 := C04_best_is_optimum_partial { cfg with maxEvalTotal := m₂ } env ops hre hmax dsm hdr o
  have e := C90_smaller_budget cfg env ops hm dsm o
  rcases h1.2.2 with h | ⟨c, hc, hv⟩
  · have : finalFoM cfg (execute { cfg with maxEvalTotal := m₁ } env ops dsm o).2 = dirMul cfg.maximize cfg.fomMax := h
    rw [this]
    exact h2.2.1
  · rw [e] at hc
    exact h2.1 c (List.mem_of_mem_take hc) _ hv

end

/-- The log of a run with a stop request at each poll in `polls`. -/
def exTLog (m : ℤ) (goal : Option ℚ) (polls : List ℕ) : List ℚ :=
  (execute (exCfg .dcrab m false goal none) (exEnv (exAns [5, 6, 4, 3, 2, 6, 1]) (fun n => if n ∈ polls then .guiStop else .none))
    exOps (exDsm [1, 2, 3, 4]) ()).2.log.map (fun c => c.vec)

/-- Two super-iterations with four points each (the seventh answer is the last one). Budgets 7 and 5, a goal that is met by the third
answer, a stop request. -/
example : exTLog 7 none [] = [1, 2, 3, 4, 1, 2, 3] ∧ exTLog 5 none [] = [1, 2, 3, 4, 1] ∧
    exTLog 7 (some 4) [] = [1, 2, 3] ∧ exTLog 7 none [5] = [1] := by decide +kernel

end QuOCS

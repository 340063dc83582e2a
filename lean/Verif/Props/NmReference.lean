/-
Property C111: the Nelder-Mead search is the published one, with its decisions.
-/
import Verif.Lemmas.NmReference
import Verif.Lemmas.FollowSearch
import Verif.Props.NelderMead

set_option linter.unusedSectionVars false
set_option linter.unusedVariables false

namespace QuOCS

variable {K F : Type} {n : ℕ} [Field K] [LinearOrder K] [Field F] [LinearOrder F] [IsStrictOrderedRing F]
variable {c : NmCfg K F n} {start : Fin (n + 1) → Vec K n} {fuel : ℕ} {m : ℤ} {evs : List (Ev K (Vec K n) F)}

/-- The published factors: the usual ones, or the ones of Gao and Han for `is_adaptive`. -/
def publishedFactors (adaptive : Bool) (n : ℕ) : NmRef.Factors K := if adaptive then NmRef.adaptive n else NmRef.usual

/-- Number of measurements of a correction for a drift, if these are switched on. -/
def driftNumber (c : NmCfg K F n) : Option ℕ := if 0 < c.driftMinutes then some c.driftAverage else none

theorem nm_reference {m' : Strat K (Vec K n) F (DsmResult (Vec K n) F)} (ha : IsArgsort c.argsort)
    (hp : Plays (nmRun c fuel start) evs m') (hl : StopLaws m evs) :
    (∀ pre o r post, evs = pre ++ ⟨o, r⟩ :: post → NMR.G2 (publishedFactors c.adaptive n) start (driftNumber c) pre o) ∧
      m'.wp (NMR.G2 (publishedFactors c.adaptive n) start (driftNumber c)) (NM.A m) (fun h r =>
        ∃ S fs, NmRef.Reached (publishedFactors c.adaptive n) start (driftNumber c) (evals h) S fs ∧ ((r.xOpt, r.fMin) = S 0 ∨
          2 ≤ fs.length ∧ ∃ x, NmRef.rule (publishedFactors c.adaptive n) S fs = .evaluate x)) evs := by
  have := hp.of_wp (A := NM.A m) (h := []) (fun pre post he => by
    rw [he] at hl; exact hl.prefix) (NMR.run_ref (p := publishedFactors c.adaptive n) (dm := driftNumber c) (start := start) ha
      (fun h => by unfold driftNumber; rw [if_pos h]) fuel (by unfold publishedFactors nmCoef; split <;> rfl))
  simpa using this

/-- **C111.** Each evaluation is the one that the published method makes after the evaluations before: the start vertices in order;
then, from the sorted vertices, reflection, expansion, contraction or shrinking as the published comparisons of the values decide. -/
theorem C111_follows_publication {m' : Strat K (Vec K n) F (DsmResult (Vec K n) F)} (ha : IsArgsort c.argsort)
    (hp : Plays (nmRun c fuel start) evs m') (hl : StopLaws m evs)
    {pre post : List (Ev K (Vec K n) F)} {x : Vec K n} {it : ℕ} {f : F} (he : evs = pre ++ ⟨.eval x it, f⟩ :: post) :
    NmRef.Asks (publishedFactors c.adaptive n) start (driftNumber c) (evals pre) x :=
  (nm_reference ha hp hl).1 _ _ _ _ he

/-- **C111.** The result is the best vertex of the simplex that the published method has after these evaluations, unless the search was
stopped while it was shrinking (with an evaluation of the shrinking outstanding). -/
theorem C111_result {r : DsmResult (Vec K n) F} (ha : IsArgsort c.argsort)
    (hp : Plays (nmRun c fuel start) evs (.ret r)) (hl : StopLaws m evs) :
    ∃ S fs, NmRef.Reached (publishedFactors c.adaptive n) start (driftNumber c) (evals evs) S fs ∧ ((r.xOpt, r.fMin) = S 0 ∨
      2 ≤ fs.length ∧ ∃ x, NmRef.rule (publishedFactors c.adaptive n) S fs = .evaluate x) :=
  (nm_reference ha hp hl).2

/-! ### what the published rules mean -/

section
variable {p : NmRef.Factors K} {dm : Option ℕ} {l : List (NmRef.Vertex K F n)} {S : NmRef.Simplex K F n} {fs : List F}

/-- While an iteration is underway, the vertices are sorted. -/
theorem reached_sorted (h : NmRef.Reached p start dm l S fs) : ∀ i j, i ≤ j → (S i).2 ≤ (S j).2 := by
  induction h with
  | start h => exact h.2
  | evaluate f h hr ih => exact ih
  | finish h hr hs ih => exact hs.2
  | @drift l S ms h hn ih =>
    intro i j hij
    unfold NmRef.corrected
    by_cases hi : i = 0
    · subst hi
      by_cases hj : j = 0
      · subst hj; simp
      · simp only [if_true, hj, if_false]
        have := ih 0 j (Fin.zero_le _)
        linarith
    · have hj : j ≠ 0 := fun e => hi (by subst e; exact Fin.le_zero_iff.1 hij)
      simp only [hi, hj, if_false]
      have := ih i j hij
      linarith

/-- **C111.** An iteration of the published method makes one or two evaluations, or `n + 2` if it shrinks. -/
theorem C111_evaluations_per_iteration {T : NmRef.Simplex K F n} (h : NmRef.Reached p start dm l S fs)
    (hf : NmRef.rule p S fs = .finish T) : fs.length = 1 ∨ fs.length = 2 ∨ fs.length = n + 2 := by
  have key : ∀ {l : List (NmRef.Vertex K F n)} {S : NmRef.Simplex K F n} {fs : List F}, NmRef.Reached p start dm l S fs → fs.length ≤ n + 2 ∧ (2 < fs.length → ∃ a b gs, fs = a :: b :: gs ∧
      ∀ hs, NmRef.rule p S (a :: b :: hs) = NmRef.shrinkStep p S hs) := by
    intro l S fs h
    induction h with
    | start h => exact ⟨by simp, by simp⟩
    | finish h hr hs ih => exact ⟨by simp, by simp⟩
    | drift h hn ih => exact ⟨by simp, by simp⟩
    | @evaluate l S fs x f h hr ih =>
      match fs, hr, ih with
      | [], _, _ => exact ⟨by simp, by simp⟩
      | [a], _, _ => exact ⟨by simp, by simp⟩
      | a :: b :: gs, hr, ih =>
        have hsh : ∀ hs, NmRef.rule p S (a :: b :: hs) = NmRef.shrinkStep p S hs := by
          intro hs
          simp only [NmRef.rule] at hr ⊢
          split at hr
          · split at hr <;> cases hr
          · split at hr
            · rename_i h1 h2
              split at hr
              · cases hr
              · rename_i h3
                rw [if_neg h1, if_pos h2, if_neg h3]
            · rename_i h1 h2
              split at hr
              · cases hr
              · rename_i h3
                rw [if_neg h1, if_neg h2, if_neg h3]
        rw [hsh, NmRef.shrinkStep] at hr
        split at hr
        · refine ⟨by simp only [List.cons_append, List.length_cons, List.length_append, List.length_nil]; omega, fun _ => ?_⟩
          exact ⟨a, b, gs ++ [f], rfl, hsh⟩
        · cases hr
  obtain ⟨h1, h2⟩ := key h
  by_cases h3 : 2 < fs.length
  · obtain ⟨a, b, gs, rfl, h4⟩ := h2 h3
    rw [h4, NmRef.shrinkStep] at hf
    split at hf
    · cases hf
    · simp only [List.length_cons] at h1 ⊢
      omega
  · match fs, hf with
    | [], hf => cases hf
    | [a], _ => simp
    | [a, b], _ => simp
    | a :: b :: e :: gs, _ => simp at h3

end

/-- The hypotheses can be met: the start vertices, reflection and expansion (with the expanded point accepted). -/
example : ∃ evs r, Plays (nmRun (exNm exArgsort1) 5 exSim) evs (.ret r) ∧ StopLaws 1000 evs ∧
    (evals evs).map (fun p => (p.1 0, p.2)) = [(0, 5), (1, 3), (2, 2), (3, 1)] ∧ r.fMin = 1 := by
  obtain ⟨evs, r, hp, h⟩ := play_facts (st := nmRun (exNm exArgsort1) 5 exSim) (l := exScript)
    (P := fun q => lawfulB q.1 && decide ((evals q.1).map (fun p => (p.1 0, p.2)) = [(0, 5), (1, 3), (2, 2), (3, 1)]) &&
      decide (q.2.fMin = 1)) (by decide +kernel)
  simp only [Bool.and_eq_true, decide_eq_true_eq] at h
  exact ⟨evs, r, hp, lawful_of h.1.1, h.1.2, h.2⟩

example : IsArgsort (exNm exArgsort1).argsort := exArgsort1_sorts

/-- The rule on a simplex in two dimensions, for each of its cases. -/
def exRefSimplex : NmRef.Simplex ℚ ℚ 2 := ![(![0, 0], 1), (![1, 0], 2), (![0, 1], 4)]

/-- the point to evaluate, or the values of the new vertices -/
def exAction : NmRef.Action ℚ ℚ 2 → List ℚ ⊕ List ℚ
  | .evaluate x => .inl [x 0, x 1]
  | .finish T => .inr [(T 0).2, (T 1).2, (T 2).2]

example : (([[], [1 / 2], [1 / 2, 1 / 4], [1 / 2, 3 / 4], [3 / 2], [3], [3, 3], [3, 7 / 2], [3, 7 / 2, 8], [3, 7 / 2, 8, 9], [4],
    [4, 7 / 2], [5, 4]] : List (List ℚ)).map fun fs => exAction (NmRef.rule NmRef.usual exRefSimplex fs)) =
    [.inl [1, -1], .inl [3 / 2, -2], .inr [1, 2, 1 / 4], .inr [1, 2, 1 / 2], .inr [1, 2, 3 / 2], .inl [3 / 4, -1 / 2],
     .inr [1, 2, 3], .inl [1 / 2, 0], .inl [0, 1 / 2], .inr [1, 8, 9], .inl [1 / 4, 1 / 2], .inr [1, 2, 7 / 2], .inl [1 / 2, 0]] := by
  decide +kernel

end QuOCS

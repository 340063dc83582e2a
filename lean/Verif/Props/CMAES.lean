/-
Properties of the CMA-ES search: C29, C30, C31, and its part of C09 and C32.
The theorems quantify over every behaviour of the objective (the answers in `evs` are arbitrary), of the random numbers
and of the eigenvalue decomposition.
-/
import Mathlib.Analysis.SpecialFunctions.Log.Basic
import Mathlib.Analysis.Convex.Combination
import Mathlib.Algebra.BigOperators.Field
import Mathlib.Algebra.Order.Chebyshev
import Mathlib.Data.Fin.Tuple.Sort
import Verif.Lemmas.CMAES
import Verif.Props.Stopping

set_option linter.unusedSectionVars false
set_option linter.unusedVariables false

namespace QuOCS

/-! ### C29: recombination -/

theorem cmaRawWeights_pos {mu : ℕ} (i : Fin mu) : 0 < cmaRawWeights Real.log mu i := by
  unfold cmaRawWeights
  have h1 : ((i : ℕ) : ℝ) + 1 ≤ mu := by exact_mod_cast i.2
  refine sub_pos.2 (Real.log_lt_log (by positivity) (by linarith))

theorem cmaRawSum_pos {mu : ℕ} (h : 1 ≤ mu) : 0 < ∑ j, cmaRawWeights Real.log mu j :=
  Finset.sum_pos (fun j _ => cmaRawWeights_pos j) ⟨⟨0, h⟩, Finset.mem_univ _⟩

/-- **C29.** The recombination weights are positive. -/
theorem C29_weights_positive {mu : ℕ} (i : Fin mu) : 0 < cmaWeights Real.log mu i :=
  div_pos (cmaRawWeights_pos i) (cmaRawSum_pos (by have := i.2; omega))

/-- **C29.** Better individuals have strictly more weight. -/
theorem C29_weights_decrease {mu : ℕ} : StrictAnti (cmaWeights Real.log mu) := by
  intro i j hij
  unfold cmaWeights
  refine div_lt_div_of_pos_right ?_ (cmaRawSum_pos (by have := i.2; omega))
  unfold cmaRawWeights
  have h : ((i : ℕ) : ℝ) + 1 < ((j : ℕ) : ℝ) + 1 := by
    have : ((i : ℕ) : ℝ) < ((j : ℕ) : ℝ) := by exact_mod_cast hij
    linarith
  have := Real.log_lt_log (by positivity) h
  linarith

/-- **C29.** The weights sum to one, for every population of two or more. -/
theorem C29_weights_sum {L : ℕ} (hL : 2 ≤ L) : ∑ i, cmaWeights Real.log (L / 2) i = 1 := by
  unfold cmaWeights
  rw [← Finset.sum_div]
  exact div_self (cmaRawSum_pos (by omega)).ne'

/-- **C29.** The variance-effective number of parents is between one and the number of parents. -/
theorem C29_mueff_range {L : ℕ} (hL : 2 ≤ L) :
    1 ≤ cmaMueff (cmaWeights Real.log (L / 2)) ∧ cmaMueff (cmaWeights Real.log (L / 2)) ≤ ((L / 2 : ℕ) : ℝ) := by
  have hs := C29_weights_sum hL
  have hp : ∀ i, 0 < cmaWeights Real.log (L / 2) i := fun i => C29_weights_positive i
  have hq : 0 < ∑ i, cmaWeights Real.log (L / 2) i ^ 2 :=
    Finset.sum_pos (fun j _ => by have := hp j; positivity) ⟨⟨0, by omega⟩, Finset.mem_univ _⟩
  unfold cmaMueff
  constructor
  · rw [le_div_iff₀ hq, one_mul]
    have h1 : ∀ i, cmaWeights Real.log (L / 2) i ≤ 1 := fun i => by
      rw [← hs]; exact Finset.single_le_sum (fun j _ => (hp j).le) (Finset.mem_univ i)
    calc ∑ i, cmaWeights Real.log (L / 2) i ^ 2 ≤ ∑ i, cmaWeights Real.log (L / 2) i :=
          Finset.sum_le_sum fun i _ => by
            rw [pow_two]; exact mul_le_of_le_one_left (hp i).le (h1 i)
      _ = 1 := hs
  · rw [div_le_iff₀ hq]
    have := sq_sum_le_card_mul_sum_sq (s := Finset.univ) (f := cmaWeights Real.log (L / 2))
    rw [hs] at this
    simpa using this

/-- **C29.** The new centre of the search is a convex combination of the selected individuals. -/
theorem C29_mean_is_convex_combination {F : Type} {n L : ℕ} (hL : 2 ≤ L) (lib : CmaLib ℝ F) (hlog : lib.log = Real.log)
    (s : CmaState ℝ F n L) : (cmaUpdate lib s).xmean ∈ convexHull ℝ (Set.range (cmaBest s)) := by
  have hx : (cmaUpdate lib s).xmean = cmaMean lib s := by
    unfold cmaUpdate; dsimp only; split <;> rfl
  rw [hx]
  unfold cmaMean
  rw [hlog]
  refine (convex_convexHull ℝ _).sum_mem (fun i _ => (C29_weights_positive i).le) (C29_weights_sum hL) fun i _ => ?_
  exact subset_convexHull ℝ _ ⟨i, rfl⟩

/-- **C29.** The selected individuals are the best ones: they are pairwise different individuals, ordered by their
values, and no individual that is left out has a smaller value. -/
theorem C29_best_half {K F : Type} {n L : ℕ} [Field K] [LinearOrder K] [LinearOrder F] (lib : CmaLib K F) (hs : lib.Sorts)
    (s : CmaState K F n L) :
    ∃ sel : Fin (L / 2) → Fin L, Function.Injective sel ∧ (∀ i, cmaBest (cmaSort lib s) i = s.arx (sel i)) ∧
      (Monotone fun i => s.fsim (sel i)) ∧ ∀ k, k ∉ Set.range sel → ∀ i, s.fsim (sel i) ≤ s.fsim k := by
  refine ⟨fun i => lib.argsort s.fsim ⟨i, by omega⟩, fun i j h => ?_, fun i => rfl, fun i j h => ?_, fun k hk i => ?_⟩
  · have := (lib.argsort s.fsim).injective h
    simpa [Fin.ext_iff] using this
  · exact hs L s.fsim (a := ⟨i, by omega⟩) (b := ⟨j, by omega⟩) h
  · have h1 := hs L s.fsim (a := ⟨i, by omega⟩) (b := (lib.argsort s.fsim).symm k) ?_
    · simpa using h1
    · by_contra hlt
      have hlt : ((lib.argsort s.fsim).symm k : ℕ) < i := by
        rw [not_le] at hlt; exact hlt
      exact hk ⟨⟨(lib.argsort s.fsim).symm k, by omega⟩, by simp⟩

/-- Violation found: with a configured population of one (or none, e.g. 1.5 rounded down) there are no recombination
weights, and the search raises `ZeroDivisionError` before the first evaluation (CMAES.py:94). -/
theorem C29_small_population_raises {K F : Type} {n : ℕ} [Field K] [LinearOrder K] [FloorRing K] [Zero F] (lib : CmaLib K F) (p : K)
    (hn : n ≠ 0) (h0 : 0 ≤ ⌊p⌋) (h2 : ⌊p⌋ < 2) (fuel i : ℕ) (x0 sg : Vec K n) (sim : List (Vec K n)) :
    cmaes lib (some p) fuel i x0 sim sg =
      (do Strat.call (.setConv false); Strat.fail .zeroDivision : Strat K (Vec K n) F (DsmResult (Vec K n) F)) := by
  unfold cmaes cmaPopulation
  rw [if_neg hn]
  dsimp only
  rw [dif_neg (by omega), if_neg (by omega)]

/-- With the population computed from the dimension there is no such problem: it is four or more. -/
theorem C29_default_population {n : ℕ} (hn : n ≠ 0) : ∃ l : ℤ, cmaPopulation Real.log n (none : Option ℝ) = .ok l ∧ 4 ≤ l := by
  unfold cmaPopulation
  rw [if_neg hn]
  refine ⟨_, rfl, ?_⟩
  have : (0 : ℝ) ≤ Real.log n := Real.log_natCast_nonneg n
  have : 0 ≤ ⌊3 * Real.log n⌋ := Int.floor_nonneg.2 (by positivity)
  omega

/-! ### Concrete searches used by the examples -/

/-- a library for populations of two -/
def exCmaLib : CmaLib ℚ ℚ :=
  { log := fun x => x, exp := fun x => 1 + x ^ 2, pow := fun _ _ => 0, sqrt := fun x => x
    eigh := fun C => (fun i => C i i, 1)
    argsort := fun {l} f => if h : l = 2 then (h ▸ (exArgsort1 (fun i => f (h ▸ i)))) else Tuple.sort f
    randn := fun j _ => (j : ℚ) }

theorem exCmaLib_sorts : exCmaLib.Sorts := by
  intro l f
  by_cases h : l = 2
  · subst h
    exact exArgsort1_sorts f
  · show Monotone (f ∘ (if h : l = 2 then (h ▸ (exArgsort1 (fun i => f (h ▸ i)))) else Tuple.sort f : Equiv.Perm (Fin l)))
    rw [dif_neg h]
    exact Tuple.monotone_sort f

/-- two generations with values 2, 1 and 6, 5; then converged -/
def exCmaScript : List (ℚ ⊕ Bool) :=
  [.inr false, .inl 2, .inl 1, .inr true, .inr false, .inl 6, .inl 5, .inr true, .inr true]

section
variable {K F : Type} {n L : ℕ} [Field K] [LinearOrder K]

section
variable [Zero F] [LinearOrder F] {lib : CmaLib K F} {hL : 0 < L} {x0 sg : Vec K n} {fuel : ℕ} {m : ℤ}
variable {evs : List (Ev K (Vec K n) F)}

/-- all that is known about the calls and the result of a search -/
theorem cma_plays {m' : Strat K (Vec K n) F (DsmResult (Vec K n) F)} (hs : lib.Sorts)
    (hp : Plays (cmaRun lib hL fuel x0 sg) evs m') (hl : StopLaws m evs) :
    (∀ pre o r post, evs = pre ++ ⟨o, r⟩ :: post → CMA.G m L x0 pre o) ∧
      m'.wp (CMA.G m L x0) (CMA.A m) (CMA.RunPost m L) evs := by
  have := hp.of_wp (A := CMA.A m) (h := []) (fun pre post he => by
    rw [he] at hl; exact hl.prefix) (CMA.run_wp (x0 := x0) hL hs fuel sg)
  simpa using this

/-! ### C30: whole generations, bounded overshoot -/

/-- **C30.** A search makes whole generations of `L` evaluations each, and reports their number correctly. -/
theorem C30_whole_generations {r : DsmResult (Vec K n) F} (hs : lib.Sorts)
    (hp : Plays (cmaRun lib hL fuel x0 sg) evs (.ret r)) (hl : StopLaws m evs) :
    ∃ g, (evals evs).length = L * g ∧ r.nfev = L * g ∧ r.nit = g + 1 := by
  have h := (cma_plays hs hp hl).2
  have hw : CMA.RunPost m L evs r := h
  obtain ⟨g, h1, h2⟩ := hw.whole
  exact ⟨g, by rw [← hw.evals, h1], by rw [hw.calls, h1], h2⟩

/-- **C30.** The criteria are checked between generations only, with the number of evaluations made and the sorted
values of the last generation. -/
theorem C30_checks_between_generations {m' : Strat K (Vec K n) F (DsmResult (Vec K n) F)} (hs : lib.Sorts)
    (hp : Plays (cmaRun lib hL fuel x0 sg) evs m') (hl : StopLaws m evs)
    {pre post : List (Ev K (Vec K n) F)} {fs : List F} {calls : ℕ} {u : Unit}
    (he : evs = pre ++ ⟨.checkCMA fs calls, u⟩ :: post) :
    calls = objectiveCalls pre ∧ L ∣ calls ∧ 0 < calls ∧ fs.Pairwise (· ≤ ·) ∧ fs.Perm ((lastEvals L pre).map Prod.snd) := by
  obtain ⟨h1, h2, h3, h4, h5⟩ := (cma_plays hs hp hl).1 pre _ _ post he
  exact ⟨h1, h2, by omega, h4, h5⟩

/-- **C30.** With at most `m` evaluations per direct search, a search makes fewer than `m + L` evaluations (one
generation if `m` is not positive), whatever happens: at no moment there are more. -/
theorem C30_bounded_overshoot {m' : Strat K (Vec K n) F (DsmResult (Vec K n) F)} (hs : lib.Sorts)
    (hp : Plays (cmaRun lib hL fuel x0 sg) evs m') (hl : StopLaws m evs) :
    (objectiveCalls evs : ℤ) ≤ max (m - 1) 0 + L := by
  rcases Nat.eq_zero_or_pos (objectiveCalls evs) with h0 | h0
  · rw [h0]; push_cast; positivity
  have key : ∀ (k : ℕ) (evs : List (Ev K (Vec K n) F)), evs.length = k → 0 < objectiveCalls evs →
      ∃ pre o r post, evs = pre ++ ⟨o, r⟩ :: post ∧ Ev.isObjective (⟨o, r⟩ : Ev K (Vec K n) F) = true ∧ objectiveCalls evs = objectiveCalls pre + 1 := by
    intro k
    induction k with
    | zero =>
      intro evs hk h0
      rw [List.length_eq_zero_iff.1 hk] at h0
      exact absurd h0 (by simp [objectiveCalls])
    | succ k ih =>
      intro evs hk h0
      rcases List.eq_nil_or_concat evs with rfl | ⟨evs, e, rfl⟩
      · simp at hk
      rw [List.concat_eq_append] at hk h0 ⊢
      obtain ⟨o, r⟩ := e
      rw [objectiveCalls_append] at h0 ⊢
      by_cases hob : Ev.isObjective (⟨o, r⟩ : Ev K (Vec K n) F) = true
      · exact ⟨evs, o, r, [], rfl, hob, by simp [objectiveCalls, hob]⟩
      · have h1 : objectiveCalls [(⟨o, r⟩ : Ev K (Vec K n) F)] = 0 := by simp [objectiveCalls, hob]
        rw [h1] at h0 ⊢
        obtain ⟨pre, o', r', post, rfl, h2, h3⟩ := ih evs (by simpa using hk) h0
        exact ⟨pre, o', r', post ++ [⟨o, r⟩], by simp, h2, h3⟩
  obtain ⟨pre, o, r, post, he, hob, hc⟩ := key _ evs rfl h0
  have hG := (cma_plays hs hp hl).1 pre o r post he
  rw [hc]
  cases o with
  | eval x it =>
    have := hG.2.2
    push_cast
    omega
  | drift x it k => exact absurd hG id
  | _ => cases hob

/-- **C30.** The first evaluation is made at the start point, and the iteration number given to the objective counts the
generations. -/
theorem C30_first_point {m' : Strat K (Vec K n) F (DsmResult (Vec K n) F)} (hs : lib.Sorts)
    (hp : Plays (cmaRun lib hL fuel x0 sg) evs m') (hl : StopLaws m evs)
    {pre post : List (Ev K (Vec K n) F)} {x : Vec K n} {it : ℕ} {f : F}
    (he : evs = pre ++ ⟨.eval x it, f⟩ :: post) :
    (evals pre = [] → x = x0) ∧ it = (evals pre).length / L + 1 := by
  have h := (cma_plays hs hp hl).1 pre _ _ post he
  exact ⟨h.1, h.2.1⟩

/-! ### C31: the result -/

/-- **C31.** The returned value was obtained at the returned point in the last generation, and it is the smallest value
of that generation. -/
theorem C31_best_of_last_generation {r : DsmResult (Vec K n) F} (hs : lib.Sorts)
    (hp : Plays (cmaRun lib hL fuel x0 sg) evs (.ret r)) (hl : StopLaws m evs) (hne : evals evs ≠ []) :
    (lastEvals L evs).length = L ∧ (r.xOpt, r.fMin) ∈ lastEvals L evs ∧ ∀ p ∈ lastEvals L evs, r.fMin ≤ p.2 := by
  have hw : CMA.RunPost m L evs r := (cma_plays hs hp hl).2
  have hpos : 0 < objectiveCalls evs := by rw [hw.evals]; exact List.length_pos_iff.2 hne
  refine ⟨?_, hw.best hpos⟩
  obtain ⟨g, h1, -⟩ := hw.whole
  unfold lastEvals
  rw [List.length_drop, ← hw.evals, h1]
  have hg : 0 < g := by
    rcases Nat.eq_zero_or_pos g with rfl | h
    · rw [h1] at hpos; omega
    · exact h
  have : L ≤ L * g := Nat.le_mul_of_pos_right _ hg
  omega

/-- **C31.** If the search is stopped before the first generation, it returns the value 0 and the zero vector, which
were not measured. -/
theorem C31_no_generation {r : DsmResult (Vec K n) F} (hs : lib.Sorts)
    (hp : Plays (cmaRun lib hL fuel x0 sg) evs (.ret r)) (hl : StopLaws m evs) (hne : evals evs = []) :
    r.fMin = 0 ∧ r.xOpt = 0 := by
  have hw : CMA.RunPost m L evs r := (cma_plays hs hp hl).2
  exact hw.none (by rw [hw.evals, hne]; rfl)

end

/-- A search that meets the hypotheses: two generations of two, the result is the best of the second one. -/
theorem exCma_plays : ∃ evs r, Plays (cmaRun (n := 1) (L := 2) exCmaLib (by decide) 3 (fun _ => 7) (fun _ => 1)) evs (.ret r) ∧
    StopLaws 1000 evs ∧ (evals evs).map Prod.snd = [2, 1, 6, 5] ∧ r.fMin = 5 := by
  obtain ⟨evs, r, hp, h⟩ := play_facts (st := cmaRun (n := 1) (L := 2) exCmaLib (by decide) 3 (fun _ => 7) (fun _ => 1))
    (l := exCmaScript)
    (P := fun q => lawfulB q.1 && decide ((evals q.1).map Prod.snd = [2, 1, 6, 5]) && decide (q.2.fMin = 5))
    (by decide +kernel)
  simp only [Bool.and_eq_true, decide_eq_true_eq] at h
  exact ⟨evs, r, hp, lawful_of h.1.1, h.1.2, h.2⟩

/-- Found: the best individual of an earlier generation is not returned by the search (the algorithm around it keeps
its own record, see C04 and C38): values 2, 1, 6, 5 were obtained, 5 is returned. -/
theorem C31_earlier_best_is_not_returned :
    ∃ evs r, Plays (cmaRun (n := 1) (L := 2) exCmaLib (by decide) 3 (fun _ => 7) (fun _ => 1)) evs (.ret r) ∧
      StopLaws 1000 evs ∧ (evals evs).map Prod.snd = [2, 1, 6, 5] ∧ r.fMin = 5 := exCma_plays

/-! ### in a run -/

section
variable [FloorRing K] [Field F] [LinearOrder F] [IsStrictOrderedRing F]
variable {C O : Type} {cfg : AlgCfg K F} {env : Env (Vec K n) C F} {ops : CtlOps O (Vec K n) C}
variable {lib : CmaLib K F} {p : Option K} {fuel i : ℕ} {s s' : AlgState (Vec K n) C O F} {r : DsmResult (Vec K n) F}
variable {x sg : Vec K n} {sim : List (Vec K n)}

/-- a successful search in a run is a search with a population of two or more -/
theorem cmaes_ok (h : (cmaes lib p fuel i x sim sg).interp (algHandler cfg env ops) s = (.ok r, s')) :
    ∃ (L : ℕ) (hL : 0 < L), cmaPopulation lib.log n p = .ok (L : ℤ) ∧ 2 ≤ L ∧
      ∃ evs, Plays (cmaRun (lib.inSuperIteration i) hL fuel x sg) evs (.ret r) ∧ Handled (algHandler cfg env ops) s evs s' := by
  unfold cmaes at h
  have hfail : ∀ e : PyErr, (do Strat.call (.setConv false); Strat.fail e : Strat K (Vec K n) F (DsmResult (Vec K n) F)).interp
      (algHandler cfg env ops) s = (.ok r, s') → False := by
    intro e h
    rw [Strat.interp_bind, Prog.bind_apply] at h
    simp only [Strat.call, Strat.interp, Strat.fail] at h
    revert h
    generalize hq : (algHandler cfg env ops (Op.setConv false) >>= fun x => (pure x : Prog _ _)) s = q
    rcases q with ⟨e | a, s2⟩
    · intro h; cases h
    · intro h
      dsimp only at h
      rw [Prog.bind_apply] at h
      simp only [algHandler] at h
      cases h
  split at h
  · exact (hfail _ h).elim
  · rename_i l hl
    split at h
    swap
    · split at h <;> exact (hfail _ h).elim
    rename_i h2
    refine ⟨l.toNat, by omega, ?_, by omega, ?_⟩
    · rw [hl]; congr 1; omega
    · obtain ⟨evs, m', s1, hp, hh, hr⟩ := interp_plays (algHandler cfg env ops) _ s
      rcases hr with ⟨a, rfl, hr⟩ | ⟨o, k, e', s2, rfl, ho, hr⟩
      · rw [hr] at h; cases h
        exact ⟨evs, hp, hh⟩
      · rw [hr] at h; cases h

/-- **C30.** In a run (dCRAB, DirectSearch) a CMA-ES search makes whole generations, and fewer than the configured
maximum plus one generation. -/
theorem C30_in_run (hs : lib.Sorts)
    (h : (cmaes lib p fuel i x sim sg).interp (algHandler cfg env ops) s = (.ok r, s')) :
    ∃ L : ℕ, cmaPopulation lib.log n p = .ok (L : ℤ) ∧ L ∣ r.nfev ∧ (r.nfev : ℤ) ≤ max (cfg.sc.maxEval - 1) 0 + L := by
  obtain ⟨L, hL, h1, -, evs, hp, hh⟩ := cmaes_ok h
  have hl := hh.stopLaws
  have hs : (lib.inSuperIteration i).Sorts := hs
  obtain ⟨g, h2, h3, -⟩ := C30_whole_generations hs hp hl
  have hw : CMA.RunPost cfg.sc.maxEval L evs r := (cma_plays hs hp hl).2
  exact ⟨L, h1, ⟨g, h3⟩, by rw [hw.calls]; exact C30_bounded_overshoot hs hp hl⟩

/-- **C09.** A run with CMA-ES searches ends: if the loop of every search is observed for `max_eval_total + 2` rounds or
more, no search is cut off. -/
theorem C09_cmaes_not_cut_off (hm : NoMarker env ops) (hf : cfg.maxEvalTotal.toNat + 2 ≤ fuel) (o : O) :
    (execute cfg env ops (cmaes lib p fuel) o).1 ≠ .error .outOfFuel :=
  fun he => execute_errs hm.errs _ (CMA.cmaes_safe hm.errs fuel hf) o _ he rfl

/-- **C09.** The outcome does not depend on how long the loops are observed. -/
theorem C09_cmaes_result_is_final (hm : NoMarker env ops) (hf : cfg.maxEvalTotal.toNat + 2 ≤ fuel) (o : O) :
    execute cfg env ops (cmaes lib p fuel) o = execute cfg env ops (cmaes lib p (cfg.maxEvalTotal.toNat + 2)) o :=
  execute_congr (CMA.cmaes_fuel hm.errs fuel hf) o

/-- the discipline of a CMA-ES search -/
theorem cma_disciplined {L : ℕ} {hL : 0 < L} {evs : List (Ev K (Vec K n) F)} {m' : Strat K (Vec K n) F (DsmResult (Vec K n) F)}
    {s1 : AlgState (Vec K n) C O F} (hf : cfg.maxEvalTotal.toNat + 2 ≤ fuel)
    (hp : Plays (cmaRun lib hL fuel x sg) evs m') (hh : Handled (algHandler cfg env ops) s evs s1) : Disciplined evs := by
  have hw := (hp.of_wp (A := NM.A2 cfg.sc.maxEval cfg.maxEvalTotal.toNat) (h := []) (fun pre post hpp => by
      have h1 := hh.stopLaws
      have h2 := hh.budgetLaws
      rw [hpp] at h1
      refine ⟨h1.prefix, fun pre' post' he' => h2 pre' (post' ++ post) ?_⟩
      simp only [List.nil_append] at he'
      rw [hpp, he']; simp) (CMA.run2 hL fuel hf _)).1
  intro pre o r post he
  have := hw pre o r post he
  simp only [List.nil_append] at this
  constructor
  · rintro b rfl; exact this
  · rintro rfl; exact this

/-- **C32.** In a run: a CMA-ES search ends only if it was stopped: the run itself was stopped (budget, time, goal,
user), or one of the criteria was met when they were checked, or the change-based criterion was met for the values
measured so far. In the second case, if the change-based criterion is not used, the reported reason names the criterion. -/
theorem C32_cmaes_ends_for_a_reason (hf : cfg.maxEvalTotal.toNat + 2 ≤ fuel)
    (h : (cmaes lib p fuel i x sim sg).interp (algHandler cfg env ops) s = (.ok r, s')) :
    s'.sc.isConverged = true ∧ (s'.running = false ∨
      ∃ pre o ans s1 s2, Handled (algHandler cfg env ops) s pre s1 ∧ algHandler cfg env ops o s1 = (.ok ans, s2) ∧
        ((∃ cr, MetAt cfg env s1 o cr ∧ (¬ 1 < cfg.sc.cbsEvals → r.reason = cr.text)) ∨
          ∃ t, s1.sc.track <+: t ∧ t <+: s2.sc.track ∧ ChangeMet cfg.sc t)) := by
  obtain ⟨L, hL, -, -, evs, hp, hh⟩ := cmaes_ok h
  have he := (hp.of_wp (A := NM.T2) (h := []) (fun _ _ _ => trivial) (CMA.run3 hL fuel _)).2
  refine search_reason (cma_disciplined hf hp hh) hh ?_ he
  cases hp with
  | cons o k r evs m' h => exact ⟨_, _, rfl⟩

/-- **C32.** In a run: if one of the criteria is met when they are checked, the CMA-ES search does not call the objective
again. -/
theorem C32_cmaes_met_criterion_ends_search {L : ℕ} {hL : 0 < L} {evs pre post : List (Ev K (Vec K n) F)}
    {m' : Strat K (Vec K n) F (DsmResult (Vec K n) F)} {fs : List F} {calls : ℕ} {u : Unit}
    {s1 : AlgState (Vec K n) C O F} {cr : Criterion} (hf : cfg.maxEvalTotal.toNat + 2 ≤ fuel)
    (hp : Plays (cmaRun lib hL fuel x sg) evs m') (hh : Handled (algHandler cfg env ops) s evs s')
    (he : evs = pre ++ ⟨.checkCMA fs calls, u⟩ :: post) (h1 : Handled (algHandler cfg env ops) s pre s1)
    (hm : MetAt cfg env s1 (.checkCMA fs calls) cr) : objectiveCalls post = 0 := by
  have hd := cma_disciplined hf hp hh
  subst he
  obtain ⟨s2, h2, s3, h3, h4⟩ := Handled.append.1 hh
  have hs : s2 = s1 := h2.det h1
  subst hs
  have hc : s3.sc.isConverged = true := by
    have h7 : s3.sc = cmaCheck env.sqrt cfg.sc s2.sc fs calls (env.clock s2.ticks) := by
      simp only [algHandler] at h3
      cases h3; rfl
    rw [h7]
    by_cases hc : s2.sc.isConverged = true
    · rw [(C32_stopped_stays (size := .error .valueError) hc).2]; exact hc
    · exact (C32_cmaes_check (by simpa using hc)).1.2 ⟨cr, hm⟩
  refine no_more_calls hd rfl h4 hc fun a o r b hab hobj => ?_
  have hG := (hp.of_wp (A := NM.T2) (h := []) (fun _ _ _ => trivial) (CMA.run5 hL fuel sg)).1
    (pre ++ ⟨.checkCMA fs calls, u⟩ :: a) o r b (by rw [hab]; simp)
  have hF : CMA.Fresh (pre ++ ⟨.checkCMA fs calls, u⟩ :: a) := by
    cases o <;> first | exact hG | cases hobj
  exact hF _ _ _ _ _ rfl

end
end

/-- A search in a run that meets the hypotheses of the theorems above: it ends after two generations because three
evaluations were allowed; the run is not stopped. -/
example :
    (((cmaes exCmaLib (some 2) 12 0 (fun _ => 0) [] (fun _ => 1) : Strat ℚ (Vec ℚ 1) ℚ _).interp
      (algHandler (exStop 10 3 1) exNmEnv exNmOps) (initState (exStop 10 3 1) exNmEnv ())).1.toOption.map
        (fun r => (r.nfev, r.reason)),
     ((cmaes exCmaLib (some 2) 12 0 (fun _ => 0) [] (fun _ => 1) : Strat ℚ (Vec ℚ 1) ℚ _).interp
      (algHandler (exStop 10 3 1) exNmEnv exNmOps) (initState (exStop 10 3 1) exNmEnv ())).2.running) =
    (some (4, Criterion.evaluations.text), true) := by decide +kernel

end QuOCS
